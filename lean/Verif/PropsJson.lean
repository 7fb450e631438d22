import Verif.SemJson6

/-!
# C44: what the JSON parser of the crate reads

Statements about `json`, the parser of src/test_json.rs, in terms of the grammar in `Verif.SpecJson`.
`Padded d v t` says that the text `t` is the value `v` with whitespace around it, in dialect `d` of JSON:
`rfc` is RFC 8259, `actual` the language of the parser, `common` a part of both.
-/

namespace PPC.Json

open PPC

variable {F : Type} {parseF : String → Option F} {v : Value F} {xs : List Char}

/-! ## The language of the parser -/

/-- **C44.** `json.then_ignore(end()).parse(text)` returns a value exactly when the text is that value
with whitespace around it. -/
theorem C44_parse (al : Alloc) :
    (∃ n, parse (voidErr charSig) (document.prog (defs parseF) n) al (fun i => xs[i]?) () = .ok (.ok v)) ↔
      Padded (actual parseF) v xs := by
  have h0 : Valid (charEnv xs) 0 := .zero
  constructor
  · rintro ⟨n, h⟩
    rw [C32_parse_ok, C32_parse_with_recovery] at h
    obtain ⟨j, h⟩ := h
    have h1 := success_off (e := charEnv xs) (L := xs.length) (List.getElem?_eq_none (Nat.le_refl _)) h0
      document_calm document_progress document_coherent ⟨n, h⟩
    exact (accepts_document.1 ((C34_accepts defs_plain document_plain h0).1 h1)).1
  · intro h
    obtain ⟨n, h1⟩ := success_on h0 ((C34_accepts defs_plain document_plain h0).2 (accepts_document.2 ⟨h, rfl⟩))
    exact ⟨n, by rw [C32_parse_ok, C32_parse_with_recovery]; exact ⟨_, h1⟩⟩

/-- **C44.** With recovery disabled, the parse of a text succeeds with a value exactly when the text is
that value, and is then at the end of the text. -/
theorem C44_accepts {j : Nat} : Finishes (charEnv xs) (defs parseF) document false 0 (.success v) j ↔
    Padded (actual parseF) v xs ∧ j = xs.length := by
  rw [C34_accepts defs_plain document_plain .zero, accepts_document]

/-- **C44.** With recovery disabled, the parse of a text fails and consumes nothing exactly when the
text is not a value: it always returns. -/
theorem C44_rejects : (∃ x es, Finishes (charEnv xs) (defs parseF) document false 0 (.failed x es) 0) ↔
    ¬∃ v, Padded (actual parseF) v xs := by
  constructor
  · rintro ⟨x, es, h⟩ ⟨v, hv⟩
    cases (C33_unique .zero h (C44_accepts.2 ⟨hv, rfl⟩)).1
  · intro h
    obtain ⟨r, j, h1⟩ := returns_off (parseF := parseF) (e := charEnv xs) (L := xs.length)
      (List.getElem?_eq_none (Nat.le_refl _)) .zero document_calm document_progress
    cases r with
    | success v => exact (h ⟨v, (C44_accepts.1 h1).1⟩).elim
    | failed x es =>
      cases C34_stays defs_plain document_plain document_tidy .zero h1
      exact ⟨x, es, h1⟩
    | recovered v es => exact (C34_no_recovery defs_plain document_plain .zero h1).elim

/-- **C44.** A text has at most one value. -/
theorem C44_unambiguous {v' : Value F} (h : Padded (actual parseF) v xs) (h' : Padded (actual parseF) v' xs) :
    v = v' := by
  have h1 := C44_accepts.2 ⟨h, rfl⟩
  have h2 := C44_accepts.2 ⟨h', rfl⟩
  cases (C33_unique .zero h1 h2).1
  rfl

/-- **C44.** Anywhere in any source, the parser reads the value whose text comes next, if the value can
be told from what follows it. -/
theorem C44_next {e : Env charSig} {i j : Nat} {t : List Char} (hi : Valid e i) (ht : Padded (actual parseF) v t)
    (h : Reads e i t j) (hj : Apart t (e.source j)) (en : Bool) :
    Finishes e (defs parseF) json en i (.success v) j :=
  json_at hi ht h hj en

/-- **C44.** Anywhere in any source, what the parser consumes, with recovery disabled, is a text of the
value it returns. -/
theorem C44_consumes {e : Env charSig} {i j : Nat} (hi : Valid e i)
    (h : Finishes e (defs parseF) json false i (.success v) j) :
    ∃ t, Padded (actual parseF) v t ∧ Reads e i t j :=
  json_sound _ (Nat.le_refl _) ((C34_accepts defs_plain json_plain hi).1 h)

/-- **C44.** Every value without floating point numbers, whose integers are in range, has a text that
the parser reads. -/
theorem C44_every_value (parseF : String → Option F) (h : Simple v) (al : Alloc) :
    ∃ (xs : List Char) (n : Nat), parse (voidErr charSig) (document.prog (defs parseF) n) al (fun i => xs[i]?) () = .ok (.ok v) := by
  obtain ⟨t, h⟩ := simple_text parseF h
  exact ⟨t, (C44_parse al).2 (pad h)⟩

/-- **C44.** `json.stream(text)`, for a text that consists of values one after the other: the answers
are the values in order, and nothing after that. -/
theorem C44_stream (al : Alloc) {vs : List (Value F)} (h : Texts (actual parseF) vs xs) (m : Nat) :
    ∃ n s', (streamThenTail (json.prog (defs parseF) n) (vs.length + m) 0).run Stream.step
      (Stream.newWithLocation al (fun i => xs[i]?) ()) =
        .ok ((vs.map (fun v => some (.success v)) ++ List.replicate m none, []), s') := by
  obtain ⟨h1, h2⟩ := (reads_all (xs := xs)).2 ⟨rfl, rfl⟩
  obtain ⟨n, h3⟩ := answers_texts h (e := charEnv xs) .zero h1 h2 m
  refine ⟨n, (C31_stream (g := json) (D := defs parseF) (n := n) al (fun i => xs[i]?) () (vs.length + m) 0 _ []).2
    ⟨?_, _, h3, ?_⟩⟩
  · simp
  exact ⟨rfl, fun a t => ⟨fun h => (by cases h), fun h => absurd h.1 (Nat.not_lt_zero a)⟩⟩

/-- **C44.** The benchmark of the crate, with any text of a value in place of sample.json: `stream` over
the endless repetition of the text answers with the value again and again, however often it is asked. -/
theorem C44_benchmark (al : Alloc) (h : Padded (actual parseF) v xs) (hx : Apart xs xs.head?) (k : Nat) :
    ∃ n s', (streamThenTail (json.prog (defs parseF) n) k 0).run Stream.step
      (Stream.newWithLocation al (fun i => xs[i % xs.length]?) ()) =
        .ok ((List.replicate k (some (.success v)), []), s') := by
  obtain ⟨n, l, h1⟩ := answers_cycle (e := ⟨fun i => xs[i % xs.length]?, ()⟩) h hx (fun _ => rfl) k 0
    (by rw [Nat.zero_mul]; exact .zero)
  rw [Nat.zero_mul] at h1
  refine ⟨n, (C31_stream (g := json) (D := defs parseF) (n := n) al (fun i => xs[i % xs.length]?) () k 0 _ []).2
    ⟨?_, _, h1, ?_⟩⟩
  · simp
  exact ⟨rfl, fun a t => ⟨fun h => (by cases h), fun h => absurd h.1 (Nat.not_lt_zero a)⟩⟩

/-! ## JSON -/

/-- **C44**, the part of it that holds: a JSON text without numbers that have a fraction or an exponent
or are too large, without `\uXXXX` in which a decimal digit occurs, and without whitespace in empty
arrays and objects, is parsed, and to the right value. -/
theorem C44_json_partial (parseF : String → Option F) (real : Bool → List Char → Option (List Char) → Option (Bool × List Char) → F)
    (al : Alloc) (h : Padded (common F) v xs) : Padded (rfc real) v xs ∧
      ∃ n, parse (voidErr charSig) (document.prog (defs parseF) n) al (fun i => xs[i]?) () = .ok (.ok v) :=
  ⟨h.le (common_le_rfc real), (C44_parse al).2 (h.le (common_le_actual parseF))⟩

/-! ## The hypotheses can be met -/

theorem noWs : Ws [] := by intro c hc; cases hc

theorem ws1 : Ws [' '] := by intro c hc; rw [List.mem_singleton.1 hc]; exact .inl rfl

/-- ` {"a" : [1, true]} ` -/
theorem exText : Padded (common F) (.object [("a", .array [.int 1, .bool true])])
    ([' '] ++ ('{' :: ([] ++ ('"' :: ((['a'] ++ []) ++ ['"']) ++ ([' '] ++ ':' :: ([' '] ++ (
      '[' :: ((([] ++ (([] ++ (['1'] ++ ([] ++ []))) ++ [])) ++ ',' :: ([' '] ++ (['t', 'r', 'u', 'e'] ++ []))) ++ [']'])
      ++ [])))) ++ ['}']) ++ [' '])) := by
  refine .mk ws1 (.object (.one (.mk noWs (StringText.mk (cs := ['a']) (.cons (.raw (show _ ∧ _ ∧ _ by decide)) .nil)) ws1
    (.mk ws1 (.array (.more ?_ (.one (.mk ws1 .true noWs)))) noWs)))) ws1
  refine .mk noWs (.number (.mk (neg := false) rfl (.inr ⟨⟨by simp, ?_⟩, by decide⟩) .none .none ?_)) noWs
  · intro c hc; rw [List.mem_singleton.1 hc]; simp [Digit]
  · simp [common, decimal]

/-- The hypothesis of `C44_json_partial`, and with it the right side of `C44_parse`. -/
example : ∃ (v : Value F) (xs : List Char), Padded (common F) v xs ∧ xs.length = 19 := ⟨_, _, exText, rfl⟩

/-- The hypotheses of `C44_benchmark`. -/
example : ∃ (v : Value F) (xs : List Char), Padded (actual parseF) v xs ∧ Apart xs xs.head? := by
  refine ⟨.null, ['n', 'u', 'l', 'l'], pad .null, ?_⟩
  intro x hx
  cases hx
  simp [IsWs, NumChar, Digit]

/-- The hypotheses of `C44_stream` and `C44_next`: `null [] `. -/
theorem exTexts : Texts (actual parseF) [.null, .array []]
    (([] ++ (['n', 'u', 'l', 'l'] ++ [' '])) ++ (([] ++ (('[' :: ([] ++ [']'])) ++ [' '])) ++ [])) := by
  refine .cons (.mk noWs .null ws1) (.cons (.mk noWs (.emptyArray noWs (by simp)) ws1) .nil ?_) ?_
  · intro x hx; cases hx
  · intro x hx
    cases hx
    simp [IsWs, NumChar, Digit]

/-- The hypothesis of `C44_every_value`. -/
example : Simple (.object [("a", .array [.int (-5), .bool true])] : Value F) := by
  refine .object fun kv h => ?_
  rw [List.mem_singleton.1 h]
  refine .array fun v h => ?_
  simp at h
  rcases h with rfl | rfl
  · exact .int (by decide)
  · exact .bool true

/-! ## Where the parser deviates from JSON -/

/-- The floating point numbers in the examples below are texts. -/
abbrev exDefs : Defs charSig (names String) := defs some

/-- The parse fails. -/
def failed {α E : Type} : Out (Res α E × Nat) → Bool
  | .ok (.failed _ _, _) => true
  | _ => false

/-- The parse panics. -/
def panicked {α : Type} : Out α → String → Bool
  | .panic m, m' => m == m'
  | _, _ => false

theorem panicked_iff {α : Type} {x : Out α} {m : String} : panicked x m = true ↔ x = .panic m := by
  cases x <;> simp [panicked]

theorem rejected {n : Nat} {s : String} (h : failed ((document (F := String)).sem (charEnv s.toList) exDefs n false 0) = true) :
    ¬∃ v, Padded (actual some) v s.toList := by
  refine C44_rejects.1 ?_
  cases h1 : (document (F := String)).sem (charEnv s.toList) exDefs n false 0 with
  | ok x =>
    obtain ⟨r, j⟩ := x
    cases r with
    | failed x es =>
      have h2 : Finishes (charEnv s.toList) exDefs document false 0 (.failed x es) j := ⟨n, (parsesAt_iff .zero).2 h1⟩
      cases C34_stays defs_plain document_plain document_tidy .zero h2
      exact ⟨x, es, h2⟩
    | _ => rw [h1] at h; cases h
  | _ => rw [h1] at h; cases h

/-- **C44** fails: whitespace in an empty array is JSON, and rejected. -/
theorem C44_blank_array (real : Bool → List Char → Option (List Char) → Option (Bool × List Char) → String) :
    Padded (rfc real) (.array []) "[ ]".toList ∧
      ¬∃ v, Padded (actual some) v "[ ]".toList := by
  refine ⟨?_, rejected (n := 20) (by decide +kernel)⟩
  have := pad (d := rfc real) (.emptyArray ws1 fun _ => trivial)
  exact this

/-- **C44** fails: the letter `A` written as `"\u0041"` is JSON, and rejected. -/
theorem C44_unicode_escape (real : Bool → List Char → Option (List Char) → Option (Bool × List Char) → String) :
    Padded (rfc real) (.string "A") "\"\\u0041\"".toList ∧
      ¬∃ v, Padded (actual some) v "\"\\u0041\"".toList := by
  refine ⟨?_, rejected (n := 20) (by decide +kernel)⟩
  have := pad (d := rfc real) (.string (.mk (cs := ['A']) (.cons (.unicode (a := '0') (b := '0') (c := '4') (x := '1')
    ⟨0, 0, 4, 1, by decide, by decide, by decide, by decide, by decide⟩) .nil)))
  exact this

/-- **C44** fails: `"\ua000"` stands for U+A000, and is read as U+5CD1. -/
theorem C44_unicode_misread (real : Bool → List Char → Option (List Char) → Option (Bool × List Char) → String) :
    Padded (rfc real) (.string "\ua000") "\"\\ua000\"".toList ∧
      Padded (actual some) (.string "\u5cd1") "\"\\ua000\"".toList := by
  constructor
  · have := pad (d := rfc real) (.string (.mk (cs := ['\ua000']) (.cons (.unicode (a := 'a') (b := '0') (c := '0') (x := '0')
      ⟨10, 0, 0, 0, by decide, by decide, by decide, by decide, by decide⟩) .nil)))
    exact this
  · have := pad (d := actual (F := String) some) (.string (.mk (cs := ['\u5cd1']) (.cons (.unicode (a := 'a') (b := '0') (c := '0') (x := '0')
      ⟨10, -63, -63, -63, by decide, by decide, by decide, by decide, by decide⟩) .nil)))
    exact this

theorem digits_of {t : List Char} (h1 : t ≠ []) (h : t.all (fun c => decide (c ∈ digits)) = true) : Digits t :=
  ⟨h1, fun c hc => digit_mem.1 (by simpa using List.all_eq_true.1 h c hc)⟩

/-- **C44** fails: a number with a fraction or an exponent is given the value of its integer part: `-1.5e3`
is read like `1.0`, as `"1".parse::<f64>()`. -/
theorem C44_fraction_dropped (parseF : String → Option F) {x : F} (hx : parseF "1" = some x) :
    Padded (actual parseF) (.float x) "1.0".toList ∧ Padded (actual parseF) (.float x) "-1.5e3".toList := by
  constructor
  · have := pad (d := actual parseF) (v := .float x) (.number (.mk (neg := false) (t := ['1']) rfl
      (.inr ⟨digits_of (by simp) (by decide), by decide⟩)
      (.some (t := ['0']) (digits_of (by simp) (by decide))) .none (by
        simp only [actual]; rw [show String.ofList ['1'] = "1" from rfl, hx]; rfl)))
    exact this
  · have := pad (d := actual parseF) (v := .float x) (.number (.mk (neg := true) (t := ['1']) rfl
      (.inr ⟨digits_of (by simp) (by decide), by decide⟩)
      (.some (t := ['5']) (digits_of (by simp) (by decide))) (.some (.inl rfl) .none (t := ['3'])
        (digits_of (by simp) (by decide))) (by
        simp only [actual]; rw [show String.ofList ['1'] = "1" from rfl, hx]; rfl)))
    exact this

/-- **C44** fails: a string with a control character in it is not JSON, and accepted. -/
theorem C44_control_characters (parseF : String → Option F)
    (real : Bool → List Char → Option (List Char) → Option (Bool × List Char) → F) :
    (¬∃ v, Padded (rfc real) v "\"\x01\"".toList) ∧
      Padded (actual parseF) (.string "\x01") "\"\x01\"".toList := by
  constructor
  · rintro ⟨v, h⟩
    have h1 := h.plainly '\x01' (by decide)
    revert h1
    unfold Plainly IsWs
    decide
  · have := pad (d := actual parseF) (.string (.mk (cs := ['\x01']) (.cons (.raw (by simp [actual])) .nil)))
    exact this

/-- **C44** fails: the integer `2 ^ 127` is JSON, and rejected; with recovery enabled as well,
although the parser of numbers is meant to recover from that. -/
theorem C44_large_integer (real : Bool → List Char → Option (List Char) → Option (Bool × List Char) → String) :
    Padded (rfc real) (.int (2 ^ 127)) "170141183460469231731687303715884105728".toList ∧
      (¬∃ v, Padded (actual some) v "170141183460469231731687303715884105728".toList) ∧
      ∃ x es j, Finishes (charEnv "170141183460469231731687303715884105728".toList) exDefs document true 0
        (.failed x es) j := by
  refine ⟨?_, rejected (n := 100) (by decide +kernel), ?_⟩
  · have := pad (d := rfc real) (v := .int (2 ^ 127)) (.number (.mk (neg := false)
      (t := "170141183460469231731687303715884105728".toList) rfl
      (.inr ⟨digits_of (by decide) (by decide), by decide⟩) .none .none (by
        simp only [rfc]; congr 2)))
    simpa using this
  · have h : failed ((document (F := String)).sem (charEnv "170141183460469231731687303715884105728".toList) exDefs 100 true 0)
      = true := by decide +kernel
    cases h1 : (document (F := String)).sem (charEnv "170141183460469231731687303715884105728".toList) exDefs 100 true 0 with
    | ok x =>
      obtain ⟨r, j⟩ := x
      cases r with
      | failed x es => exact ⟨x, es, j, 100, (parsesAt_iff .zero).2 h1⟩
      | _ => rw [h1] at h; cases h
    | _ => rw [h1] at h; cases h

/-- **C44** fails: `parse` panics on some texts that are not JSON, instead of returning an error: a
number that is too large, followed by a number. -/
theorem C44_panics (al : Alloc) :
    ∃ n, parse (voidErr charSig) ((document (F := String)).prog exDefs n) al
      (fun i => "170141183460469231731687303715884105728-5".toList[i]?) () =
        .panic "internal error: entered unreachable code: parser that previously failed now magically succeeded" := by
  refine ⟨100, ?_⟩
  rw [C32_parse_panic]
  unfold parseWithRecovery
  have h : panicked ((document (F := String)).sem (charEnv "170141183460469231731687303715884105728-5".toList) exDefs 100 true 0)
    "internal error: entered unreachable code: parser that previously failed now magically succeeded" = true := by
    decide +kernel
  have h1 := (G.run_panic (al := al) (e := charEnv "170141183460469231731687303715884105728-5".toList) exDefs 100 document
    true .new _).2 (panicked_iff.1 h)
  rw [h1]
  rfl

end PPC.Json
