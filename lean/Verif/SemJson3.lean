import Verif.SemJson2

/-!
# The JSON grammar accepts the texts of its dialect, and nothing else: lemmas
-/

namespace PPC.Json

open PPC

variable {F : Type} {e : Env charSig} {D : Defs charSig (names F)} {i j k : Nat} {parseF : String → Option F}

theorem choice_eq : choice parseF = .alters (.cons (.boxed object) (.cons (.boxed array)
    (.cons (.boxed (string F)) (.cons (.boxed (boolTrue F)) (.cons (.boxed (boolFalse F)) (.cons (.boxed (null F))
    (.cons (.boxed (number parseF)) .nil))))))) := rfl

theorem null_eq : null F = .to (.seq "null" ['n', 'u', 'l', 'l']) .null := rfl

theorem boolTrue_eq : boolTrue F = .to (.seq "true" ['t', 'r', 'u', 'e']) (.bool true) := rfl

theorem boolFalse_eq : boolFalse F = .to (.seq "false" ['f', 'a', 'l', 's', 'e']) (.bool false) := rfl

theorem object_eq : object (F := F) = .boxed (.map .object (.delimitedBy (.just '{')
    (.or (.separatedBy ⟨0, none, false, false⟩ keyValuePair (.just ',')) (.to (whitespace F) [])) (.just '}'))) := rfl

theorem array_eq : array (F := F) = .boxed (.map .array (.delimitedBy (.just '[')
    (.or (.separatedBy ⟨0, none, false, false⟩ value (.just ',')) (.to (whitespace F) [])) (.just ']'))) := rfl

/-! ## Rejection by the first character -/

theorem rej_object (h : ¬ At e i (· = '{')) : Rejects e D (object (F := F)) i := by
  rw [object_eq]; exact .boxed (.map (.delimitedByLeft (rej_just.2 h)))

theorem rej_array (h : ¬ At e i (· = '[')) : Rejects e D (array (F := F)) i := by
  rw [array_eq]; exact .boxed (.map (.delimitedByLeft (rej_just.2 h)))

theorem rej_string (h : ¬ At e i (· = '"')) : Rejects e D (string F) i := by
  unfold string; exact .boxed (.map (rej_key h))

theorem rej_true (h : ¬ At e i (· = 't')) : Rejects e D (boolTrue F) i := by
  rw [boolTrue_eq]; exact .to (rej_seq h)

theorem rej_false (h : ¬ At e i (· = 'f')) : Rejects e D (boolFalse F) i := by
  rw [boolFalse_eq]; exact .to (rej_seq h)

theorem rej_null (h : ¬ At e i (· = 'n')) : Rejects e D (null F) i := by
  rw [null_eq]; exact .to (rej_seq h)

/-- The first characters of values. -/
def ValueStart (c : Char) : Prop :=
  c = '{' ∨ c = '[' ∨ c = '"' ∨ c = 't' ∨ c = 'f' ∨ c = 'n' ∨ Digit c ∨ c = '-'

theorem rej_choice (h : ¬ At e i ValueStart) : Rejects e D (choice parseF) i := by
  have hm : ∀ {p : Char → Prop}, (∀ c, p c → ValueStart c) → ¬ At e i p := fun hp ⟨c, h1, h2⟩ => h ⟨c, h1, hp c h2⟩
  rw [choice_eq]
  refine .alters (.cons (.boxed (rej_object (hm ?_))) (.cons (.boxed (rej_array (hm ?_)))
    (.cons (.boxed (rej_string (hm ?_))) (.cons (.boxed (rej_true (hm ?_))) (.cons (.boxed (rej_false (hm ?_)))
    (.cons (.boxed (rej_null (hm ?_))) (.cons (.boxed (rej_number (hm ?_))) .nil)))))))
  all_goals
    intro c hc
    simp only [ValueStart, hc, true_or, or_true]

/-! ## Soundness -/

theorem sepRun_le {α β : Type} {g : P F α} {sep : P F β} {os : List α} (h : SepRun e D g sep i os j) : i ≤ j := by
  induction h with
  | noSep => exact Nat.le_refl _
  | noItem => exact Nat.le_refl _
  | cons h h' _ ih => exact Nat.le_trans h.le (Nat.le_trans h'.le ih)

theorem list_sound {α : Type} {g : P F α} {T : α → List Char → Prop} {L : List α → List Char → Prop} {lo hi : Nat}
    (hg : ∀ a b o, lo ≤ a → b ≤ hi → Accepts e D g a o b → ∃ t, T o t ∧ Reads e a t b)
    (one : ∀ {o t}, T o t → L [o] t) (more : ∀ {o t os ts}, T o t → L os ts → L (o :: os) (t ++ ',' :: ts)) :
    ∀ {os : List α} {o : α} {i h j : Nat}, Accepts e D g i o h →
      SepRun e D g (.just (ε := voidErr charSig) ',') h os j → lo ≤ i → j ≤ hi →
      ∃ t, L (o :: os) t ∧ Reads e i t j
  | [], o, i, h, j, ha, hs, hlo, hhi => by
    have : j = h := by cases hs <;> rfl
    subst this
    obtain ⟨t, ht, hr⟩ := hg _ _ _ hlo hhi ha
    exact ⟨t, one ht, hr⟩
  | o' :: os, o, i, h, j, ha, hs, hlo, hhi => by
    have hle := sepRun_le hs
    cases hs with
    | cons h1 h2 h3 =>
      obtain ⟨h4, rfl, rfl⟩ := acc_just.1 h1
      have h5 := ha.le
      obtain ⟨t, ht, hr⟩ := hg _ _ _ hlo (Nat.le_trans hle hhi) ha
      obtain ⟨ts, hts, hrs⟩ := list_sound hg one more h2 h3 (by omega) hhi
      exact ⟨t ++ ',' :: ts, more ht hts, (reads_append (t := ',' :: ts)).2 ⟨h, hr, h4, hrs⟩⟩

theorem acc_thenIgnore {α β : Type} {g : P F α} {g' : P F β} {o : α} :
    Accepts e D (.thenIgnore g g') i o j ↔ ∃ k y, Accepts e D g i o k ∧ Accepts e D g' k y j := accepts_iff

theorem member_sound {lo hi : Nat}
    (hv : ∀ a b v, lo ≤ a → b ≤ hi → Accepts e D (value (F := F)) a v b → ∃ t, Padded (actual parseF) v t ∧ Reads e a t b) :
    ∀ a b kv, lo ≤ a → b ≤ hi → Accepts e D (keyValuePair (F := F)) a kv b →
      ∃ t, Member (actual parseF) kv t ∧ Reads e a t b := by
  rintro a b ⟨k, v⟩ hlo hhi h
  unfold keyValuePair at h
  obtain ⟨p, h1, h2⟩ := acc_then.1 (acc_boxed.1 h)
  have hp := h1.le
  obtain ⟨p3, y3, h3, h4⟩ := acc_thenIgnore.1 h1
  obtain ⟨p2, w', h5, h6⟩ := acc_thenIgnore.1 h3
  obtain ⟨p1, w, h7, h8⟩ := acc_ignoreThen.1 h5
  obtain ⟨h9, rfl, rfl⟩ := acc_just.1 h4
  obtain ⟨u, hu, ru⟩ := hv _ _ _ (Nat.le_trans hlo hp) hhi h2
  obtain ⟨t, rt, ht⟩ := (acc_key (parseF := parseF)).1 h8
  obtain ⟨hw, rw, _⟩ := acc_ws.1 h7
  obtain ⟨hw', rw', _⟩ := acc_ws.1 h6
  exact ⟨w ++ (t ++ (w' ++ ':' :: u)), .mk hw ht hw' hu, reads_append.2 ⟨_, rw, reads_append.2 ⟨_, rt,
    (reads_append (t := ':' :: u)).2 ⟨_, rw', h9, ru⟩⟩⟩⟩

theorem choice_sound {lo : Nat} {v : Value F}
    (hv : ∀ a b v, lo < a → b < j → Accepts e D (value (F := F)) a v b → ∃ t, Padded (actual parseF) v t ∧ Reads e a t b)
    (hlo : lo ≤ i) (h : Accepts e D (choice parseF) i v j) : ∃ t, Text (actual parseF) v t ∧ Reads e i t j := by
  rw [choice_eq, accepts_iff] at h
  simp only [StepA, acceptsFirst_cons, acceptsFirst_nil, acc_boxed] at h
  rcases h with h | ⟨_, h | ⟨_, h | ⟨_, h | ⟨_, h | ⟨_, h | ⟨_, h | ⟨_, h⟩⟩⟩⟩⟩⟩⟩
  · rw [object_eq] at h
    obtain ⟨os, h1, rfl⟩ := acc_map.1 (acc_boxed.1 h)
    rw [accepts_iff] at h1
    obtain ⟨a, b, x, y, h2, h3, h4⟩ := h1
    obtain ⟨h5, rfl, rfl⟩ := acc_just.1 h2
    obtain ⟨h6, rfl, rfl⟩ := acc_just.1 h4
    rw [accepts_iff] at h3
    rcases h3 with h3 | ⟨h3, _⟩
    · rcases accepts_separatedBy.1 h3 with ⟨rfl, rfl, _⟩ | ⟨o, os, m, rfl, h7, h8⟩
      · exact ⟨'{' :: ([] ++ ['}']), .emptyObject (fun c hc => by cases hc) (fun hn => (hn rfl).elim), h5, h6, rfl⟩
      · obtain ⟨t, ht, hr⟩ := list_sound (lo := i + 1) (hi := b) (L := Members (actual parseF))
          (member_sound (fun a' b' v' ha hb => hv a' b' v' (by omega) (by omega)))
          .one .more h7 h8 (Nat.le_refl _) (Nat.le_refl _)
        exact ⟨'{' :: (t ++ ['}']), .object ht, h5, (reads_append (t := ['}'])).2 ⟨_, hr, h6, rfl⟩⟩
    · exact (rejects_separatedBy rfl h3).elim
  · rw [array_eq] at h
    obtain ⟨os, h1, rfl⟩ := acc_map.1 (acc_boxed.1 h)
    rw [accepts_iff] at h1
    obtain ⟨a, b, x, y, h2, h3, h4⟩ := h1
    obtain ⟨h5, rfl, rfl⟩ := acc_just.1 h2
    obtain ⟨h6, rfl, rfl⟩ := acc_just.1 h4
    rw [accepts_iff] at h3
    rcases h3 with h3 | ⟨h3, _⟩
    · rcases accepts_separatedBy.1 h3 with ⟨rfl, rfl, _⟩ | ⟨o, os, m, rfl, h7, h8⟩
      · exact ⟨'[' :: ([] ++ [']']), .emptyArray (fun c hc => by cases hc) (fun hn => (hn rfl).elim), h5, h6, rfl⟩
      · obtain ⟨t, ht, hr⟩ := list_sound (lo := i + 1) (hi := b) (L := Elements (actual parseF))
          (fun a' b' v' ha hb => hv a' b' v' (by omega) (by omega))
          .one .more h7 h8 (Nat.le_refl _) (Nat.le_refl _)
        exact ⟨'[' :: (t ++ [']']), .array ht, h5, (reads_append (t := [']'])).2 ⟨_, hr, h6, rfl⟩⟩
    · exact (rejects_separatedBy rfl h3).elim
  · unfold string at h
    obtain ⟨s, h1, rfl⟩ := acc_map.1 (acc_boxed.1 h)
    obtain ⟨t, hr, ht⟩ := (acc_key (parseF := parseF)).1 h1
    exact ⟨t, .string ht, hr⟩
  · rw [boolTrue_eq, accepts_iff] at h
    obtain ⟨⟨_, h1⟩, rfl⟩ := h
    exact ⟨_, .true, (acc_seq.1 h1).1⟩
  · rw [boolFalse_eq, accepts_iff] at h
    obtain ⟨⟨_, h1⟩, rfl⟩ := h
    exact ⟨_, .false, (acc_seq.1 h1).1⟩
  · rw [null_eq, accepts_iff] at h
    obtain ⟨⟨_, h1⟩, rfl⟩ := h
    exact ⟨_, .null, (acc_seq.1 h1).1⟩
  · obtain ⟨t, ht, hr⟩ := acc_number h
    exact ⟨t, .number ht, hr⟩
  · exact h.elim

theorem json_sound : ∀ (n : Nat) {i j : Nat} {v : Value F}, j - i ≤ n →
    Accepts e (defs parseF) (json (F := F)) i v j → ∃ t, Padded (actual parseF) v t ∧ Reads e i t j := by
  intro n
  induction n with
  | zero =>
    intro i j v hn h
    unfold json at h
    rw [accepts_iff] at h
    obtain ⟨g, hg, h⟩ := h
    cases hg
    rw [accepts_iff] at h
    obtain ⟨a, b, w, w', h1, h2, h3⟩ := accepts_iff.1 h
    have := h1.le
    have := h2.le
    have := h3.le
    obtain ⟨hw, hr, _⟩ := acc_ws.1 h1
    obtain ⟨hw', hr', _⟩ := acc_ws.1 h3
    obtain ⟨t, ht, hr2⟩ := choice_sound (lo := i) (fun a' b' v' ha hb h' => by have := h'.le; omega) (by omega) h2
    exact ⟨_, .mk hw ht hw', reads_append.2 ⟨_, hr, reads_append.2 ⟨_, hr2, hr'⟩⟩⟩
  | succ n ih =>
    intro i j v hn h
    unfold json at h
    rw [accepts_iff] at h
    obtain ⟨g, hg, h⟩ := h
    cases hg
    rw [accepts_iff] at h
    obtain ⟨a, b, w, w', h1, h2, h3⟩ := accepts_iff.1 h
    have := h1.le
    have := h2.le
    have := h3.le
    obtain ⟨hw, hr, _⟩ := acc_ws.1 h1
    obtain ⟨hw', hr', _⟩ := acc_ws.1 h3
    obtain ⟨t, ht, hr2⟩ := choice_sound (lo := i)
      (fun a' b' v' ha hb h' => ih (by have := h'.le; omega) h') (by omega) h2
    exact ⟨_, .mk hw ht hw', reads_append.2 ⟨_, hr, reads_append.2 ⟨_, hr2, hr'⟩⟩⟩

/-! ## Completeness -/

theorem intPart_head {t : List Char} (ht : IntPart t) : ∃ c t', t = c :: t' ∧ Digit c := by
  rcases ht with rfl | ⟨⟨hne, hd⟩, _⟩
  · exact ⟨_, _, rfl, .inl rfl⟩
  · cases t with
    | nil => exact (hne rfl).elim
    | cons c t => exact ⟨c, t, rfl, hd c (by simp)⟩

theorem number_head {d : Dialect F} {v : Value F} {t : List Char} (ht : NumberText d v t) :
    ∃ c t', t = c :: t' ∧ (Digit c ∨ c = '-') := by
  cases ht with
  | @mk neg s t u w frac exp v hs ht =>
    subst hs
    cases neg with
    | true => exact ⟨_, _, rfl, .inr rfl⟩
    | false =>
      obtain ⟨c, t', rfl, hc⟩ := intPart_head ht
      exact ⟨c, _, rfl, .inl hc⟩

theorem string_head {d : Dialect F} {s : String} {t : List Char} (ht : StringText d s t) : ∃ t', t = '"' :: t' := by
  cases ht; exact ⟨_, rfl⟩

theorem text_head {d : Dialect F} {v : Value F} {t : List Char} (ht : Text d v t) :
    ∃ c t', t = c :: t' ∧ ValueStart c := by
  cases ht with
  | number h =>
    obtain ⟨c, t', rfl, hc⟩ := number_head h
    exact ⟨c, t', rfl, by rcases hc with hc | hc <;> simp [ValueStart, hc]⟩
  | string h => cases h; exact ⟨_, _, rfl, by simp [ValueStart]⟩
  | _ => exact ⟨_, _, rfl, by simp [ValueStart]⟩

theorem valueStart_not_ws {c : Char} (h : ValueStart c) : ¬ IsWs c := by
  unfold ValueStart Digit at h
  unfold IsWs
  rcases h with rfl | rfl | rfl | rfl | rfl | rfl |
    (rfl | rfl | rfl | rfl | rfl | rfl | rfl | rfl | rfl | rfl) | rfl <;> decide

theorem ws_not_num {c : Char} (h : IsWs c) : ¬ NumChar c := by
  unfold IsWs at h
  unfold NumChar Digit
  rcases h with rfl | rfl | rfl | rfl <;> decide

theorem apart_of {t : List Char} {c : Char} (h : e.source j = some c) (hc : c = ',' ∨ c = ']' ∨ c = '}') :
    Apart t (e.source j) := by
  intro x hx
  cases h.symm.trans hx
  rcases hc with rfl | rfl | rfl <;> simp [IsWs, NumChar, Digit]

theorem Apart.ws {t : List Char} (h : Apart t (e.source j)) : ¬ At e j IsWs := by
  rintro ⟨c, h1, h2⟩
  exact (h c h1).1 h2

theorem digits_last {t : List Char} (h : Digits t) : ∃ c, t.getLast? = some c ∧ Digit c := by
  refine ⟨_, List.getLast?_eq_some_getLast h.1, h.2 _ (List.getLast_mem h.1)⟩

theorem last_append {s t : List Char} {p : Char → Prop} (h : ∃ c, t.getLast? = some c ∧ p c) :
    ∃ c, (s ++ t).getLast? = some c ∧ p c := by
  obtain ⟨c, h1, h2⟩ := h
  exact ⟨c, by rw [List.getLast?_append, h1]; rfl, h2⟩

theorem Apart.tail {s t : List Char} {o : Option Char} (h : Apart (s ++ t) o) : Apart t o :=
  fun x hx => ⟨(h x hx).1, fun hy => (h x hx).2 (last_append hy)⟩

theorem number_last {d : Dialect F} {v : Value F} {t : List Char} (ht : NumberText d v t) :
    ∃ c, t.getLast? = some c ∧ Digit c := by
  obtain ⟨-, hi, hf, hx, -⟩ := ht
  refine last_append ?_
  cases hx with
  | some _ _ hd => exact last_append (last_append (last_append (s := [_]) (last_append (digits_last hd))))
  | none =>
    rw [List.append_nil]
    cases hf with
    | some hd => exact last_append (last_append (s := [_]) (digits_last hd))
    | none =>
      rw [List.append_nil]
      rcases hi with rfl | ⟨hd, -⟩
      · exact ⟨'0', rfl, .inl rfl⟩
      · exact digits_last hd

theorem Apart.before {w t w' : List Char} {v : Value F} (hs : Apart (w ++ (t ++ w')) (e.source j)) (hw : Ws w')
    (h : Reads e i w' j) {d : Dialect F} (ht : NumberText d v t) : ¬ At e i NumChar := by
  cases w' with
  | nil =>
    cases h
    rintro ⟨c, h1, h2⟩
    exact (hs c h1).2 (last_append (by simpa using number_last ht)) h2
  | cons c w => rw [h.at]; exact ws_not_num (hw c (by simp))

theorem ws_acc {w : List Char} (hw : Ws w) (h : Reads e i w j) (hj : ¬ At e j IsWs) :
    Accepts e D (whitespace F) i w j := acc_ws.2 ⟨hw, h, hj⟩

theorem call_acc {v : Value F} {w w' : List Char} {a b : Nat} (h1 : Accepts e (defs parseF) (whitespace F) i w a)
    (h2 : Accepts e (defs parseF) (choice parseF) a v b) (h3 : Accepts e (defs parseF) (whitespace F) b w' j) :
    Accepts e (defs parseF) (json (F := F)) i v j :=
  .call rfl (.withError (.paddedBy h1 h2 h3))

theorem rej_value (h : ¬ At e i fun c => IsWs c ∨ ValueStart c) : Rejects e (defs parseF) (value (F := F)) i := by
  refine .call rfl (.withError (.paddedByMiddle (x := []) (j := i) ?_ (rej_choice fun ⟨c, h1, h2⟩ => h ⟨c, h1, .inr h2⟩)))
  exact ws_acc (fun c hc => by cases hc) rfl fun ⟨c, h1, h2⟩ => h ⟨c, h1, .inl h2⟩

theorem rej_member (h : ¬ At e i fun c => IsWs c ∨ c = '"') : Rejects e D (keyValuePair (F := F)) i := by
  unfold keyValuePair
  refine .boxed (.thenFirst (.thenIgnoreFirst (.thenIgnoreFirst (.ignoreThenSecond (x := []) (j := i) ?_
    (rej_key fun ⟨c, h1, h2⟩ => h ⟨c, h1, .inr h2⟩)))))
  exact ws_acc (fun c hc => by cases hc) rfl fun ⟨c, h1, h2⟩ => h ⟨c, h1, .inl h2⟩

section

variable (e parseF)

/-- The alternatives before the one that the first character selects reject it. -/
theorem choice_acc_first {c : Char} {t : List Char} {v : Value F} (h : Reads e i (c :: t) j) {D : Defs charSig (names F)} :
    (c = '{' → Accepts e D (object (F := F)) i v j → Accepts e D (choice parseF) i v j) ∧
    (c = '[' → Accepts e D (array (F := F)) i v j → Accepts e D (choice parseF) i v j) ∧
    (c = '"' → Accepts e D (string F) i v j → Accepts e D (choice parseF) i v j) ∧
    (c = 't' → Accepts e D (boolTrue F) i v j → Accepts e D (choice parseF) i v j) ∧
    (c = 'f' → Accepts e D (boolFalse F) i v j → Accepts e D (choice parseF) i v j) ∧
    (c = 'n' → Accepts e D (null F) i v j → Accepts e D (choice parseF) i v j) ∧
    ((Digit c ∨ c = '-') → Accepts e D (number parseF) i v j → Accepts e D (choice parseF) i v j) := by
  rw [choice_eq]
  have no : ∀ {c' : Char}, c ≠ c' → ¬ At e i (· = c') := fun hc h' => hc (h.at.1 h')
  refine ⟨?_, ?_, ?_, ?_, ?_, ?_, ?_⟩
  · intro _ ha
    exact .alters (.here (.boxed ha))
  · rintro rfl ha
    exact .alters (.later (.boxed (rej_object (no (by decide)))) (.here (.boxed ha)))
  · rintro rfl ha
    exact .alters (.later (.boxed (rej_object (no (by decide)))) (.later (.boxed (rej_array (no (by decide))))
      (.here (.boxed ha))))
  · rintro rfl ha
    exact .alters (.later (.boxed (rej_object (no (by decide)))) (.later (.boxed (rej_array (no (by decide))))
      (.later (.boxed (rej_string (no (by decide)))) (.here (.boxed ha)))))
  · rintro rfl ha
    exact .alters (.later (.boxed (rej_object (no (by decide)))) (.later (.boxed (rej_array (no (by decide))))
      (.later (.boxed (rej_string (no (by decide)))) (.later (.boxed (rej_true (no (by decide)))) (.here (.boxed ha))))))
  · rintro rfl ha
    exact .alters (.later (.boxed (rej_object (no (by decide)))) (.later (.boxed (rej_array (no (by decide))))
      (.later (.boxed (rej_string (no (by decide)))) (.later (.boxed (rej_true (no (by decide))))
      (.later (.boxed (rej_false (no (by decide)))) (.here (.boxed ha)))))))
  · intro hc ha
    have hne : ∀ c', ¬ (Digit c' ∨ c' = '-') → c ≠ c' := by rintro c' h' rfl; exact h' hc
    refine .alters (.later (.boxed (rej_object (no (hne _ ?_)))) (.later (.boxed (rej_array (no (hne _ ?_))))
      (.later (.boxed (rej_string (no (hne _ ?_)))) (.later (.boxed (rej_true (no (hne _ ?_))))
      (.later (.boxed (rej_false (no (hne _ ?_)))) (.later (.boxed (rej_null (no (hne _ ?_)))) (.here (.boxed ha)))))))) <;>
    simp [Digit]

end

theorem object_acc {kvs : List (String × Value F)} (h1 : e.source i = some '{')
    (h2 : Accepts e D (.separatedBy ⟨0, none, false, false⟩ keyValuePair (.just (ε := voidErr charSig) ',')) (i + 1) kvs k)
    (h3 : e.source k = some '}') : Accepts e D (object (F := F)) i (.object kvs) (k + 1) := by
  rw [object_eq]
  exact .boxed (acc_map.2 ⟨_, .delimitedBy (acc_just.2 ⟨h1, rfl, rfl⟩) (.orLeft h2) (acc_just.2 ⟨h3, rfl, rfl⟩), rfl⟩)

theorem array_acc {vs : List (Value F)} (h1 : e.source i = some '[')
    (h2 : Accepts e D (.separatedBy ⟨0, none, false, false⟩ value (.just (ε := voidErr charSig) ',')) (i + 1) vs k)
    (h3 : e.source k = some ']') : Accepts e D (array (F := F)) i (.array vs) (k + 1) := by
  rw [array_eq]
  exact .boxed (acc_map.2 ⟨_, .delimitedBy (acc_just.2 ⟨h1, rfl, rfl⟩) (.orLeft h2) (acc_just.2 ⟨h3, rfl, rfl⟩), rfl⟩)

mutual

theorem text_acc {F : Type} {e : Env charSig} {parseF : String → Option F} {v : Value F} {t : List Char} {i j : Nat}
    (ht : Text (actual parseF) v t) (h : Reads e i t j)
    (hj : NumberText (actual parseF) v t → ¬ At e j NumChar) : Accepts e (defs parseF) (choice parseF) i v j :=
  match ht with
  | .null => (choice_acc_first e parseF h).2.2.2.2.2.1 rfl (by rw [null_eq]; exact .to (acc_seq.2 ⟨h, rfl⟩))
  | .true => (choice_acc_first e parseF h).2.2.2.1 rfl (by rw [boolTrue_eq]; exact .to (acc_seq.2 ⟨h, rfl⟩))
  | .false => (choice_acc_first e parseF h).2.2.2.2.1 rfl (by rw [boolFalse_eq]; exact .to (acc_seq.2 ⟨h, rfl⟩))
  | .number hn => by
    obtain ⟨c, t', rfl, hc⟩ := number_head hn
    exact (choice_acc_first e parseF h).2.2.2.2.2.2 hc (number_acc hn h (hj hn))
  | .string hs => by
    have := (acc_key (D := defs parseF) (parseF := parseF)).2 ⟨_, h, hs⟩
    cases hs
    refine (choice_acc_first e parseF h).2.2.1 rfl ?_
    unfold string
    exact .boxed (acc_map.2 ⟨_, this, rfl⟩)
  | .emptyObject (w := w) _ hb => by
    have : w = [] := Classical.byContradiction hb
    subst this
    refine (choice_acc_first e parseF h).1 rfl ?_
    obtain ⟨h1, h2, rfl⟩ := h
    exact object_acc h1 (accepts_separatedBy.2 (.inl ⟨rfl, rfl, rej_member (by rw [at_of h2]; simp [IsWs])⟩)) h2
  | .object hm => by
    refine (choice_acc_first e parseF h).1 rfl ?_
    obtain ⟨h1, h2⟩ := h
    obtain ⟨k, h3, h4, rfl⟩ := reads_append.1 h2
    exact object_acc h1 (accepts_separatedBy.2 (.inr (members_acc hm h3 h4))) h4
  | .emptyArray (w := w) _ hb => by
    have : w = [] := Classical.byContradiction hb
    subst this
    refine (choice_acc_first e parseF h).2.1 rfl ?_
    obtain ⟨h1, h2, rfl⟩ := h
    exact array_acc h1 (accepts_separatedBy.2 (.inl ⟨rfl, rfl, rej_value (by
      rw [at_of h2]; simp [IsWs, ValueStart, Digit])⟩)) h2
  | .array hm => by
    refine (choice_acc_first e parseF h).2.1 rfl ?_
    obtain ⟨h1, h2⟩ := h
    obtain ⟨k, h3, h4, rfl⟩ := reads_append.1 h2
    exact array_acc h1 (accepts_separatedBy.2 (.inr (elements_acc hm h3 h4))) h4

theorem padded_acc {F : Type} {e : Env charSig} {parseF : String → Option F} {v : Value F} {t : List Char} {i j : Nat}
    (ht : Padded (actual parseF) v t) (h : Reads e i t j) (hj : Apart t (e.source j)) :
    Accepts e (defs parseF) (json (F := F)) i v j :=
  match ht with
  | .mk hw ht hw' => by
    obtain ⟨a, h1, h2⟩ := reads_append.1 h
    obtain ⟨b, h3, h4⟩ := reads_append.1 h2
    have h5 := text_acc ht h3 (hj.before hw' h4)
    obtain ⟨c, t', rfl, hc⟩ := text_head ht
    exact call_acc (ws_acc hw h1 (by rw [h3.at]; exact valueStart_not_ws hc)) h5 (ws_acc hw' h4 hj.ws)

theorem elements_acc {F : Type} {e : Env charSig} {parseF : String → Option F} {vs : List (Value F)} {t : List Char} {i j : Nat}
    (ht : Elements (actual parseF) vs t) (h : Reads e i t j) (hj : e.source j = some ']') :
    ∃ o os h, vs = o :: os ∧ Accepts e (defs parseF) (value (F := F)) i o h ∧
      SepRun e (defs parseF) value (.just (ε := voidErr charSig) ',') h os j :=
  match ht with
  | .one hp => ⟨_, _, _, rfl, padded_acc hp h (apart_of hj (by simp)), .noSep (rej_just.2 (by rw [at_of hj]; decide))⟩
  | .more hp he => by
    obtain ⟨a, h1, h2, h3⟩ := reads_append.1 h
    obtain ⟨o, os, b, rfl, h4, h5⟩ := elements_acc he h3 hj
    exact ⟨_, _, _, rfl, padded_acc hp h1 (apart_of h2 (by simp)), .cons (acc_just.2 ⟨h2, rfl, rfl⟩) h4 h5⟩

theorem member_acc {F : Type} {e : Env charSig} {parseF : String → Option F} {kv : String × Value F} {t : List Char} {i j : Nat}
    (ht : Member (actual parseF) kv t) (h : Reads e i t j) (hj : Apart t (e.source j)) :
    Accepts e (defs parseF) (keyValuePair (F := F)) i kv j :=
  match ht with
  | .mk hw hs hw' hp => by
    obtain ⟨a, h1, h2⟩ := reads_append.1 h
    obtain ⟨b, h3, h4⟩ := reads_append.1 h2
    obtain ⟨c, h5, h6, h7⟩ := reads_append.1 h4
    have h8 := (acc_key (D := defs parseF) (parseF := parseF)).2 ⟨_, h3, hs⟩
    have h9 : ¬ At e a IsWs := by obtain ⟨t', rfl⟩ := string_head hs; rw [h3.at]; simp [IsWs]
    unfold keyValuePair
    exact .boxed (acc_then.2 ⟨_, .thenIgnore (.thenIgnore (.ignoreThen (ws_acc hw h1 h9) h8)
      (ws_acc hw' h5 (by rw [at_of h6]; simp [IsWs]))) (acc_just.2 ⟨h6, rfl, rfl⟩), padded_acc hp h7 (Apart.tail (s := [_]) hj.tail.tail.tail)⟩)

theorem members_acc {F : Type} {e : Env charSig} {parseF : String → Option F} {kvs : List (String × Value F)} {t : List Char} {i j : Nat}
    (ht : Members (actual parseF) kvs t) (h : Reads e i t j) (hj : e.source j = some '}') :
    ∃ o os h, kvs = o :: os ∧ Accepts e (defs parseF) (keyValuePair (F := F)) i o h ∧
      SepRun e (defs parseF) keyValuePair (.just (ε := voidErr charSig) ',') h os j :=
  match ht with
  | .one hp => ⟨_, _, _, rfl, member_acc hp h (apart_of hj (by simp)), .noSep (rej_just.2 (by rw [at_of hj]; decide))⟩
  | .more hp he => by
    obtain ⟨a, h1, h2, h3⟩ := reads_append.1 h
    obtain ⟨o, os, b, rfl, h4, h5⟩ := members_acc he h3 hj
    exact ⟨_, _, _, rfl, member_acc hp h1 (apart_of h2 (by simp)), .cons (acc_just.2 ⟨h2, rfl, rfl⟩) h4 h5⟩

end

end PPC.Json
