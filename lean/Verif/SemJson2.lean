import Verif.SemJson

/-!
# The numbers of the JSON grammar: lemmas
-/

namespace PPC.Json

open PPC

variable {F : Type} {e : Env charSig} {D : Defs charSig (names F)} {i j k : Nat}

/-- The decimal digits. -/
abbrev digits : List Char := ['0', '1', '2', '3', '4', '5', '6', '7', '8', '9']

theorem digit_mem {c : Char} : c ∈ digits ↔ Digit c := by simp [Digit]

theorem at_congr {p q : Char → Prop} (h : ∀ c, p c ↔ q c) : At e i p ↔ At e i q := by
  simp only [At, h]

theorem integerLz_eq : integerLz F = .boxed (.map String.ofList (.repeated ⟨1, none, false, false⟩
    (.oneOf digits))) := rfl

theorem integerNlz_eq : integerNlz F = .boxed (.or (.to (.just '0') "0")
    (.map (fun p => String.ofList (p.1 :: p.2)) (.then_ (.oneOf ['1', '2', '3', '4', '5', '6', '7', '8', '9'])
      (.repeated ⟨0, none, false, false⟩ (.oneOf digits))))) := rfl

theorem exponentSign_eq : exponentSign F = .boxed (.map (fun x => x == some '-') (.orNot (.oneOf ['-', '+']))) := rfl

theorem exponent_eq : exponent F =
    .boxed (.then_ (.ignoreThen (.oneOf ['e', 'E']) (exponentSign F)) (integerLz F)) := rfl

theorem acc_map {α β : Type} {f : α → β} {g : P F α} {o : β} :
    Accepts e D (.map f g) i o j ↔ ∃ a, Accepts e D g i a j ∧ o = f a := accepts_iff

theorem acc_then {α β : Type} {g : P F α} {g' : P F β} {o : α × β} :
    Accepts e D (.then_ g g') i o j ↔ ∃ k, Accepts e D g i o.1 k ∧ Accepts e D g' k o.2 j := accepts_iff

theorem acc_ignoreThen {α β : Type} {g : P F α} {g' : P F β} {o : β} :
    Accepts e D (.ignoreThen g g') i o j ↔ ∃ k x, Accepts e D g i x k ∧ Accepts e D g' k o j := accepts_iff

theorem acc_orNot {α : Type} {g : P F α} {o : Option α} : Accepts e D (.orNot g) i o j ↔
    (∃ a, o = some a ∧ Accepts e D g i a j) ∨ o = none ∧ j = i ∧ Rejects e D g i := accepts_iff

theorem acc_digits {m : Nat} {t : List Char} :
    Accepts e D (.repeated ⟨m, none, false, false⟩ (.oneOf (ε := voidErr charSig) digits)) i t j ↔
      m ≤ t.length ∧ (∀ c, c ∈ t → Digit c) ∧ Reads e i t j ∧ ¬ At e j Digit := by
  rw [accepts_repeated, run_oneOf, rej_oneOf, at_congr (fun c => digit_mem)]
  simp only [digit_mem, and_assoc]

theorem acc_integerLz {s : String} : Accepts e D (integerLz F) i s j ↔
    ∃ t, s = String.ofList t ∧ Digits t ∧ Reads e i t j ∧ ¬ At e j Digit := by
  rw [integerLz_eq, acc_boxed, acc_map]
  constructor
  · rintro ⟨t, h, rfl⟩
    obtain ⟨h1, h2, h3, h4⟩ := acc_digits.1 h
    exact ⟨t, rfl, ⟨by rintro rfl; simp at h1, h2⟩, h3, h4⟩
  · rintro ⟨t, rfl, ⟨h1, h2⟩, h3, h4⟩
    exact ⟨t, acc_digits.2 ⟨by cases t with | nil => exact (h1 rfl).elim | cons => simp, h2, h3, h4⟩, rfl⟩

theorem acc_integerNlz {s : String} (h : Accepts e D (integerNlz F) i s j) :
    ∃ t, s = String.ofList t ∧ IntPart t ∧ Reads e i t j := by
  rw [integerNlz_eq, acc_boxed, accepts_iff] at h
  rcases h with h | ⟨_, h⟩
  · obtain ⟨h1, rfl, rfl⟩ := acc_toJust.1 h
    exact ⟨['0'], rfl, .inl rfl, h1, rfl⟩
  · obtain ⟨⟨c, t⟩, h', rfl⟩ := acc_map.1 h
    obtain ⟨k, h1, h2⟩ := acc_then.1 h'
    obtain ⟨h3, h4, rfl⟩ := acc_oneOf.1 h1
    obtain ⟨_, h5, h6, _⟩ := acc_digits.1 h2
    refine ⟨c :: t, rfl, .inr ⟨⟨by simp, ?_⟩, ?_⟩, h3, h6⟩
    · intro c' hc'
      rcases List.mem_cons.1 hc' with rfl | hc'
      · exact digit_mem.1 (List.mem_cons_of_mem _ h4)
      · exact h5 _ hc'
    · intro h0
      cases h0
      exact absurd h4 (by simp)

theorem integerNlz_acc {t : List Char} (ht : IntPart t) (h : Reads e i t j) (hj : ¬ At e j Digit) :
    Accepts e D (integerNlz F) i (String.ofList t) j := by
  rw [integerNlz_eq]
  refine .boxed ?_
  rcases ht with rfl | ⟨⟨hne, hd⟩, hz⟩
  · obtain ⟨h1, rfl⟩ := h
    exact .orLeft (acc_toJust.2 ⟨h1, rfl, rfl⟩)
  · cases t with
    | nil => exact (hne rfl).elim
    | cons c t =>
      have hc0 : c ≠ '0' := by rintro rfl; exact hz rfl
      refine .orRight (.to (rej_just.2 fun h' => hc0 (h.at.1 h'))) (acc_map.2 ⟨(c, t), acc_then.2
        ⟨i + 1, acc_oneOf.2 ⟨h.1, ?_, rfl⟩, acc_digits.2 ⟨Nat.zero_le _, fun c' hc' => hd c' (by simp [hc']), h.2, hj⟩⟩,
        rfl⟩)
      have := digit_mem.2 (hd c (by simp))
      rcases List.mem_cons.1 this with h | h
      · exact (hc0 h).elim
      · exact h

theorem acc_fraction {o : Option String} (h : Accepts e D (.orNot (fraction F)) i o j) :
    ∃ f t, o = f.map String.ofList ∧ FracText f t ∧ Reads e i t j := by
  rcases acc_orNot.1 h with ⟨s, rfl, h'⟩ | ⟨rfl, rfl, _⟩
  · unfold fraction at h'
    obtain ⟨k, x, h1, h2⟩ := acc_ignoreThen.1 (acc_boxed.1 h')
    obtain ⟨h3, rfl, rfl⟩ := acc_just.1 h1
    obtain ⟨t, rfl, h4, h5, _⟩ := acc_integerLz.1 h2
    exact ⟨some t, '.' :: t, rfl, .some h4, h3, h5⟩
  · exact ⟨none, [], rfl, .none, rfl⟩

theorem fraction_acc {f : Option (List Char)} {t : List Char} (hf : FracText f t) (h : Reads e i t j)
    (hj : ¬ At e j Digit) (hj' : ¬ At e j (· = '.')) :
    Accepts e D (.orNot (fraction F)) i (f.map String.ofList) j := by
  unfold fraction
  cases hf with
  | none =>
    cases h
    exact .orNotNone (.boxed (.ignoreThenFirst (rej_just.2 hj')))
  | some hd =>
    exact .orNotSome (.boxed (.ignoreThen (acc_just.2 ⟨h.1, rfl, rfl⟩) (acc_integerLz.2 ⟨_, rfl, hd, h.2, hj⟩)))

theorem acc_exponent {o : Option (Bool × String)} (h : Accepts e D (.orNot (exponent F)) i o j) :
    ∃ x t, o = x.map (fun p => (p.1, String.ofList p.2)) ∧ ExpText x t ∧ Reads e i t j := by
  rcases acc_orNot.1 h with ⟨⟨b, s⟩, rfl, h'⟩ | ⟨rfl, rfl, _⟩
  · rw [exponent_eq] at h'
    obtain ⟨k, h1, h2⟩ := acc_then.1 (acc_boxed.1 h')
    obtain ⟨t, hs, h4, h5, _⟩ := acc_integerLz.1 h2
    obtain ⟨k', x, h6, h7⟩ := acc_ignoreThen.1 h1
    obtain ⟨h8, h9, rfl⟩ := acc_oneOf.1 h6
    rw [exponentSign_eq] at h7
    obtain ⟨a, h10, h11⟩ := acc_map.1 (acc_boxed.1 h7)
    simp only at hs h11
    subst hs h11
    have hx : x = 'e' ∨ x = 'E' := by simpa using h9
    rcases acc_orNot.1 h10 with ⟨c, rfl, ho⟩ | ⟨rfl, rfl, _⟩
    · obtain ⟨h12, h13, rfl⟩ := acc_oneOf.1 ho
      have hc : c = '-' ∨ c = '+' := by simpa using h13
      refine ⟨some (some c == some '-', t), x :: ([c] ++ t), rfl, .some hx ?_ h4, h8, h12, h5⟩
      rcases hc with rfl | rfl
      · exact .minus
      · exact .plus
    · exact ⟨some (false, t), x :: ([] ++ t), rfl, .some hx .none h4, h8, h5⟩
  · exact ⟨none, [], rfl, .none, rfl⟩

theorem digit_of {t : List Char} (hd : Digits t) (h : Reads e i t j) : At e i Digit := by
  cases t with
  | nil => exact (hd.1 rfl).elim
  | cons c t => exact h.at.2 (hd.2 c (by simp))

theorem exponentSign_acc {b : Bool} {u t : List Char} (hu : SignText b u) (hd : Digits t) (h : Reads e i u k)
    (h' : Reads e k t j) : Accepts e D (exponentSign F) i b k := by
  rw [exponentSign_eq]
  refine .boxed ?_
  cases hu with
  | none =>
    cases h
    refine acc_map.2 ⟨none, .orNotNone (rej_oneOf.2 ?_), rfl⟩
    rintro ⟨c, h1, h2⟩
    have := (at_of h1).1 (digit_of hd h')
    revert this
    have h2 : c = '-' ∨ c = '+' := by simpa using h2
    rcases h2 with rfl | rfl <;> simp [Digit]
  | plus =>
    obtain ⟨h1, rfl⟩ := h
    exact acc_map.2 ⟨some '+', .orNotSome (acc_oneOf.2 ⟨h1, by simp, rfl⟩), rfl⟩
  | minus =>
    obtain ⟨h1, rfl⟩ := h
    exact acc_map.2 ⟨some '-', .orNotSome (acc_oneOf.2 ⟨h1, by simp, rfl⟩), rfl⟩

theorem exponent_acc {x : Option (Bool × List Char)} {t : List Char} (hx : ExpText x t) (h : Reads e i t j)
    (hj : ¬ At e j Digit) (hj' : ¬ At e j (fun c => c = 'e' ∨ c = 'E')) :
    Accepts e D (.orNot (exponent F)) i (x.map fun p => (p.1, String.ofList p.2)) j := by
  rw [exponent_eq]
  cases hx with
  | none =>
    cases h
    refine .orNotNone (.boxed (.thenFirst (.ignoreThenFirst (rej_oneOf.2 ?_))))
    rwa [at_congr (q := fun c => c = 'e' ∨ c = 'E') (fun c => by simp)]
  | some hc hs hd =>
    obtain ⟨h1, h2⟩ := h
    obtain ⟨k, h3, h4⟩ := reads_append.1 h2
    exact .orNotSome (.boxed (acc_then.2 ⟨k, .ignoreThen (acc_oneOf.2 ⟨h1, by simpa using hc, rfl⟩)
      (exponentSign_acc hs hd h3 h4), acc_integerLz.2 ⟨_, rfl, hd, h4, hj⟩⟩))


theorem numberOf_iff {parseF : String → Option F} {b : Bool} {t : List Char} {f : Option (List Char)}
    {x : Option (Bool × List Char)} {sp : charSig.Span} {v : Value F} :
    numberOf parseF (((b, String.ofList t), f.map String.ofList), x.map fun p => (p.1, String.ofList p.2)) sp = .ok v ↔
      (actual parseF).numeral b t f x = some v := by
  have key : ∀ o : Option F, (match o with
      | some parsed => TryMapResult.ok (Value.float parsed)
      | none => .recovered (.int 0) [()]) = .ok v ↔ o.map Value.float = some v := by
    intro o; cases o <;> simp
  cases f with
  | some f => exact key _
  | none =>
    cases x with
    | some x => exact key _
    | none =>
      show (match parseI128 (String.ofList t) with
        | some parsed => TryMapResult.ok (Value.int (if b then -parsed else parsed))
        | none => .recovered (.int 0) [()]) = .ok v ↔ (if decimal t < 2 ^ 127 then
          some (Value.int (if b then -(decimal t : Int) else decimal t)) else none) = some v
      have : parseI128 (String.ofList t) = if decimal t < 2 ^ 127 then some (decimal t : Int) else none := by
        unfold parseI128 decimal
        rw [String.toList_ofList]
      rw [this]
      by_cases h : decimal t < 2 ^ 127
      · simp [if_pos h]
      · simp [if_neg h]

theorem acc_number {parseF : String → Option F} {v : Value F} (h : Accepts e D (number parseF) i v j) :
    ∃ t, NumberText (actual parseF) v t ∧ Reads e i t j := by
  unfold number at h
  rw [acc_boxed, accepts_iff] at h
  obtain ⟨⟨⟨⟨b, s⟩, f⟩, x⟩, h, hv⟩ := h
  obtain ⟨k, h, hx⟩ := acc_then.1 h
  obtain ⟨k1, h, hf⟩ := acc_then.1 h
  obtain ⟨k2, hb, hs⟩ := acc_then.1 h
  simp only at hx hf hb hs
  obtain ⟨x, tx, rfl, hx, rx⟩ := acc_exponent hx
  obtain ⟨f, tf, rfl, hf, rf⟩ := acc_fraction hf
  obtain ⟨t, rfl, ht, rt⟩ := acc_integerNlz hs
  unfold sign at hb
  obtain ⟨o, hb', rfl⟩ := acc_map.1 (acc_boxed.1 hb)
  rw [numberOf_iff] at hv
  have hsign : Reads e i (if o.isSome then ['-'] else []) k2 := by
    rcases acc_orNot.1 hb' with ⟨c, rfl, ho⟩ | ⟨rfl, rfl, _⟩
    · obtain ⟨h1, rfl, rfl⟩ := acc_just.1 ho
      exact ⟨h1, rfl⟩
    · exact rfl
  exact ⟨_, .mk rfl ht hf hx hv, reads_append.2 ⟨_, hsign, reads_append.2 ⟨_, rt, reads_append.2 ⟨_, rf, rx⟩⟩⟩⟩

theorem intPart_digit {t : List Char} (ht : IntPart t) (h : Reads e i t j) : At e i Digit := by
  rcases ht with rfl | ⟨hd, _⟩
  · exact h.at.2 (.inl rfl)
  · exact digit_of hd h

theorem number_acc {parseF : String → Option F} {v : Value F} {t : List Char} (ht : NumberText (actual parseF) v t)
    (h : Reads e i t j) (hj : ¬ At e j NumChar) : Accepts e D (number parseF) i v j := by
  have hmono : ∀ {p : Char → Prop} {j : Nat}, (∀ c, p c → NumChar c) → ¬ At e j NumChar → ¬ At e j p :=
    fun hp hn ⟨c, h1, h2⟩ => hn ⟨c, h1, hp c h2⟩
  cases ht with
  | @mk neg s t u w frac exp v hs ht hf hx hv =>
    obtain ⟨k1, h1, h'⟩ := reads_append.1 h
    obtain ⟨k2, h2, h'⟩ := reads_append.1 h'
    obtain ⟨k3, h3, h4⟩ := reads_append.1 h'
    -- what follows the fraction
    have hk3 : ¬ At e k3 Digit ∧ ¬ At e k3 (· = '.') := by
      cases hx with
      | none =>
        cases h4
        exact ⟨hmono (fun c h => .inl h) hj, hmono (fun c h => .inr (.inl h)) hj⟩
      | some hc _ _ =>
        rw [h4.at, h4.at]
        rcases hc with rfl | rfl <;> simp [Digit]
    have hk2 : ¬ At e k2 Digit := by
      cases hf with
      | none => cases h3; exact hk3.1
      | some _ => rw [h3.at]; simp [Digit]
    unfold number
    refine .boxed (.tryMap (acc_then.2 ⟨k3, acc_then.2 ⟨k2, acc_then.2 ⟨k1, ?_, integerNlz_acc ht h2 hk2⟩,
      fraction_acc hf h3 hk3.1 hk3.2⟩, exponent_acc hx h4 (hmono (fun c h => .inl h) hj)
        (hmono (fun c h => .inr (.inr h)) hj)⟩) (numberOf_iff.2 hv))
    unfold sign
    refine .boxed ?_
    cases neg with
    | true =>
      subst hs
      obtain ⟨h5, rfl⟩ := h1
      exact acc_map.2 ⟨some '-', .orNotSome (acc_just.2 ⟨h5, rfl, rfl⟩), rfl⟩
    | false =>
      subst hs
      cases h1
      refine acc_map.2 ⟨none, .orNotNone (rej_just.2 ?_), rfl⟩
      rintro ⟨c, h5, rfl⟩
      have := (at_of h5).1 (intPart_digit ht h2)
      revert this
      simp [Digit]

theorem rej_number {parseF : String → Option F} (h : ¬ At e i fun c => Digit c ∨ c = '-') :
    Rejects e D (number parseF) i := by
  have hd : ¬ At e i Digit := fun ⟨c, h1, h2⟩ => h ⟨c, h1, .inl h2⟩
  unfold number
  refine .boxed (.tryMap (.thenFirst (.thenFirst (.thenSecond (x := false) (j := i) ?_ ?_))))
  · unfold sign
    exact .boxed (acc_map.2 ⟨none, .orNotNone (rej_just.2 fun ⟨c, h1, h2⟩ => h ⟨c, h1, .inr h2⟩), rfl⟩)
  · rw [integerNlz_eq]
    refine .boxed (.or (.to (rej_just.2 fun ⟨c, h1, h2⟩ => hd ⟨c, h1, .inl h2⟩)) (.map (.thenFirst (rej_oneOf.2 ?_))))
    rintro ⟨c, h1, h2⟩
    exact hd ⟨c, h1, digit_mem.1 (List.mem_cons_of_mem _ h2)⟩

end PPC.Json
