import Verif.SpecJson
import Verif.SemPegStep

/-!
# The parsers of the JSON grammar and the texts they accept: lemmas
-/

namespace PPC.Json

open PPC

variable {F : Type} {e : Env charSig} {D : Defs charSig (names F)} {i j k : Nat}

/-! ## Texts -/

theorem reads_nil : Reads e i [] j ↔ j = i := Iff.rfl

theorem reads_cons {c : Char} {t : List Char} :
    Reads e i (c :: t) j ↔ e.source i = some c ∧ Reads e (i + 1) t j := Iff.rfl

theorem reads_append : ∀ {s t : List Char} {i k : Nat},
    Reads e i (s ++ t) k ↔ ∃ j, Reads e i s j ∧ Reads e j t k
  | [], t, i, k => by simp [Reads]
  | c :: s, t, i, k => by
    rw [List.cons_append, reads_cons, reads_append]
    constructor
    · rintro ⟨h, j, h1, h2⟩; exact ⟨j, ⟨h, h1⟩, h2⟩
    · rintro ⟨j, ⟨h, h1⟩, h2⟩; exact ⟨h, j, h1, h2⟩

theorem Reads.length : ∀ {t : List Char} {i j : Nat}, Reads e i t j → j = i + t.length
  | [], i, j, h => h
  | c :: t, i, j, h => by have := Reads.length h.2; simp; omega

/-- The token at position `i` has the property. -/
def At (e : Env charSig) (i : Nat) (p : Char → Prop) : Prop := ∃ c, e.source i = some c ∧ p c

theorem Reads.at {c : Char} {t : List Char} (h : Reads e i (c :: t) j) {p : Char → Prop} :
    At e i p ↔ p c := by
  constructor
  · rintro ⟨c', h1, h2⟩
    have := h.1.symm.trans h1
    cases this
    exact h2
  · intro hp; exact ⟨c, h.1, hp⟩

theorem at_of {c : Char} (h : e.source i = some c) {p : Char → Prop} : At e i p ↔ p c :=
  Reads.at (t := []) (j := i + 1) ⟨h, rfl⟩


/-! ## Primitives -/

theorem acc_just {c o : Char} : Accepts e D (.just (ε := voidErr charSig) c) i o j ↔
    e.source i = some c ∧ o = c ∧ j = i + 1 := by
  rw [accepts_iff]; simp [StepA]

theorem rej_just {c : Char} : Rejects e D (.just (ε := voidErr charSig) c) i ↔ ¬ At e i (· = c) := by
  rw [rejects_iff]
  constructor
  · rintro h ⟨c', h1, h2⟩
    have := h _ h1
    simp [h2] at this
  · intro h t ht
    have h1 := mt (at_of ht).2 h
    simpa using h1

theorem acc_oneOf {l : List Char} {o : Char} : Accepts e D (.oneOf (ε := voidErr charSig) l) i o j ↔
    e.source i = some o ∧ o ∈ l ∧ j = i + 1 := by
  rw [accepts_iff]; simp [StepA]

theorem rej_oneOf {l : List Char} : Rejects e D (.oneOf (ε := voidErr charSig) l) i ↔ ¬ At e i (· ∈ l) := by
  rw [rejects_iff]
  constructor
  · rintro h ⟨c, h1, h2⟩
    have := h _ h1 c h2
    simp at this
  · intro h t ht x hx
    have h1 := mt (at_of ht).2 h
    cases hb : charSig.eqI t x with
    | false => rfl
    | true =>
      have : t = x := by simpa using hb
      exact (h1 (this ▸ hx)).elim

theorem acc_noneOf {l : List Char} {o : Char} : Accepts e D (.noneOf (ε := voidErr charSig) l) i o j ↔
    e.source i = some o ∧ o ∉ l ∧ j = i + 1 := by
  rw [accepts_iff]
  constructor
  · rintro ⟨h, h1, h2⟩
    refine ⟨h, fun h3 => ?_, h2⟩
    have := h1 _ h3
    simp at this
  · rintro ⟨h, h1, h2⟩
    refine ⟨h, fun x hx => ?_, h2⟩
    cases hb : charSig.eqI o x with
    | false => rfl
    | true =>
      have : o = x := by simpa using hb
      exact (h1 (this ▸ hx)).elim

theorem rej_noneOf {l : List Char} (h : At e i (· ∈ l)) : Rejects e D (.noneOf (ε := voidErr charSig) l) i := by
  obtain ⟨c, h1, h2⟩ := h
  refine .noneOf fun t ht => ⟨c, h2, ?_⟩
  have := h1.symm.trans ht
  cases this
  simp

theorem acc_filterMap {α : Type} {f : Char → Option α} {o : α} :
    Accepts e D (.filterMap (ε := voidErr charSig) f) i o j ↔ ∃ c, e.source i = some c ∧ f c = some o ∧ j = i + 1 := by
  rw [accepts_iff]; rfl

theorem acc_seq {α : Type} {v o : α} : ∀ {l : List Char},
    Accepts e D (.seq (ε := voidErr charSig) v l) i o j ↔ Reads e i l j ∧ o = v := by
  have key : ∀ (l : List Char) (i j : Nat), ((∀ k x, l[k]? = some x →
      ∃ t, e.source (i + k) = some t ∧ charSig.eqI t x = true) ∧ j = i + l.length) ↔ Reads e i l j := by
    intro l
    induction l with
    | nil => intro i j; simp [Reads]
    | cons c l ih =>
      intro i j
      rw [reads_cons, ← ih]
      constructor
      · rintro ⟨h, rfl⟩
        obtain ⟨t, h1, h2⟩ := h 0 c rfl
        have : t = c := by simpa using h2
        subst this
        refine ⟨h1, fun k x hx => ?_, by simp; omega⟩
        obtain ⟨t, h1, h2⟩ := h (k + 1) x hx
        exact ⟨t, by rw [← h1]; congr 1; omega, h2⟩
      · rintro ⟨h, h1, rfl⟩
        refine ⟨fun k x hx => ?_, by simp; omega⟩
        cases k with
        | zero => cases hx; exact ⟨c, h, by simp⟩
        | succ k =>
          obtain ⟨t, h2, h3⟩ := h1 k x hx
          exact ⟨t, by rw [← h2]; congr 1; omega, h3⟩
  intro l
  rw [accepts_iff, ← key]
  constructor
  · rintro ⟨h, h1, h2⟩; exact ⟨⟨h, h2⟩, h1⟩
  · rintro ⟨⟨h, h1⟩, h2⟩; exact ⟨h, h2, h1⟩

theorem rej_seq {α : Type} {v : α} {c : Char} {l : List Char} (h : ¬ At e i (· = c)) :
    Rejects e D (.seq (ε := voidErr charSig) v (c :: l)) i := by
  refine .seq (k := 0) (x := c) rfl fun t ht => ?_
  have h1 := mt (at_of ht).2 h
  simpa using h1

theorem run_oneOf {l : List Char} : ∀ {os : List Char} {i j : Nat},
    Run e D (.oneOf (ε := voidErr charSig) l) i os j ↔ (∀ c, c ∈ os → c ∈ l) ∧ Reads e i os j
  | [], i, j => by
    constructor
    · intro h; cases h; exact ⟨by simp, rfl⟩
    · rintro ⟨_, h⟩; cases h; exact .nil
  | o :: os, i, j => by
    constructor
    · intro h
      cases h with
      | cons h h' =>
        obtain ⟨h1, h2, rfl⟩ := acc_oneOf.1 h
        obtain ⟨h3, h4⟩ := run_oneOf.1 h'
        refine ⟨fun c hc => ?_, h1, h4⟩
        rcases List.mem_cons.1 hc with rfl | hc
        · exact h2
        · exact h3 c hc
    · rintro ⟨h, h1, h2⟩
      exact .cons (acc_oneOf.2 ⟨h1, h o (by simp), rfl⟩) (run_oneOf.2 ⟨fun c hc => h c (by simp [hc]), h2⟩)

/-! ## Whitespace -/

theorem whitespace_eq : whitespace F = .repeated ⟨0, none, false, false⟩ (.oneOf [' ', '\n', '\r', '\t']) := rfl

theorem isWs_mem {c : Char} : c ∈ [' ', '\n', '\r', '\t'] ↔ IsWs c := by simp [IsWs]

theorem acc_ws {w : List Char} : Accepts e D (whitespace F) i w j ↔ Ws w ∧ Reads e i w j ∧ ¬ At e j IsWs := by
  have h := accepts_repeated (e := e) (D := D) (g := .oneOf (ε := voidErr charSig) [' ', '\n', '\r', '\t'])
    (m := 0) (i := i) (j := j) (os := w)
  rw [whitespace_eq]
  refine h.trans ?_
  rw [run_oneOf, rej_oneOf]
  simp only [isWs_mem, Nat.zero_le, true_and, and_assoc]
  exact Iff.rfl

theorem rej_ws : ¬ Rejects e D (whitespace F) i := by
  rw [whitespace_eq]; exact rejects_repeated rfl

/-! ## Strings -/

/-- A machine word represents a number modulo `2 ^ 32`. -/
def Rep (u : UInt32) (p : Int) : Prop := (u.toNat : Int) = p % 2 ^ 32

theorem Rep.collapse {u w : UInt32} {p q : Int} (h : Rep u p) (h' : Rep w q) : Rep (collapseHex (u, w)) (16 * p + q) := by
  unfold Rep collapseHex at *
  simp only [UInt32.toNat_add, UInt32.toNat_mul]
  have : (16 : UInt32).toNat = 16 := rfl
  rw [this]
  omega

theorem hexToU32_rep {c : Char} {u : UInt32} (h : hexToU32 c = some u) : ∃ p, misreadDigit c = some p ∧ Rep u p := by
  unfold hexToU32 at h
  unfold misreadDigit
  have hc : c.val.toNat = c.toNat := rfl
  have ho : 'o'.val.toNat = 111 := rfl
  have ha : 'a'.val.toNat = 97 := rfl
  have hA : 'A'.val.toNat = 65 := rfl
  have h10 : (10 : UInt32).toNat = 10 := rfl
  have hlt := c.val.toNat_lt
  split at h
  · rename_i h1
    rw [if_pos h1]
    cases h
    refine ⟨_, rfl, ?_⟩
    unfold Rep
    rw [UInt32.toNat_sub, ho]
    omega
  · rename_i h1
    rw [if_neg h1]
    split at h
    · rename_i h2
      rw [if_pos h2]
      cases h
      refine ⟨_, rfl, ?_⟩
      unfold Rep
      rw [UInt32.toNat_add, UInt32.toNat_sub, ha, h10]
      omega
    · rename_i h2
      rw [if_neg h2]
      split at h
      · rename_i h3
        rw [if_pos h3]
        cases h
        refine ⟨_, rfl, ?_⟩
        unfold Rep
        rw [UInt32.toNat_add, UInt32.toNat_sub, hA, h10]
        omega
      · cases h

theorem hexToU32_of {c : Char} {p : Int} (h : misreadDigit c = some p) : ∃ u, hexToU32 c = some u ∧ Rep u p := by
  cases hu : hexToU32 c with
  | some u =>
    obtain ⟨p', h1, h2⟩ := hexToU32_rep hu
    rw [h] at h1
    cases h1
    exact ⟨u, rfl, h2⟩
  | none =>
    unfold hexToU32 at hu
    unfold misreadDigit at h
    split at hu
    · cases hu
    · rename_i h1
      rw [if_neg h1] at h
      split at hu
      · cases hu
      · rename_i h2
        rw [if_neg h2] at h
        split at hu
        · cases hu
        · rename_i h3
          rw [if_neg h3] at h
          cases h

theorem charFromU32_iff {n : UInt32} {c : Char} : charFromU32 n = some c ↔ c.val = n := by
  unfold charFromU32
  constructor
  · intro h
    split at h
    · cases h; rfl
    · cases h
  · rintro rfl
    rw [dif_pos c.valid]

theorem checkChar_iff {n : UInt32} {sp : charSig.Span} {c : Char} : checkChar n sp = .ok c ↔ c.toNat = n.toNat := by
  have : checkChar n sp = .ok c ↔ charFromU32 n = some c := by
    unfold checkChar
    cases charFromU32 n with
    | none => simp
    | some c' => simp
  rw [this, charFromU32_iff]
  show _ ↔ c.val.toNat = n.toNat
  exact UInt32.toNat_inj.symm

theorem acc_hexEscape {y : Char} {parseF : String → Option F} : Accepts e D (hexEscape F) i y j ↔
    ∃ a b c x, Reads e i [a, b, c, x] j ∧ (actual parseF).unicode a b c x y := by
  unfold hexEscape
  rw [accepts_iff]
  show Accepts e D (.tryMap _ _) i y j ↔ _
  rw [accepts_iff]
  have hm : ∀ (g : P F (UInt32 × UInt32)) (i j : Nat) (u : UInt32), Accepts e D (.map collapseHex g) i u j ↔
      ∃ p, Accepts e D g i p j ∧ u = collapseHex p := fun g i j u => accepts_iff
  have ht : ∀ (g g' : P F UInt32) (i j : Nat) (p : UInt32 × UInt32), Accepts e D (.then_ g g') i p j ↔
      ∃ k, Accepts e D g i p.1 k ∧ Accepts e D g' k p.2 j := fun g g' i j p => accepts_iff
  constructor
  · rintro ⟨u, h1, h2⟩
    rw [hm] at h1
    obtain ⟨⟨u3, ux⟩, h1, rfl⟩ := h1
    rw [ht] at h1
    obtain ⟨k3, h1, hx⟩ := h1
    rw [hm] at h1
    obtain ⟨⟨u2, uc⟩, h1, h4⟩ := h1
    rw [ht] at h1
    obtain ⟨k2, h1, hc⟩ := h1
    rw [hm] at h1
    obtain ⟨⟨ua, ub⟩, h1, h5⟩ := h1
    rw [ht] at h1
    obtain ⟨k1, ha, hb⟩ := h1
    simp only at ha hb hc hx h4 h5
    subst h4 h5
    obtain ⟨a, sa, ha', rfl⟩ := acc_filterMap.1 ha
    obtain ⟨b, sb, hb', rfl⟩ := acc_filterMap.1 hb
    obtain ⟨c, sc, hc', rfl⟩ := acc_filterMap.1 hc
    obtain ⟨x, sx, hx', rfl⟩ := acc_filterMap.1 hx
    obtain ⟨p, hp, rp⟩ := hexToU32_rep ha'
    obtain ⟨q, hq, rq⟩ := hexToU32_rep hb'
    obtain ⟨r, hr, rr⟩ := hexToU32_rep hc'
    obtain ⟨s, hs, rs⟩ := hexToU32_rep hx'
    refine ⟨a, b, c, x, ⟨sa, sb, sc, sx, rfl⟩, p, q, r, s, hp, hq, hr, hs, ?_⟩
    rw [checkChar_iff] at h2
    rw [h2]
    have := ((rp.collapse rq).collapse rr).collapse rs
    unfold Rep at this
    rw [this]
    congr 1
    omega
  · rintro ⟨a, b, c, x, ⟨ha, hb, hc, hx, rfl⟩, p, q, r, s, hp, hq, hr, hs, hy⟩
    obtain ⟨ua, ha', rp⟩ := hexToU32_of hp
    obtain ⟨ub, hb', rq⟩ := hexToU32_of hq
    obtain ⟨uc, hc', rr⟩ := hexToU32_of hr
    obtain ⟨ux, hx', rs⟩ := hexToU32_of hs
    refine ⟨collapseHex (collapseHex (collapseHex (ua, ub), uc), ux), ?_, ?_⟩
    · exact .map (.then_ (.map (.then_ (.map (.then_ (acc_filterMap.2 ⟨a, ha, ha', rfl⟩)
        (acc_filterMap.2 ⟨b, hb, hb', rfl⟩))) (acc_filterMap.2 ⟨c, hc, hc', rfl⟩)))
        (acc_filterMap.2 ⟨x, hx, hx', rfl⟩))
    · rw [checkChar_iff]
      have := ((rp.collapse rq).collapse rr).collapse rs
      unfold Rep at this
      have h2 : (16 * (16 * (16 * p + q) + r) + s) = (4096 * p + 256 * q + 16 * r + s) := by omega
      rw [h2, ← hy] at this
      exact (Int.ofNat.inj this).symm

theorem escape_eq : escape F = .boxed (.alters (.cons (.boxed (.just '"')) (.cons (.boxed (.just '\\'))
    (.cons (.boxed (.just '/')) (.cons (.boxed (.to (.just 'b') '\x08')) (.cons (.boxed (.to (.just 'f') '\x0c'))
    (.cons (.boxed (.to (.just 'n') '\n')) (.cons (.boxed (.to (.just 'r') '\r'))
    (.cons (.boxed (.to (.just 't') '\t'))
    (.cons (.boxed (.ignoreThen (.just 'u') (hexEscape F))) .nil)))))))))) := rfl

theorem acc_boxed {α : Type} {g : P F α} {o : α} : Accepts e D (.boxed g) i o j ↔ Accepts e D g i o j := accepts_iff

theorem rej_boxed {α : Type} {g : P F α} : Rejects e D (.boxed g) i ↔ Rejects e D g i := rejects_iff

theorem acc_toJust {α : Type} {c : Char} {v o : α} :
    Accepts e D (.to (.just (ε := voidErr charSig) c) v) i o j ↔ e.source i = some c ∧ o = v ∧ j = i + 1 := by
  rw [accepts_iff]
  show (∃ a, Accepts e D _ i a j) ∧ o = v ↔ _
  constructor
  · rintro ⟨⟨a, h⟩, rfl⟩
    obtain ⟨h1, _, h3⟩ := acc_just.1 h
    exact ⟨h1, rfl, h3⟩
  · rintro ⟨h1, rfl, h3⟩
    exact ⟨⟨c, acc_just.2 ⟨h1, rfl, h3⟩⟩, rfl⟩

theorem acc_escape {y : Char} {parseF : String → Option F} : Accepts e D (escape F) i y j ↔
    ∃ t, Reads e i t j ∧ CharText (actual parseF) y ('\\' :: t) := by
  rw [escape_eq, acc_boxed, accepts_iff]
  constructor
  · intro h
    simp only [StepA, acceptsFirst_cons, acceptsFirst_nil, acc_boxed] at h
    rcases h with h | ⟨_, h | ⟨_, h | ⟨_, h | ⟨_, h | ⟨_, h | ⟨_, h | ⟨_, h | ⟨_, h | ⟨_, h⟩⟩⟩⟩⟩⟩⟩⟩⟩
    · obtain ⟨h1, rfl, rfl⟩ := acc_just.1 h; exact ⟨[_], ⟨h1, rfl⟩, .quote⟩
    · obtain ⟨h1, rfl, rfl⟩ := acc_just.1 h; exact ⟨[_], ⟨h1, rfl⟩, .backslash⟩
    · obtain ⟨h1, rfl, rfl⟩ := acc_just.1 h; exact ⟨[_], ⟨h1, rfl⟩, .slash⟩
    · obtain ⟨h1, rfl, rfl⟩ := acc_toJust.1 h; exact ⟨[_], ⟨h1, rfl⟩, .backspace⟩
    · obtain ⟨h1, rfl, rfl⟩ := acc_toJust.1 h; exact ⟨[_], ⟨h1, rfl⟩, .formFeed⟩
    · obtain ⟨h1, rfl, rfl⟩ := acc_toJust.1 h; exact ⟨[_], ⟨h1, rfl⟩, .newline⟩
    · obtain ⟨h1, rfl, rfl⟩ := acc_toJust.1 h; exact ⟨[_], ⟨h1, rfl⟩, .carriageReturn⟩
    · obtain ⟨h1, rfl, rfl⟩ := acc_toJust.1 h; exact ⟨[_], ⟨h1, rfl⟩, .tab⟩
    · rw [accepts_iff] at h
      obtain ⟨k, x, h1, h2⟩ := h
      obtain ⟨h3, rfl, rfl⟩ := acc_just.1 h1
      obtain ⟨a, b, c, x, h4, h5⟩ := (acc_hexEscape (parseF := parseF)).1 h2
      exact ⟨_ :: _, ⟨h3, h4⟩, .unicode h5⟩
    · exact h.elim
  · rintro ⟨t, h, ht⟩
    have no : ∀ c c' : Char, e.source i = some c' → c' ≠ c →
        Rejects e D (.boxed (.just (ε := voidErr charSig) c)) i :=
      fun c c' hs hc => .boxed (rej_just.2 fun h => hc ((at_of hs).1 h))
    have noTo : ∀ (c c' x : Char), e.source i = some c' → c' ≠ c →
        Rejects e D (.boxed (.to (.just (ε := voidErr charSig) c) x)) i :=
      fun c c' x hs hc => .boxed (.to (rej_just.2 fun h => hc ((at_of hs).1 h)))
    generalize hs : '\\' :: t = s at ht
    cases ht with
    | raw hr =>
      cases hs
      exact (hr.2 rfl).elim
    | quote =>
      cases hs
      obtain ⟨h, rfl⟩ := h
      exact .here (.boxed (acc_just.2 ⟨h, rfl, rfl⟩))
    | backslash =>
      cases hs
      obtain ⟨h, rfl⟩ := h
      exact .later (no _ _ h (by decide)) (.here (.boxed (acc_just.2 ⟨h, rfl, rfl⟩)))
    | slash =>
      cases hs
      obtain ⟨h, rfl⟩ := h
      exact .later (no _ _ h (by decide)) (.later (no _ _ h (by decide))
        (.here (.boxed (acc_just.2 ⟨h, rfl, rfl⟩))))
    | backspace =>
      cases hs
      obtain ⟨h, rfl⟩ := h
      exact .later (no _ _ h (by decide)) (.later (no _ _ h (by decide)) (.later (no _ _ h (by decide))
        (.here (.boxed (acc_toJust.2 ⟨h, rfl, rfl⟩)))))
    | formFeed =>
      cases hs
      obtain ⟨h, rfl⟩ := h
      exact .later (no _ _ h (by decide)) (.later (no _ _ h (by decide)) (.later (no _ _ h (by decide))
        (.later (noTo _ _ _ h (by decide)) (.here (.boxed (acc_toJust.2 ⟨h, rfl, rfl⟩))))))
    | newline =>
      cases hs
      obtain ⟨h, rfl⟩ := h
      exact .later (no _ _ h (by decide)) (.later (no _ _ h (by decide)) (.later (no _ _ h (by decide))
        (.later (noTo _ _ _ h (by decide)) (.later (noTo _ _ _ h (by decide))
        (.here (.boxed (acc_toJust.2 ⟨h, rfl, rfl⟩)))))))
    | carriageReturn =>
      cases hs
      obtain ⟨h, rfl⟩ := h
      exact .later (no _ _ h (by decide)) (.later (no _ _ h (by decide)) (.later (no _ _ h (by decide))
        (.later (noTo _ _ _ h (by decide)) (.later (noTo _ _ _ h (by decide)) (.later (noTo _ _ _ h (by decide))
        (.here (.boxed (acc_toJust.2 ⟨h, rfl, rfl⟩))))))))
    | tab =>
      cases hs
      obtain ⟨h, rfl⟩ := h
      exact .later (no _ _ h (by decide)) (.later (no _ _ h (by decide)) (.later (no _ _ h (by decide))
        (.later (noTo _ _ _ h (by decide)) (.later (noTo _ _ _ h (by decide)) (.later (noTo _ _ _ h (by decide))
        (.later (noTo _ _ _ h (by decide)) (.here (.boxed (acc_toJust.2 ⟨h, rfl, rfl⟩)))))))))
    | unicode hu =>
      cases hs
      obtain ⟨h, h'⟩ := h
      exact .later (no _ _ h (by decide)) (.later (no _ _ h (by decide)) (.later (no _ _ h (by decide))
        (.later (noTo _ _ _ h (by decide)) (.later (noTo _ _ _ h (by decide)) (.later (noTo _ _ _ h (by decide))
        (.later (noTo _ _ _ h (by decide)) (.later (noTo _ _ _ h (by decide))
        (.here (.boxed (.ignoreThen (acc_just.2 ⟨h, rfl, rfl⟩)
          ((acc_hexEscape (parseF := parseF)).2 ⟨_, _, _, _, h', hu⟩)))))))))))

/-- One character of a string. -/
def charP (F : Type) : P F Char := .or (.noneOf ['"', '\\']) (.ignoreThen (.just '\\') (escape F))

theorem key_eq : key F = .boxed (.map String.ofList (.delimitedBy (.just '"')
    (.repeated ⟨0, none, false, false⟩ (charP F)) (.just '"'))) := rfl

theorem acc_char {y : Char} {parseF : String → Option F} : Accepts e D (charP F) i y j ↔
    ∃ t, Reads e i t j ∧ CharText (actual parseF) y t := by
  unfold charP
  rw [accepts_iff]
  constructor
  · rintro (h | ⟨_, h⟩)
    · obtain ⟨h1, h2, rfl⟩ := acc_noneOf.1 h
      simp only [List.mem_cons, List.not_mem_nil, or_false, not_or] at h2
      exact ⟨[y], ⟨h1, rfl⟩, .raw ⟨h2.1, h2.2⟩⟩
    · rw [accepts_iff] at h
      obtain ⟨k, x, h1, h2⟩ := h
      obtain ⟨h3, rfl, rfl⟩ := acc_just.1 h1
      obtain ⟨t, h4, h5⟩ := (acc_escape (parseF := parseF)).1 h2
      exact ⟨_ :: _, ⟨h3, h4⟩, h5⟩
  · rintro ⟨t, h, ht⟩
    have esc : ∀ t', t = '\\' :: t' → StepA e D (charP F) i y j := by
      rintro t' rfl
      refine .inr ⟨rej_noneOf (h.at.2 (by simp)), .ignoreThen (acc_just.2 ⟨h.1, rfl, rfl⟩)
        ((acc_escape (parseF := parseF)).2 ⟨t', h.2, ht⟩)⟩
    cases ht with
    | raw hr =>
      obtain ⟨h1, rfl⟩ := h
      exact .inl (acc_noneOf.2 ⟨h1, by
        simp only [List.mem_cons, List.not_mem_nil, or_false, not_or]; exact ⟨hr.1, hr.2⟩, rfl⟩)
    | _ => exact esc _ rfl

theorem rej_char (h : e.source i = some '"') : Rejects e D (charP F) i :=
  .or (rej_noneOf ((at_of h).2 (by simp)))
    (.ignoreThenFirst (rej_just.2 fun h' => absurd ((at_of h).1 h') (by decide)))

theorem run_char {parseF : String → Option F} : ∀ {cs : List Char} {i j : Nat}, Run e D (charP F) i cs j ↔
    ∃ t, Reads e i t j ∧ CharsText (actual parseF) cs t
  | [], i, j => by
    constructor
    · intro h; cases h; exact ⟨[], rfl, .nil⟩
    · rintro ⟨t, h, ht⟩; cases ht; cases h; exact .nil
  | c :: cs, i, j => by
    constructor
    · intro h
      cases h with
      | cons h h' =>
        obtain ⟨t, h1, h2⟩ := (acc_char (parseF := parseF)).1 h
        obtain ⟨ts, h3, h4⟩ := (run_char (parseF := parseF)).1 h'
        exact ⟨t ++ ts, reads_append.2 ⟨_, h1, h3⟩, .cons h2 h4⟩
    · rintro ⟨t, h, ht⟩
      cases ht with
      | cons h1 h2 =>
        obtain ⟨k, h3, h4⟩ := reads_append.1 h
        exact .cons ((acc_char (parseF := parseF)).2 ⟨_, h3, h1⟩) ((run_char (parseF := parseF)).2 ⟨_, h4, h2⟩)

theorem acc_key {s : String} {parseF : String → Option F} : Accepts e D (key F) i s j ↔
    ∃ t, Reads e i t j ∧ StringText (actual parseF) s t := by
  rw [key_eq, acc_boxed, accepts_iff]
  constructor
  · rintro ⟨cs, h, rfl⟩
    rw [accepts_iff] at h
    obtain ⟨k, h', x, z, h1, h2, h3⟩ := h
    obtain ⟨h4, rfl, rfl⟩ := acc_just.1 h1
    obtain ⟨h5, rfl, rfl⟩ := acc_just.1 h3
    obtain ⟨_, h6, _⟩ := accepts_repeated.1 h2
    obtain ⟨t, h7, h8⟩ := (run_char (parseF := parseF)).1 h6
    exact ⟨_ :: _, ⟨h4, (reads_append (t := [_])).2 ⟨_, h7, h5, rfl⟩⟩, .mk h8⟩
  · rintro ⟨t, h, ht⟩
    cases ht with
    | mk hc =>
      obtain ⟨h1, h2⟩ := h
      obtain ⟨k, h3, h4, rfl⟩ := reads_append.1 h2
      exact ⟨_, .delimitedBy (acc_just.2 ⟨h1, rfl, rfl⟩)
        (accepts_repeated.2 ⟨Nat.zero_le _, (run_char (parseF := parseF)).2 ⟨_, h3, hc⟩, rej_char h4⟩)
        (acc_just.2 ⟨h4, rfl, rfl⟩), rfl⟩

theorem rej_key (h : ¬ At e i (· = '"')) : Rejects e D (key F) i := by
  rw [key_eq]
  exact .boxed (.map (.delimitedByLeft (rej_just.2 h)))

end PPC.Json
