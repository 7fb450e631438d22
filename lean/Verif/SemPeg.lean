import Verif.SpecPeg
import Verif.SemChoice
import Verif.SemPanic
import Verif.SemShift
import Verif.SemTidy

/-!
# The positional semantics without recovery is the parsing expression semantics: lemmas
-/

namespace PPC

variable {S : Sig} {N : Names S} {E α β γ δ : Type}

/-! ## From the semantics to derivations -/

/-- What `q` returns without recovery is described by `A` (accepts) and `R` (rejects). -/
def PD (q : PSem E α) (A : Nat → α → Nat → Prop) (R : Nat → Prop) : Prop :=
  ∀ i r j, q false i = .ok (r, j) →
    (∃ o, r = .success o ∧ A i o j) ∨ (∃ x es, r = .failed x es ∧ R i)

theorem PD.mono {q : PSem E α} {A A' : Nat → α → Nat → Prop} {R R' : Nat → Prop} (h : PD q A R)
    (hA : ∀ i o j, A i o j → A' i o j) (hR : ∀ i, R i → R' i) : PD q A' R' := by
  intro i r j hr
  rcases h i r j hr with ⟨o, h1, h2⟩ | ⟨x, es, h1, h2⟩
  · exact .inl ⟨o, h1, hA _ _ _ h2⟩
  · exact .inr ⟨x, es, h1, hR _ h2⟩

theorem PD.acc {q : PSem E α} {A : Nat → α → Nat → Prop} {R : Nat → Prop} (h : PD q A R) {i j : Nat}
    {o : α} (hr : q false i = .ok (.success o, j)) : A i o j := by
  rcases h _ _ _ hr with ⟨o, h1, h2⟩ | ⟨x, es, h1, h2⟩
  · cases h1; exact h2
  · cases h1

theorem PD.rej {q : PSem E α} {A : Nat → α → Nat → Prop} {R : Nat → Prop} (h : PD q A R) {i j x : Nat}
    {es : List E} (hr : q false i = .ok (.failed x es, j)) : R i := by
  rcases h _ _ _ hr with ⟨o, h1, h2⟩ | ⟨x, es, h1, h2⟩
  · cases h1
  · exact h2

theorem PD.norec {q : PSem E α} {A : Nat → α → Nat → Prop} {R : Nat → Prop} (h : PD q A R) {i j : Nat}
    {o : α} {es : List E} (hr : q false i = .ok (.recovered o es, j)) : False := by
  rcases h _ _ _ hr with ⟨o, h1, h2⟩ | ⟨x, es, h1, h2⟩ <;> cases h1

theorem pd_map {f : α → β} {q : PSem E α} {A : Nat → α → Nat → Prop} {R : Nat → Prop} (h : PD q A R) :
    PD (qMap f q) (fun i o j => ∃ a, o = f a ∧ A i a j) R := by
  intro i r j hr
  simp only [qMap, Out.bind_eq_ok] at hr
  obtain ⟨⟨r', j'⟩, h1, h2⟩ := hr
  cases r' with
  | success a => cases h2; exact .inl ⟨_, rfl, a, rfl, h.acc h1⟩
  | recovered a es => exact (h.norec h1).elim
  | failed x es => cases h2; exact .inr ⟨_, _, rfl, h.rej h1⟩

theorem pd_mapWithSpan {e : Env S} {f : α → S.Span → β} {q : PSem E α} {A : Nat → α → Nat → Prop}
    {R : Nat → Prop} (h : PD q A R) :
    PD (qMapWithSpan e f q) (fun i o j => ∃ a, o = f a (e.spanOf i j) ∧ A i a j) R := by
  intro i r j hr
  simp only [qMapWithSpan, Out.bind_eq_ok] at hr
  obtain ⟨⟨r', j'⟩, h1, h2⟩ := hr
  cases r' with
  | success a => cases h2; exact .inl ⟨_, rfl, a, rfl, h.acc h1⟩
  | recovered a es => exact (h.norec h1).elim
  | failed x es => cases h2; exact .inr ⟨_, _, rfl, h.rej h1⟩

theorem pd_mapErr {X : Type} {f : X → E} {q : PSem X α} {A : Nat → α → Nat → Prop}
    {R : Nat → Prop} (h : PD q A R) : PD (qMapErr f q) A R := by
  intro i r j hr
  simp only [qMapErr, Out.bind_eq_ok] at hr
  obtain ⟨⟨r', j'⟩, h1, h2⟩ := hr
  cases r' with
  | success a => cases h2; exact .inl ⟨_, rfl, h.acc h1⟩
  | recovered a es => exact (h.norec h1).elim
  | failed x es => cases h2; exact .inr ⟨_, _, rfl, h.rej h1⟩

theorem pd_mapErrWithSpan {e : Env S} {X : Type} {f : X → S.Span → E} {q : PSem X α}
    {A : Nat → α → Nat → Prop} {R : Nat → Prop} (h : PD q A R) : PD (qMapErrWithSpan e f q) A R := by
  intro i r j hr
  simp only [qMapErrWithSpan, Out.bind_eq_ok] at hr
  obtain ⟨⟨r', j'⟩, h1, h2⟩ := hr
  cases r' with
  | success a => cases h2; exact .inl ⟨_, rfl, h.acc h1⟩
  | recovered a es => exact (h.norec h1).elim
  | failed x es => cases h2; exact .inr ⟨_, _, rfl, h.rej h1⟩

theorem pd_tryMap {e : Env S} {f : α → S.Span → TryMapResult β E} {q : PSem E α}
    {A : Nat → α → Nat → Prop} {R : Nat → Prop} (h : PD q A R) :
    PD (qTryMap e f q) (fun i o j => ∃ a, A i a j ∧ f a (e.spanOf i j) = .ok o)
      (fun i => R i ∨ (∃ a j es, A i a j ∧ f a (e.spanOf i j) = .err es) ∨
        ∃ a j o es, A i a j ∧ f a (e.spanOf i j) = .recovered o es) := by
  intro i r j hr
  simp only [qTryMap, Out.bind_eq_ok] at hr
  obtain ⟨⟨r', j'⟩, h1, h2⟩ := hr
  cases r' with
  | success a =>
    simp only [tryMapStep] at h2
    split at h2
    · rename_i o ho
      cases h2; exact .inl ⟨_, rfl, a, h.acc h1, ho⟩
    · rename_i es he
      split at h2
      · cases h2
      · cases h2; exact .inr ⟨_, _, rfl, .inr (.inl ⟨a, _, _, h.acc h1, he⟩)⟩
    · rename_i o es he
      split at h2
      · cases h2
      · simp only [Bool.false_eq_true, if_false] at h2
        cases h2; exact .inr ⟨_, _, rfl, .inr (.inr ⟨a, _, _, _, h.acc h1, he⟩)⟩
  | recovered a es => exact (h.norec h1).elim
  | failed x es => cases h2; exact .inr ⟨_, _, rfl, .inl (h.rej h1)⟩

theorem pd_concatLast {start : Nat} {f : β → γ} {q : PSem E β} {A : Nat → β → Nat → Prop}
    {R : Nat → Prop} (h : PD q A R) {i : Nat} {r : Res γ E} {j : Nat}
    (hr : concatLastSem false start f q none i = .ok (r, j)) :
    (∃ b, r = .success (f b) ∧ A i b j) ∨ (∃ x es, r = .failed x es ∧ R i) := by
  simp only [concatLastSem, Out.bind_eq_ok] at hr
  obtain ⟨⟨r', j'⟩, h1, h2⟩ := hr
  cases r' with
  | success a => cases h2; exact .inl ⟨a, rfl, h.acc h1⟩
  | recovered a es => exact (h.norec h1).elim
  | failed x es => cases h2; exact .inr ⟨_, _, rfl, h.rej h1⟩

theorem pd_concat2 {f : α × β → γ} {qa : PSem E α} {qb : PSem E β} {A : Nat → α → Nat → Prop}
    {R : Nat → Prop} {A' : Nat → β → Nat → Prop} {R' : Nat → Prop} (ha : PD qa A R) (hb : PD qb A' R') :
    PD (qConcat2 f qa qb) (fun i o k => ∃ x y j, A i x j ∧ A' j y k ∧ o = f (x, y))
      (fun i => R i ∨ ∃ x j, A i x j ∧ R' j) := by
  intro i r j hr
  simp only [qConcat2, Out.bind_eq_ok] at hr
  obtain ⟨⟨r', j'⟩, h1, h2⟩ := hr
  cases r' with
  | success a =>
    rcases pd_concatLast hb h2 with ⟨b, h3, h4⟩ | ⟨x, es, h3, h5⟩
    · exact .inl ⟨_, h3, a, b, _, ha.acc h1, h4, rfl⟩
    · exact .inr ⟨x, es, h3, .inr ⟨a, _, ha.acc h1, h5⟩⟩
  | recovered a es => exact (ha.norec h1).elim
  | failed x es => cases h2; exact .inr ⟨_, _, rfl, .inl (ha.rej h1)⟩

theorem pd_concat3 {f : α × β × γ → δ} {qa : PSem E α} {qb : PSem E β} {qc : PSem E γ}
    {A : Nat → α → Nat → Prop} {R : Nat → Prop} {A' : Nat → β → Nat → Prop} {R' : Nat → Prop}
    {A'' : Nat → γ → Nat → Prop} {R'' : Nat → Prop} (ha : PD qa A R) (hb : PD qb A' R')
    (hc : PD qc A'' R'') :
    PD (qConcat3 f qa qb qc)
      (fun i o h => ∃ x y z j k, A i x j ∧ A' j y k ∧ A'' k z h ∧ o = f (x, y, z))
      (fun i => R i ∨ (∃ x j, A i x j ∧ R' j) ∨ ∃ x y j k, A i x j ∧ A' j y k ∧ R'' k) := by
  intro i r j hr
  simp only [qConcat3, Out.bind_eq_ok] at hr
  obtain ⟨⟨r', j'⟩, h1, h2⟩ := hr
  cases r' with
  | success a =>
    simp only [concatMidSem, Out.bind_eq_ok] at h2
    obtain ⟨⟨r2, j2⟩, h3, h4⟩ := h2
    cases r2 with
    | success b =>
      rcases pd_concatLast hc h4 with ⟨c, h5, h6⟩ | ⟨x, es, h5, h7⟩
      · exact .inl ⟨_, h5, a, b, c, _, _, ha.acc h1, hb.acc h3, h6, rfl⟩
      · exact .inr ⟨x, es, h5, .inr (.inr ⟨a, b, _, _, ha.acc h1, hb.acc h3, h7⟩)⟩
    | recovered b es => exact (hb.norec h3).elim
    | failed x es => cases h4; exact .inr ⟨_, _, rfl, .inr (.inl ⟨a, _, ha.acc h1, hb.rej h3⟩)⟩
  | recovered a es => exact (ha.norec h1).elim
  | failed x es => cases h2; exact .inr ⟨_, _, rfl, .inl (ha.rej h1)⟩

/-- Descriptions of a list of parsers. -/
def PDs (e : Env S) (D : Defs S N) {ε : ErrTy S} : List (PSem ε.E α) → GL S N ε α → Prop
  | [], .nil => True
  | q :: qs, .cons g gs => PD q (Accepts e D g) (Rejects e D g) ∧ PDs e D qs gs
  | _, _ => False

theorem pd_concatRest {e : Env S} {D : Defs S N} {ε : ErrTy S} {start : Nat} :
    ∀ (qs : List (PSem ε.E α)) (gs : GL S N ε α), PDs e D qs gs → ∀ (out : List α) (i : Nat)
      (r : Res (List α) ε.E) (j : Nat), concatRestSem false start qs out none i = .ok (r, j) →
      (∃ os, r = .success (out ++ os) ∧ AcceptsAll e D gs i os j) ∨
        (∃ x es, r = .failed x es ∧ RejectsSome e D gs i)
  | [], .nil, _, out, i, r, j, h => by
    cases h; exact .inl ⟨[], by simp, .nil⟩
  | [], .cons _ _, h, _, _, _, _, _ => h.elim
  | _ :: _, .nil, h, _, _, _, _, _ => h.elim
  | q :: qs, .cons g gs, hq, out, i, r, j, h => by
    simp only [concatRestSem, Out.bind_eq_ok] at h
    obtain ⟨⟨r', j'⟩, h1, h2⟩ := h
    cases r' with
    | success a =>
      rcases pd_concatRest qs gs hq.2 _ _ _ _ h2 with ⟨os, h3, h4⟩ | ⟨x, es, h3, h5⟩
      · exact .inl ⟨a :: os, by rw [h3]; simp, .cons (hq.1.acc h1) h4⟩
      · exact .inr ⟨x, es, h3, .later (hq.1.acc h1) h5⟩
    | recovered a es => exact (hq.1.norec h1).elim
    | failed x es => cases h2; exact .inr ⟨_, _, rfl, .here (hq.1.rej h1)⟩

theorem pd_concat {e : Env S} {D : Defs S N} {ε : ErrTy S} {qs : List (PSem ε.E α)} {gs : GL S N ε α}
    (hq : PDs e D qs gs) : PD (qConcat qs) (AcceptsAll e D gs) (RejectsSome e D gs) := by
  intro i r j h
  cases qs with
  | nil =>
    cases gs with
    | nil => cases h; exact .inl ⟨_, rfl, .nil⟩
    | cons g gs => exact hq.elim
  | cons q qs =>
    cases gs with
    | nil => exact hq.elim
    | cons g gs =>
      simp only [qConcat, Out.bind_eq_ok] at h
      obtain ⟨⟨r', j'⟩, h1, h2⟩ := h
      cases r' with
      | success a =>
        rcases pd_concatRest qs gs hq.2 _ _ _ _ h2 with ⟨os, h3, h4⟩ | ⟨x, es, h3, h5⟩
        · exact .inl ⟨a :: os, by rw [h3]; simp, .cons (hq.1.acc h1) h4⟩
        · exact .inr ⟨x, es, h3, .later (hq.1.acc h1) h5⟩
      | recovered a es => exact (hq.1.norec h1).elim
      | failed x es => cases h2; exact .inr ⟨_, _, rfl, .here (hq.1.rej h1)⟩

/-! Choice. -/

/-- The first description that does not reject accepts. -/
def FirstA : List ((Nat → α → Nat → Prop) × (Nat → Prop)) → Nat → α → Nat → Prop
  | [], _, _, _ => False
  | (A, R) :: l, i, o, j => A i o j ∨ R i ∧ FirstA l i o j

/-- All descriptions reject. -/
def AllR : List ((Nat → α → Nat → Prop) × (Nat → Prop)) → Nat → Prop
  | [], _ => True
  | (_, R) :: l, i => R i ∧ AllR l i

/-- Descriptions of a list of parsers, all but the last of which go back when they fail. -/
def PDL : List (PSem E α) → List ((Nat → α → Nat → Prop) × (Nat → Prop)) → Prop
  | [], [] => True
  | q :: qs, (A, R) :: l => PD q A R ∧ (qs ≠ [] → RW q) ∧ PDL qs l
  | _, _ => False

theorem pd_altFirst : ∀ (qs : List (PSem E α)) (l : List ((Nat → α → Nat → Prop) × (Nat → Prop))),
    PDL qs l → ∀ (fails : List (FailSem E α)) (i : Nat) (x : α ⊕ List (FailSem E α)) (j : Nat),
      altFirstSem qs fails i = .ok (x, j) →
      (∃ o, x = .inl o ∧ FirstA l i o j) ∨ (∃ fs, x = .inr fs ∧ AllR l i)
  | [], [], _, fails, i, x, j, h => by
    cases h; exact .inr ⟨_, rfl, trivial⟩
  | [], _ :: _, h, _, _, _, _, _ => h.elim
  | _ :: _, [], h, _, _, _, _, _ => h.elim
  | q :: qs, (A, R) :: l, hq, fails, i, x, j, h => by
    simp only [altFirstSem, Out.bind_eq_ok] at h
    obtain ⟨⟨r', j'⟩, h1, h2⟩ := h
    cases r' with
    | success a => cases h2; exact .inl ⟨_, rfl, .inl (hq.1.acc h1)⟩
    | recovered a es => exact (hq.1.norec h1).elim
    | failed y es =>
      have h3 := hq.1.rej h1
      by_cases hl : qs = []
      · subst hl
        cases l with
        | nil => cases h2; exact .inr ⟨_, rfl, h3, trivial⟩
        | cons a l => exact hq.2.2.elim
      · have := hq.2.1 hl _ _ _ _ h1
        subst this
        rcases pd_altFirst qs l hq.2.2 _ _ _ _ h2 with ⟨o, h4, h5⟩ | ⟨fs, h4, h6⟩
        · exact .inl ⟨o, h4, .inr ⟨h3, h5⟩⟩
        · exact .inr ⟨fs, h4, h3, h6⟩

theorem pd_alternate {ε : ErrTy S} {qs : List (PSem ε.E α)}
    {l : List ((Nat → α → Nat → Prop) × (Nat → Prop))} (hq : PDL qs l) :
    PD (qAlternate ε qs) (FirstA l) (AllR l) := by
  intro i r j h
  simp only [qAlternate, Out.bind_eq_ok] at h
  obtain ⟨⟨x, k⟩, h1, h2⟩ := h
  rcases pd_altFirst qs l hq _ _ _ _ h1 with ⟨o, rfl, h5⟩ | ⟨fs, rfl, h6⟩
  · cases h2; exact .inl ⟨o, rfl, h5⟩
  · simp only at h2
    split at h2
    · cases h2
    · simp only [Bool.false_eq_true, if_false] at h2
      obtain ⟨rfl, y, es, rfl, hy⟩ := altCombine_failed h2
      exact .inr ⟨_, _, rfl, h6⟩

theorem firstA_iff {e : Env S} {D : Defs S N} {ε : ErrTy S} : ∀ (gs : GL S N ε α) {i j : Nat} {o : α},
    FirstA (gs.toList.map fun g => (Accepts e D g, Rejects e D g)) i o j → AcceptsFirst e D gs i o j
  | .nil, _, _, _, h => h.elim
  | .cons g gs, i, j, o, h => by
    rcases h with h | ⟨h1, h2⟩
    · exact .here h
    · exact .later h1 (firstA_iff gs h2)

theorem allR_iff {e : Env S} {D : Defs S N} {ε : ErrTy S} : ∀ (gs : GL S N ε α) {i : Nat},
    AllR (gs.toList.map fun g => (Accepts e D g, Rejects e D g)) i → RejectsAll e D gs i
  | .nil, _, _ => .nil
  | .cons _ gs, _, h => .cons h.1 (allR_iff gs h.2)

/-! Repetition. -/

theorem atMax_iff {c : RepCfg} {k : Nat} : c.atMax k = true ↔ c.Full k := by
  unfold RepCfg.atMax RepCfg.Full
  cases c.maximum with
  | none => simp
  | some m => simp

/-- The cases of the item part of an iteration. -/
theorem pd_repItem {c : RepCfg} {item : PSem E α} {A : Nat → α → Nat → Prop} {R : Nat → Prop}
    (hi : PD item A R) (hw : RW item) {start : Nat}
    {again : List α → Option (List E) → Nat → Out (Res (List α) E × Nat)} {out : List α}
    {before : Option Nat} {i : Nat} {r : Res (List α) E} {j : Nat}
    (h : repItemSem c item false start again out none before i = .ok (r, j)) :
    ((c.allowTrailing = true ∧ c.Full out.length) ∧ r = .success out ∧ j = i) ∨
    (¬ (c.allowTrailing = true ∧ c.Full out.length) ∧
      ((∃ o h', A i o h' ∧ again (out ++ [o]) none h' = .ok (r, j)) ∨
       (R i ∧ ((c.minimum ≤ out.length ∧ r = .success out ∧
          j = (match before with
            | some b => if c.allowTrailing then i else b
            | none => i)) ∨
         (out.length < c.minimum ∧ ∃ x es, r = .failed x es ∧ j = start))))) := by
  unfold repItemSem at h
  rw [← atMax_iff]
  split at h
  · rename_i h1
    cases h
    exact .inl ⟨by simpa using h1, rfl, rfl⟩
  · rename_i h1
    refine .inr ⟨by simpa using h1, ?_⟩
    simp only [Out.bind_eq_ok, Bool.false_and] at h
    obtain ⟨⟨r', j'⟩, h1, h2⟩ := h
    cases r' with
    | success a => exact .inl ⟨a, _, hi.acc h1, h2⟩
    | recovered a es => exact (hi.norec h1).elim
    | failed x es =>
      have h3 := hi.rej h1
      have := hw _ _ _ _ h1
      subst this
      refine .inr ⟨h3, ?_⟩
      simp only at h2
      split at h2
      · rename_i h4
        cases before with
        | none => cases h2; exact .inl ⟨h4, rfl, rfl⟩
        | some b =>
          simp only at h2
          split at h2
          · rename_i h5; cases h2; exact .inl ⟨h4, rfl, by simp [h5]⟩
          · rename_i h5; cases h2; exact .inl ⟨h4, rfl, by simp [h5]⟩
      · rename_i h4
        cases h2
        exact .inr ⟨by omega, _, _, rfl, rfl⟩

/-- The parsers of an optional separator, which goes back when it fails. -/
def PDO (e : Env S) (D : Defs S N) {ε : ErrTy S} : Option (PSem ε.E β) → Option (G S N ε β) → Prop
  | none, none => True
  | some q, some g => PD q (Accepts e D g) (Rejects e D g) ∧ RW q
  | _, _ => False

theorem Full.min_le {c : RepCfg} (hc : ∀ m, c.maximum = some m → c.minimum ≤ m) {k : Nat}
    (h : c.Full k) : c.minimum ≤ k := by
  obtain ⟨m, h1, h2⟩ := h
  have := hc m h1
  omega

theorem pd_repLoop {e : Env S} {D : Defs S N} {ε : ErrTy S} {c : RepCfg}
    (hc : ∀ m, c.maximum = some m → c.minimum ≤ m) {item : PSem ε.E α} {g : G S N ε α}
    (hi : PD item (Accepts e D g) (Rejects e D g)) (hiw : RW item) {sep : Option (PSem ε.E β)} {gs : Option (G S N ε β)}
    (hs : PDO e D sep gs) {start : Nat} : ∀ (fuel : Nat) (out : List α) (i : Nat)
      (r : Res (List α) ε.E) (j : Nat), repLoopSem c item sep false start fuel out none i = .ok (r, j) →
      (∃ os, r = .success (out ++ os) ∧ AcceptsItems e D c g gs out.length i os j) ∨
        (∃ x es, r = .failed x es ∧ RejectsItems e D c g gs out.length i)
  | 0, _, _, _, _, h => by cases h
  | fuel + 1, out, i, r, j, h => by
    have ih := pd_repLoop hc hi hiw hs (start := start) fuel
    have more : ∀ o h', ¬ c.Full out.length → Another e D c g gs out.length i o h' →
        repLoopSem c item sep false start fuel (out ++ [o]) none h' = .ok (r, j) →
        (∃ os, r = .success (out ++ os) ∧ AcceptsItems e D c g gs out.length i os j) ∨
        (∃ x es, r = .failed x es ∧ RejectsItems e D c g gs out.length i) := by
      intro o h' h1 h2 h3
      have h4 := ih _ _ _ _ h3
      simp only [List.length_append, List.length_cons, List.length_nil, Nat.zero_add] at h4
      rcases h4 with ⟨os, h4, h5⟩ | ⟨x, es, h4, h6⟩
      · exact .inl ⟨o :: os, by rw [h4]; simp, .another h1 h2 h5⟩
      · exact .inr ⟨x, es, h4, .another h1 h2 h6⟩
    have done : ¬ c.Full out.length → NoOther e D c g gs out.length i j → c.minimum ≤ out.length →
        r = .success out →
        (∃ os, r = .success (out ++ os) ∧ AcceptsItems e D c g gs out.length i os j) ∨
        (∃ x es, r = .failed x es ∧ RejectsItems e D c g gs out.length i) :=
      fun h1 h2 h3 h4 => .inl ⟨[], by simp [h4], .done h1 h2 h3⟩
    have few : ∀ {j'}, ¬ c.Full out.length → NoOther e D c g gs out.length i j' → out.length < c.minimum →
        (∃ x es, r = .failed x es ∧ j = start) →
        (∃ os, r = .success (out ++ os) ∧ AcceptsItems e D c g gs out.length i os j) ∨
        (∃ x es, r = .failed x es ∧ RejectsItems e D c g gs out.length i) :=
      fun h1 h2 h3 ⟨x, es, h4, h5⟩ => .inr ⟨x, es, h4, .tooFew h1 h2 h3⟩
    have full : c.Full out.length → Trailer e D c gs out.length i j → r = .success out →
        (∃ os, r = .success (out ++ os) ∧ AcceptsItems e D c g gs out.length i os j) ∨
        (∃ x es, r = .failed x es ∧ RejectsItems e D c g gs out.length i) :=
      fun h1 h2 h3 => .inl ⟨[], by simp [h3], .full h1 h2⟩
    unfold repLoopSem at h
    split at h
    · rename_i h1
      cases h
      simp only [Bool.and_eq_true, Bool.not_eq_true', atMax_iff] at h1
      refine full h1.2 ?_ rfl
      cases gs with
      | none => exact .plain
      | some gs => exact .notAllowed (by simp [h1.1])
    · rename_i hmax
      simp only [Bool.and_eq_true, Bool.not_eq_true', atMax_iff] at hmax
      have notFull : ¬ (c.allowTrailing = true ∧ c.Full out.length) → ¬ c.Full out.length := by
        intro h1 h2
        cases ht : c.allowTrailing with
        | true => exact h1 ⟨ht, h2⟩
        | false => exact hmax ⟨ht, h2⟩
      simp only at h
      split at h
      · -- a separator is wanted
        rename_i _ _ q hb
        cases gs with
        | none => exact hs.elim
        | some gs =>
          have hs' : PD q (Accepts e D gs) (Rejects e D gs) := hs.1
          have hw : c.WantsSep out.length := by
            cases hl : out with
            | nil => right; simpa [hl] using hb
            | cons x xs => left; simp
          simp only [Out.bind_eq_ok, Bool.false_and] at h
          obtain ⟨⟨r', j'⟩, h1, h2⟩ := h
          cases r' with
          | success a =>
            have ha := hs'.acc h1
            rcases pd_repItem hi hiw h2 with ⟨h3, h4, rfl⟩ | ⟨h3, h4⟩
            · exact full h3.2 (.trailing h3.1 hw ha) h4
            · have h3' := notFull h3
              rcases h4 with ⟨o, h', h4, h5⟩ | ⟨h4, ⟨h5, h6, h7⟩ | ⟨h5, h6⟩⟩
              · exact more o h' h3' (.separated hw ha h4) h5
              · refine done h3' ?_ h5 h6
                cases ht : c.allowTrailing with
                | true => rw [h7]; simp only [ht, if_true]; exact .trailing hw ht ha h4
                | false => rw [h7]; simp only [ht]; exact .notTrailing hw ht ha h4
              · cases ht : c.allowTrailing with
                | true => exact few h3' (.trailing hw ht ha h4) h5 h6
                | false => exact few h3' (.notTrailing hw ht ha h4) h5 h6
          | recovered a es => exact (hs'.norec h1).elim
          | failed x es =>
            have hr := hs'.rej h1
            have := hs.2 _ _ _ _ h1
            subst this
            simp only at h2
            split at h2
            · rename_i h0
              have hl : out = [] := by simpa using h0
              have hlead : c.allowLeading = true := by
                rcases hw with hw | hw
                · simp [hl] at hw
                · exact hw
              have h00 : out.length = 0 := by simp [hl]
              rcases pd_repItem hi hiw h2 with ⟨h3, h4, rfl⟩ | ⟨h3, h4⟩
              · exact full h3.2 (.absent h3.1 hw hr) h4
              · have h3' := notFull h3
                rcases h4 with ⟨o, h', h4, h5⟩ | ⟨h4, ⟨h5, h6, h7⟩ | ⟨h5, h6⟩⟩
                · exact more o h' h3' (by rw [h00]; exact .noLeading hlead hr h4) h5
                · refine done h3' ?_ h5 h6
                  have : j = j' := by rw [h7]; simp
                  rw [this, h00]; exact .noLeading hlead hr h4
                · exact few h3' (by rw [h00]; exact .noLeading hlead hr h4) h5 h6
            · rename_i h0
              have hpos : 0 < out.length := by
                cases hl : out with
                | nil => simp [hl] at h0
                | cons x xs => simp
              by_cases hf : c.Full out.length
              · have ht : c.allowTrailing = true := by
                  cases ht : c.allowTrailing with
                  | true => rfl
                  | false => exact (hmax ⟨ht, hf⟩).elim
                rw [if_pos (Full.min_le hc hf)] at h2
                cases h2
                exact full hf (.absent ht hw hr) rfl
              · split at h2
                · rename_i h5
                  cases h2
                  exact done hf (.noSeparator hpos hr) h5 rfl
                · rename_i h5
                  cases h2
                  exact few hf (.noSeparator hpos hr) (by omega) ⟨_, _, rfl, rfl⟩
      · rename_i sep _ _ hns
        have hn : gs = none ∨ ¬ c.WantsSep out.length := by
          cases gs with
          | none => exact .inl rfl
          | some gs =>
            right
            cases sep with
            | none => exact hs.elim
            | some q =>
              have h5 := hns q
              intro hw
              apply h5 rfl
              rcases hw with hw | hw
              · cases hl : out with
                | nil => simp [hl] at hw
                | cons x xs => rfl
              · rw [hw]; simp
        have tr : Trailer e D c gs out.length i i := by
          cases gs with
          | none => exact .plain
          | some gs =>
            rcases hn with hn | hn
            · cases hn
            · exact .notAllowed (fun h => hn h.2)
        have an : ∀ o h', Accepts e D g i o h' → Another e D c g gs out.length i o h' := by
          intro o h' ha
          cases gs with
          | none => exact .plain ha
          | some gs =>
            rcases hn with hn | hn
            · cases hn
            · exact .unwanted hn ha
        have no : Rejects e D g i → NoOther e D c g gs out.length i i := by
          intro ha
          cases gs with
          | none => exact .plain ha
          | some gs =>
            rcases hn with hn | hn
            · cases hn
            · exact .unwanted hn ha
        rcases pd_repItem hi hiw h with ⟨h3, h4, rfl⟩ | ⟨h3, h4⟩
        · exact full h3.2 tr h4
        · have h3' := notFull h3
          rcases h4 with ⟨o, h', h4, h5⟩ | ⟨h4, ⟨h5, h6, h7⟩ | ⟨h5, h6⟩⟩
          · exact more o h' h3' (an o h' h4) h5
          · exact done h3' (by rw [h7]; exact no h4) h5 h6
          · exact few h3' (no h4) h5 h6

theorem pd_toRecover {q : PSem E α} {st : SSem E α} {A : Nat → α → Nat → Prop} {R : Nat → Prop}
    (h : PD q A R) : PD (qToRecover q st) A R := by
  intro i r j hr
  simp only [qToRecover, Out.bind_eq_ok] at hr
  obtain ⟨⟨r', j'⟩, h1, h2⟩ := hr
  cases r' with
  | success a => cases h2; exact .inl ⟨_, rfl, h.acc h1⟩
  | recovered a es => exact (h.norec h1).elim
  | failed x es => cases h2; exact .inr ⟨_, _, rfl, h.rej h1⟩

/-! All parsers. -/

theorem isTok_true {S : Sig} {o : Option S.I} {x : S.I} (h : isTok S o x = true) :
    ∃ t, o = some t ∧ S.eqI t x = true := by
  cases o with
  | none => cases h
  | some t => exact ⟨t, rfl, h⟩

theorem isTok_false {S : Sig} {o : Option S.I} {x : S.I} (h : ¬ isTok S o x = true) :
    ∀ t, o = some t → S.eqI t x = false := by
  intro t ht
  subst ht
  simpa [isTok] using h

theorem matchSeq_matches {e : Env S} : ∀ {items : List S.I} {i : Nat}, matchSeq e items i = none →
    ∀ k x, items[k]? = some x → ∃ t, e.source (i + k) = some t ∧ S.eqI t x = true
  | [], _, _, k, x, h => by simp at h
  | y :: ys, i, h, k, x, hk => by
    rw [matchSeq] at h
    split at h
    · rename_i h1
      cases k with
      | zero => simp only [List.getElem?_cons_zero, Option.some.injEq] at hk; subst hk; exact isTok_true h1
      | succ k =>
        rw [List.getElem?_cons_succ] at hk
        obtain ⟨t, h2, h3⟩ := matchSeq_matches h k x hk
        exact ⟨t, by rw [← h2]; congr 1; omega, h3⟩
    · cases h

theorem matchSeq_mismatch {e : Env S} : ∀ {items : List S.I} {i j : Nat} {x : S.I},
    matchSeq e items i = some (j, x) →
    ∃ k, items[k]? = some x ∧ ∀ t, e.source (i + k) = some t → S.eqI t x = false
  | [], _, _, _, h => by cases h
  | y :: ys, i, j, x, h => by
    rw [matchSeq] at h
    split at h
    · obtain ⟨k, h2, h3⟩ := matchSeq_mismatch h
      exact ⟨k + 1, by simpa using h2, fun t ht => h3 t (by rw [← ht]; congr 1; omega)⟩
    · rename_i h1
      cases h
      exact ⟨0, by simp, isTok_false h1⟩

section

variable {e : Env S} {D : Defs S N} {ρ : QEnv S N}

mutual

/-- What a parser returns without recovery is derivable. -/
theorem G.pd (hn : ∀ k, NR (ρ k)) (hw : ∀ k, RW (ρ k))
    (hρ : ∀ k, PD (ρ k) (Accepts e D (.call k)) (Rejects e D (.call k))) (n : Nat) :
    ∀ {ε : ErrTy S} {α : Type} (g : G S N ε α), g.All (plainL S N) →
      PD (g.den e ρ n) (Accepts e D g) (Rejects e D g)
  | _, _, .empty, _ => by
    rw [G.den]; intro i r j h; cases h; exact .inl ⟨_, rfl, .empty⟩
  | _, _, .none _, _ => by
    rw [G.den]; intro i r j h; cases h; exact .inl ⟨_, rfl, .none⟩
  | _, _, .eof, _ => by
    rw [G.den]; intro i r j h
    unfold qEnd at h
    split at h
    · rename_i h1; cases h; exact .inl ⟨_, rfl, .eof h1⟩
    · rename_i h1; cases h; exact .inr ⟨_, _, rfl, .eof h1⟩
  | _, _, .just t, _ => by
    rw [G.den]; intro i r j h
    unfold qJust at h
    split at h
    · rename_i h1
      obtain ⟨t', h2, h3⟩ := isTok_true h1
      cases h; exact .inl ⟨_, rfl, .just h2 h3⟩
    · rename_i h1; cases h; exact .inr ⟨_, _, rfl, .just (isTok_false h1)⟩
  | _, _, .filter p, _ => by
    rw [G.den]; intro i r j h
    unfold qFilter at h
    split at h
    · rename_i t h1
      split at h
      · rename_i h2; cases h; exact .inl ⟨_, rfl, .filter h1 h2⟩
      · rename_i h2
        cases h
        exact .inr ⟨_, _, rfl, .filter fun t' ht => by rw [h1] at ht; cases ht; simpa using h2⟩
    · rename_i h1
      cases h; exact .inr ⟨_, _, rfl, .filter fun t' ht => by rw [h1] at ht; cases ht⟩
  | _, _, .filterMap f, _ => by
    rw [G.den]; intro i r j h
    unfold qFilterMap at h
    cases hs : e.source i with
    | none =>
      rw [hs] at h; cases h
      exact .inr ⟨_, _, rfl, .filterMap fun t' ht => by rw [hs] at ht; cases ht⟩
    | some t =>
      rw [hs] at h
      simp only [Option.bind_some] at h
      cases hf : f t with
      | none =>
        rw [hf] at h; cases h
        exact .inr ⟨_, _, rfl, .filterMap fun t' ht => by rw [hs] at ht; cases ht; exact hf⟩
      | some o => rw [hf] at h; cases h; exact .inl ⟨_, rfl, .filterMap hs hf⟩
  | _, _, .seq v items, _ => by
    rw [G.den]; intro i r j h
    unfold qSeq at h
    split at h
    · rename_i h1; cases h; exact .inl ⟨_, rfl, .seq (matchSeq_matches h1)⟩
    · rename_i h1
      obtain ⟨k, h2, h3⟩ := matchSeq_mismatch h1
      cases h; exact .inr ⟨_, _, rfl, .seq h2 h3⟩
  | _, _, .oneOf items, _ => by
    rw [G.den]; intro i r j h
    unfold qOneOf at h
    split at h
    · rename_i t h1
      split at h
      · rename_i h2
        obtain ⟨x, hx, h3⟩ := List.any_eq_true.1 h2
        cases h; exact .inl ⟨_, rfl, .oneOf h1 hx h3⟩
      · rename_i h2
        cases h
        refine .inr ⟨_, _, rfl, .oneOf fun t' ht x hx => ?_⟩
        rw [h1] at ht; cases ht
        simp only [List.any_eq_true, not_exists, not_and, Bool.not_eq_true] at h2
        exact h2 x hx
    · rename_i h1
      cases h; exact .inr ⟨_, _, rfl, .oneOf fun t' ht => by rw [h1] at ht; cases ht⟩
  | _, _, .noneOf items, _ => by
    rw [G.den]; intro i r j h
    unfold qNoneOf at h
    split at h
    · rename_i t h1
      split at h
      · rename_i h2
        obtain ⟨x, hx, h3⟩ := List.any_eq_true.1 h2
        cases h
        exact .inr ⟨_, _, rfl, .noneOf fun t' ht => by
          rw [h1] at ht; cases ht; exact ⟨x, hx, h3⟩⟩
      · rename_i h2
        cases h
        simp only [List.any_eq_true, not_exists, not_and, Bool.not_eq_true] at h2
        exact .inl ⟨_, rfl, .noneOf h1 fun x hx => h2 x hx⟩
    · rename_i h1
      cases h; exact .inr ⟨_, _, rfl, .noneOf fun t' ht => by rw [h1] at ht; cases ht⟩
  | _, _, .boxed g, h => by
    rw [G.All] at h; rw [G.den]
    exact (G.pd hn hw hρ n g h.2).mono (fun _ _ _ => .boxed) (fun _ => .boxed)
  | _, _, .withError g, h => by
    rw [G.All] at h; rw [G.den]
    exact (G.pd hn hw hρ n g h.2).mono (fun _ _ _ => .withError) (fun _ => .withError)
  | _, _, .to g v, h => by
    rw [G.All] at h; rw [G.den]
    exact (pd_map (G.pd hn hw hρ n g h.2)).mono (fun _ _ _ ⟨_, h1, h2⟩ => h1 ▸ .to h2) (fun _ => .to)
  | _, _, .some g, h => by
    rw [G.All] at h; rw [G.den]
    exact (pd_map (G.pd hn hw hρ n g h.2)).mono (fun _ _ _ ⟨_, h1, h2⟩ => h1 ▸ .some h2) (fun _ => .some)
  | _, _, .map f g, h => by
    rw [G.All] at h; rw [G.den]
    exact (pd_map (G.pd hn hw hρ n g h.2)).mono (fun _ _ _ ⟨_, h1, h2⟩ => h1 ▸ .map h2) (fun _ => .map)
  | _, _, .mapWithSpan f g, h => by
    rw [G.All] at h; rw [G.den]
    exact (pd_mapWithSpan (G.pd hn hw hρ n g h.2)).mono (fun _ _ _ ⟨_, h1, h2⟩ => h1 ▸ .mapWithSpan h2)
      (fun _ => .mapWithSpan)
  | _, _, .mapErr f g, h => by
    rw [G.All] at h; rw [G.den]
    exact (pd_mapErr (G.pd hn hw hρ n g h.2)).mono (fun _ _ _ => .mapErr) (fun _ => .mapErr)
  | _, _, .mapErrWithSpan f g, h => by
    rw [G.All] at h; rw [G.den]
    exact (pd_mapErrWithSpan (G.pd hn hw hρ n g h.2)).mono (fun _ _ _ => .mapErrWithSpan)
      (fun _ => .mapErrWithSpan)
  | _, _, .tryMap f g, h => by
    rw [G.All] at h; rw [G.den]
    refine (pd_tryMap (G.pd hn hw hρ n g h.2)).mono (fun _ _ _ ⟨_, h1, h2⟩ => .tryMap h1 h2) ?_
    rintro i (h2 | ⟨a, j, es, h2, h3⟩ | ⟨a, j, o, es, h2, h3⟩)
    · exact .tryMap h2
    · exact .tryMapErr h2 h3
    · exact .tryMapRecovered h2 h3
  | _, _, .then_ a b, h => by
    rw [G.All] at h; rw [G.den]
    refine (pd_concat2 (G.pd hn hw hρ n a h.2.1) (G.pd hn hw hρ n b h.2.2)).mono
      (fun _ _ _ ⟨_, _, _, h1, h2, h3⟩ => h3 ▸ .then_ h1 h2) ?_
    rintro i (h2 | ⟨x, j, h2, h3⟩)
    · exact .thenFirst h2
    · exact .thenSecond h2 h3
  | _, _, .thenIgnore a b, h => by
    rw [G.All] at h; rw [G.den]
    refine (pd_concat2 (G.pd hn hw hρ n a h.2.1) (G.pd hn hw hρ n b h.2.2)).mono
      (fun _ _ _ ⟨_, _, _, h1, h2, h3⟩ => h3 ▸ .thenIgnore h1 h2) ?_
    rintro i (h2 | ⟨x, j, h2, h3⟩)
    · exact .thenIgnoreFirst h2
    · exact .thenIgnoreSecond h2 h3
  | _, _, .ignoreThen a b, h => by
    rw [G.All] at h; rw [G.den]
    refine (pd_concat2 (G.pd hn hw hρ n a h.2.1) (G.pd hn hw hρ n b h.2.2)).mono
      (fun _ _ _ ⟨_, _, _, h1, h2, h3⟩ => h3 ▸ .ignoreThen h1 h2) ?_
    rintro i (h2 | ⟨x, j, h2, h3⟩)
    · exact .ignoreThenFirst h2
    · exact .ignoreThenSecond h2 h3
  | _, _, .delimitedBy l m r, h => by
    rw [G.All] at h; rw [G.den]
    refine (pd_concat3 (G.pd hn hw hρ n l h.2.1) (G.pd hn hw hρ n m h.2.2.1) (G.pd hn hw hρ n r h.2.2.2)).mono
      (fun _ _ _ ⟨_, _, _, _, _, h1, h2, h3, h4⟩ => h4 ▸ .delimitedBy h1 h2 h3) ?_
    rintro i (h2 | ⟨x, j, h2, h3⟩ | ⟨x, y, j, k, h2, h3, h4⟩)
    · exact .delimitedByLeft h2
    · exact .delimitedByMiddle h2 h3
    · exact .delimitedByRight h2 h3 h4
  | _, _, .paddedBy p m, h => by
    rw [G.All] at h; rw [G.den]
    refine (pd_concat3 (G.pd hn hw hρ n p h.2.1) (G.pd hn hw hρ n m h.2.2) (G.pd hn hw hρ n p h.2.1)).mono
      (fun _ _ _ ⟨_, _, _, _, _, h1, h2, h3, h4⟩ => h4 ▸ .paddedBy h1 h2 h3) ?_
    rintro i (h2 | ⟨x, j, h2, h3⟩ | ⟨x, y, j, k, h2, h3, h4⟩)
    · exact .paddedByLeft h2
    · exact .paddedByMiddle h2 h3
    · exact .paddedByRight h2 h3 h4
  | _, _, .chain gs, h => by
    rw [G.All] at h; rw [G.den]
    exact (pd_concat (GL.pd hn hw hρ n gs h.2).1).mono (fun _ _ _ => .chain) (fun _ => .chain)
  | _, _, .or a b, h => by
    rw [G.All] at h; rw [G.den]
    refine (pd_alternate (qs := [a.den e ρ n, b.den e ρ n])
      (l := [(Accepts e D a, Rejects e D a), (Accepts e D b, Rejects e D b)])
      ⟨G.pd hn hw hρ n a h.2.1, fun _ => G.rw hn hw n a h.2.1 h.1, G.pd hn hw hρ n b h.2.2,
        fun h => (h rfl).elim, trivial⟩).mono ?_ ?_
    · rintro i o j (h1 | ⟨h1, h2 | ⟨_, h3⟩⟩)
      · exact .orLeft h1
      · exact .orRight h1 h2
      · exact h3.elim
    · rintro i ⟨h1, h2, _⟩
      exact .or h1 h2
  | _, _, .orNot (α := β) g, h => by
    rw [G.All] at h; rw [G.den]
    refine (pd_alternate (qs := [qMap Option.some (g.den e ρ n), qNone])
      (l := [(fun i o j => ∃ a, o = Option.some a ∧ Accepts e D g i a j, Rejects e D g), (fun i o j => o = Option.none ∧ j = i, fun _ => False)])
      ⟨pd_map (G.pd hn hw hρ n g h.2), fun _ => rw_map (G.rw hn hw n g h.2 h.1), ?_,
        fun h => (h rfl).elim, trivial⟩).mono ?_ ?_
    · intro i r j h; cases h; exact .inl ⟨_, rfl, rfl, rfl⟩
    · rintro i o j (⟨a, rfl, h1⟩ | ⟨h1, ⟨rfl, rfl⟩ | ⟨h3, _⟩⟩)
      · exact .orNotSome h1
      · exact .orNotNone h1
      · exact h3.elim
    · rintro i ⟨h1, h2, _⟩
      exact h2.elim
  | _, _, .alters gs, h => by
    rw [G.All] at h; rw [G.den]
    exact (pd_alternate ((GL.pd hn hw hρ n gs h.2).2 h.1.2)).mono (fun _ _ _ h1 => .alters (firstA_iff gs h1))
      (fun _ h1 => .alters (allR_iff gs h1))
  | _, _, .repeated c g, h => by
    rw [G.All] at h; rw [G.den]
    have hc : ∀ m, c.maximum = Option.some m → c.minimum ≤ m := h.1.1
    intro i r j hr
    rcases pd_repLoop hc (G.pd hn hw hρ n g h.2) (G.rw hn hw n g h.2 h.1.2) (gs := Option.none) (by exact trivial) n [] i r j hr
      with ⟨os, h1, h2⟩ | ⟨x, es, h1, h3⟩
    · exact .inl ⟨os, by simpa using h1, .repeated h2⟩
    · exact .inr ⟨x, es, h1, .repeated h3⟩
  | _, _, .separatedBy c g sep, h => by
    rw [G.All] at h; rw [G.den]
    have hc : ∀ m, c.maximum = Option.some m → c.minimum ≤ m := h.1.1
    intro i r j hr
    rcases pd_repLoop hc (G.pd hn hw hρ n g h.2.1) (G.rw hn hw n g h.2.1 h.1.2.1)
      (sep := Option.some (sep.den e ρ n)) (gs := Option.some sep)
      ⟨G.pd hn hw hρ n sep h.2.2, G.rw hn hw n sep h.2.2 h.1.2.2⟩ n [] i r j hr
      with ⟨os, h1, h2⟩ | ⟨x, es, h1, h3⟩
    · exact .inl ⟨os, by simpa using h1, .separatedBy h2⟩
    · exact .inr ⟨x, es, h1, .separatedBy h3⟩
  | _, _, .toRecover g st, h => by
    rw [G.All] at h; rw [G.den]
    exact (pd_toRecover (G.pd hn hw hρ n g h.2.1)).mono (fun _ _ _ => .toRecover) (fun _ => .toRecover)
  | _, _, .call k, _ => by rw [G.den]; exact hρ k

theorem GL.pd (hn : ∀ k, NR (ρ k)) (hw : ∀ k, RW (ρ k))
    (hρ : ∀ k, PD (ρ k) (Accepts e D (.call k)) (Rejects e D (.call k))) (n : Nat) :
    ∀ {ε : ErrTy S} {α : Type} (gs : GL S N ε α), gs.All (plainL S N) → PDs e D (gs.den e ρ n) gs ∧
      (gs.InitTidy → PDL (gs.den e ρ n) (gs.toList.map fun g => (Accepts e D g, Rejects e D g)))
  | _, _, .nil, _ => by rw [GL.den]; exact ⟨trivial, fun _ => trivial⟩
  | _, _, .cons g gs, h => by
    rw [GL.All] at h; rw [GL.den]
    have h1 := G.pd hn hw hρ n g h.1
    have h2 := GL.pd hn hw hρ n gs h.2
    refine ⟨⟨h1, h2.1⟩, fun ht => ⟨h1, fun hl => ?_, ?_⟩⟩
    · cases gs with
      | nil => rw [GL.den] at hl; exact (hl rfl).elim
      | cons g' gs => rw [GL.InitTidy] at ht; exact G.rw hn hw n g h.1 ht.1
    · cases gs with
      | nil => exact h2.2 trivial
      | cons g' gs => rw [GL.InitTidy] at ht; exact h2.2 ht.2

end

theorem callSem_pd (hD : D.Plain) : ∀ (n : Nat) (k : N.K),
    PD (callSem e D n k) (Accepts e D (.call k)) (Rejects e D (.call k))
  | 0, k, i, r, j, h => by cases h
  | n + 1, k, i, r, j, h => by
    rw [callSem] at h
    cases hk : D k with
    | none => rw [hk] at h; cases h
    | some g =>
      rw [hk] at h
      exact (G.pd (callSem_nr D n) (callSem_rw hD n) (callSem_pd hD n) n g (hD k g hk).1).mono (fun _ _ _ => .call hk) (fun _ => .call hk)
        _ _ _ h

theorem G.sem_pd (hD : D.Plain) (n : Nat) {ε : ErrTy S} {α : Type} (g : G S N ε α)
    (hg : g.All (plainL S N)) : PD (g.sem e D n) (Accepts e D g) (Rejects e D g) :=
  G.pd (callSem_nr D n) (callSem_rw hD n) (callSem_pd hD n) n g hg

end

end PPC
