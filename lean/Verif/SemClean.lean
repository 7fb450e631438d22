import Verif.SemRecovery
import Verif.Conditions

/-!
# Failing parsers rewind

For grammars in which no function given to `try_map` returns `Recovered`, a failed parse
leaves the cursor at the start (`FR`).
-/

namespace PPC

variable {S : Sig} {N : Names S}

/-- Positions only grow; a failure is reported at the start position or later, and the
cursor is back at the start. -/
def FR {E α : Type} (q : PSem E α) : Prop :=
  ∀ en i r j, q en i = .ok (r, j) → (∀ x es, r = .failed x es → j = i ∧ i ≤ x) ∧ i ≤ j

/-- A strategy stays at or after the start of the parse it recovers. -/
def SFR {E α : Type} (s : SSem E α) : Prop :=
  ∀ q, FR q → ∀ st fa es i o fa' es' j, st ≤ i → st ≤ fa →
    s q st fa es i = .ok ((o, fa', es'), j) → st ≤ j ∧ st ≤ fa'

theorem FR.ok {E α : Type} {i j : Nat} {r : Res α E} (h : i ≤ j) (hr : ∀ x es, r ≠ .failed x es) :
    (∀ x es, r = .failed x es → j = i ∧ i ≤ x) ∧ i ≤ j :=
  ⟨fun x es h' => (hr x es h').elim, h⟩

theorem FR.fail {E α : Type} {i x : Nat} {es : List E} (h : i ≤ x) :
    (∀ x' es', (Res.failed x es : Res α E) = .failed x' es' → i = i ∧ i ≤ x') ∧ i ≤ i :=
  ⟨fun x' es' h' => by cases h'; exact ⟨rfl, h⟩, Nat.le_refl _⟩

/-! ## Primitives -/

theorem fr_empty {E : Type} : FR (qEmpty (E := E)) := by
  intro en i r j h; cases h; exact FR.ok (Nat.le_refl _) (by simp)

theorem fr_none {E α : Type} : FR (qNone (E := E) (α := α)) := by
  intro en i r j h; cases h; exact FR.ok (Nat.le_refl _) (by simp)

theorem fr_end {e : Env S} {ε : ErrTy S} : FR (qEnd e ε) := by
  intro en i r j h
  unfold qEnd at h
  split at h <;> cases h
  · exact FR.ok (Nat.le_refl _) (by simp)
  · exact FR.fail (Nat.le_refl _)

theorem fr_just {e : Env S} {ε : ErrTy S} {t : S.I} : FR (qJust e ε t) := by
  intro en i r j h
  unfold qJust at h
  split at h <;> cases h
  · exact FR.ok (Nat.le_succ _) (by simp)
  · exact FR.fail (Nat.le_refl _)

theorem fr_filter {e : Env S} {ε : ErrTy S} {p : S.I → Bool} : FR (qFilter e ε p) := by
  intro en i r j h
  unfold qFilter at h
  split at h
  · split at h <;> cases h
    · exact FR.ok (Nat.le_succ _) (by simp)
    · exact FR.fail (Nat.le_refl _)
  · cases h; exact FR.fail (Nat.le_refl _)

theorem fr_filterMap {α : Type} {e : Env S} {ε : ErrTy S} {f : S.I → Option α} :
    FR (qFilterMap e ε f) := by
  intro en i r j h
  unfold qFilterMap at h
  split at h <;> cases h
  · exact FR.ok (Nat.le_succ _) (by simp)
  · exact FR.fail (Nat.le_refl _)

theorem matchSeq_le {e : Env S} : ∀ {items : List S.I} {i j : Nat} {x : S.I},
    matchSeq e items i = some (j, x) → i ≤ j ∧ j < i + items.length
  | [], i, j, x, h => by cases h
  | y :: ys, i, j, x, h => by
    unfold matchSeq at h
    split at h
    · have := matchSeq_le h; simp only [List.length_cons]; omega
    · cases h; simp

theorem fr_seq {α : Type} {e : Env S} {ε : ErrTy S} {v : α} {items : List S.I} :
    FR (qSeq e ε v items) := by
  intro en i r j h
  unfold qSeq at h
  split at h
  · cases h; exact FR.ok (Nat.le_add_right _ _) (by simp)
  · rename_i hm; cases h; exact FR.fail (matchSeq_le hm).1

theorem fr_oneOf {e : Env S} {ε : ErrTy S} {items : List S.I} : FR (qOneOf e ε items) := by
  intro en i r j h
  unfold qOneOf at h
  split at h
  · split at h <;> cases h
    · exact FR.ok (Nat.le_succ _) (by simp)
    · exact FR.fail (Nat.le_refl _)
  · cases h; exact FR.fail (Nat.le_refl _)

theorem fr_noneOf {e : Env S} {ε : ErrTy S} {items : List S.I} : FR (qNoneOf e ε items) := by
  intro en i r j h
  unfold qNoneOf at h
  split at h
  · split at h <;> cases h
    · exact FR.fail (Nat.le_refl _)
    · exact FR.ok (Nat.le_succ _) (by simp)
  · cases h; exact FR.fail (Nat.le_refl _)

/-! ## Mapping -/

theorem fr_map {E α β : Type} {f : α → β} {q : PSem E α} (hq : FR q) : FR (qMap f q) := by
  intro en i r j h
  simp only [qMap, Out.bind_eq_ok] at h
  obtain ⟨⟨r, k⟩, h1, h2⟩ := h
  have := hq _ _ _ _ h1
  cases r <;> cases h2
  · exact FR.ok this.2 (by simp [Res.map])
  · exact FR.ok this.2 (by simp [Res.map])
  · obtain ⟨rfl, h3⟩ := this.1 _ _ rfl
    exact FR.fail h3

theorem fr_mapWithSpan {E α β : Type} {e : Env S} {f : α → S.Span → β} {q : PSem E α} (hq : FR q) :
    FR (qMapWithSpan e f q) := by
  intro en i r j h
  simp only [qMapWithSpan, Out.bind_eq_ok] at h
  obtain ⟨⟨r, k⟩, h1, h2⟩ := h
  have := hq _ _ _ _ h1
  cases r <;> cases h2
  · exact FR.ok this.2 (by simp [Res.map])
  · exact FR.ok this.2 (by simp [Res.map])
  · obtain ⟨rfl, h3⟩ := this.1 _ _ rfl
    exact FR.fail h3

theorem fr_mapErr {E X α : Type} {f : X → E} {q : PSem X α} (hq : FR q) : FR (qMapErr f q) := by
  intro en i r j h
  simp only [qMapErr, Out.bind_eq_ok] at h
  obtain ⟨⟨r, k⟩, h1, h2⟩ := h
  have := hq _ _ _ _ h1
  cases r <;> cases h2
  · exact FR.ok this.2 (by simp [Res.mapErr])
  · exact FR.ok this.2 (by simp [Res.mapErr])
  · obtain ⟨rfl, h3⟩ := this.1 _ _ rfl
    exact FR.fail h3

theorem fr_mapErrWithSpan {E X α : Type} {e : Env S} {f : X → S.Span → E} {q : PSem X α}
    (hq : FR q) : FR (qMapErrWithSpan e f q) := by
  intro en i r j h
  simp only [qMapErrWithSpan, Out.bind_eq_ok] at h
  obtain ⟨⟨r, k⟩, h1, h2⟩ := h
  have := hq _ _ _ _ h1
  cases r <;> cases h2
  · exact FR.ok this.2 (by simp [Res.mapErr])
  · exact FR.ok this.2 (by simp [Res.mapErr])
  · obtain ⟨rfl, h3⟩ := this.1 _ _ rfl
    exact FR.fail h3

theorem fr_tryMapStep {E α β : Type} {e : Env S} {f : α → S.Span → TryMapResult β E}
    (hf : ∀ a sp o es, f a sp ≠ .recovered o es) {en : Bool} {i j k : Nat} {a : α} {r : Res β E}
    (hij : i ≤ j) (h : tryMapStep e f en i j a = .ok (r, k)) :
    (∀ x es, r = .failed x es → k = i ∧ i ≤ x) ∧ i ≤ k := by
  unfold tryMapStep at h
  split at h
  · cases h; exact FR.ok hij (by simp)
  · split at h <;> cases h; exact FR.fail (Nat.le_refl _)
  · rename_i hr; exact (hf _ _ _ _ hr).elim

theorem fr_tryMap {E α β : Type} {e : Env S} {f : α → S.Span → TryMapResult β E} {q : PSem E α}
    (hf : ∀ a sp o es, f a sp ≠ .recovered o es) (hq : FR q) : FR (qTryMap e f q) := by
  intro en i r j h
  simp only [qTryMap, Out.bind_eq_ok] at h
  obtain ⟨⟨r, k⟩, h1, h2⟩ := h
  have := hq _ _ _ _ h1
  cases r with
  | success x => exact fr_tryMapStep hf this.2 h2
  | recovered x es' =>
    simp only [Out.bind_eq_ok] at h2
    obtain ⟨⟨r', k'⟩, h3, h4⟩ := h2
    have h5 := fr_tryMapStep hf this.2 h3
    cases r' <;> cases h4
    · exact FR.ok h5.2 (by simp [Res.prependErrs])
    · exact FR.ok h5.2 (by simp [Res.prependErrs])
    · obtain ⟨rfl, h6⟩ := h5.1 _ _ rfl
      exact FR.fail h6
  | failed x es' =>
    cases h2
    obtain ⟨rfl, h3⟩ := this.1 _ _ rfl
    exact FR.fail h3

/-! ## Sequencing -/

theorem fr_finish {α E : Type} {en : Bool} {o : α} {r : Option (List E)} {i j k : Nat}
    {x : Res α E} (hij : i ≤ j) (h : finishSem en o r j = .ok (x, k)) :
    (∀ y es, x = .failed y es → k = i ∧ i ≤ y) ∧ i ≤ k := by
  unfold finishSem at h
  split at h
  · split at h <;> cases h; exact FR.ok hij (by simp)
  · cases h; exact FR.ok hij (by simp)

theorem fr_concatRest {E α : Type} {en : Bool} {start : Nat} :
    ∀ (qs : List (PSem E α)) (out : List α) (r : Option (List E)) (i : Nat),
    (∀ q ∈ qs, FR q) → start ≤ i → ∀ x j,
      concatRestSem en start qs out r i = .ok (x, j) →
      (∀ y es, x = .failed y es → j = start ∧ start ≤ y) ∧ start ≤ j
  | [], out, r, i, _, hs, x, j, h => by
    rw [concatRestSem] at h; exact fr_finish hs h
  | q :: qs, out, r, i, hq, hs, x, j, h => by
    simp only [concatRestSem, Out.bind_eq_ok] at h
    obtain ⟨⟨r, k⟩, h1, h2⟩ := h
    have h3 := hq q (by simp) _ _ _ _ h1
    cases r with
    | success b =>
      exact fr_concatRest qs _ _ _ (fun q' h' => hq q' (by simp [h'])) (by omega) _ _ h2
    | recovered b es' =>
      exact fr_concatRest qs _ _ _ (fun q' h' => hq q' (by simp [h'])) (by omega) _ _ h2
    | failed b es' =>
      cases h2
      have := h3.1 _ _ rfl
      exact FR.fail (by omega)

theorem fr_concat {E α : Type} {qs : List (PSem E α)} (hq : ∀ q ∈ qs, FR q) : FR (qConcat qs) := by
  intro en i x j h
  cases qs with
  | nil => cases h; exact FR.ok (Nat.le_refl _) (by simp)
  | cons q qs =>
    simp only [qConcat, Out.bind_eq_ok] at h
    obtain ⟨⟨r, k⟩, h1, h2⟩ := h
    have h3 := hq q (by simp) _ _ _ _ h1
    cases r with
    | success b =>
      exact fr_concatRest qs _ _ _ (fun q' h' => hq q' (by simp [h'])) (by omega) _ _ h2
    | recovered b es' =>
      exact fr_concatRest qs _ _ _ (fun q' h' => hq q' (by simp [h'])) (by omega) _ _ h2
    | failed b es' => cases h2; exact ⟨fun y es h' => by cases h'; exact h3.1 _ _ rfl, h3.2⟩

theorem fr_concatLast {E β γ : Type} {en : Bool} {start : Nat} {f : β → γ} {qb : PSem E β}
    (hb : FR qb) {r : Option (List E)} {i : Nat} {x : Res γ E} {j : Nat} (hs : start ≤ i)
    (h : concatLastSem en start f qb r i = .ok (x, j)) :
    (∀ y es, x = .failed y es → j = start ∧ start ≤ y) ∧ start ≤ j := by
  simp only [concatLastSem, Out.bind_eq_ok] at h
  obtain ⟨⟨r, k⟩, h1, h2⟩ := h
  have h3 := hb _ _ _ _ h1
  cases r with
  | success b => exact fr_finish (by omega) h2
  | recovered b es' => exact fr_finish (by omega) h2
  | failed b es' =>
    cases h2
    have := h3.1 _ _ rfl
    exact FR.fail (by omega)

theorem fr_concat2 {E α β γ : Type} {f : α × β → γ} {qa : PSem E α} {qb : PSem E β} (ha : FR qa)
    (hb : FR qb) : FR (qConcat2 f qa qb) := by
  intro en i x j h
  simp only [qConcat2, Out.bind_eq_ok] at h
  obtain ⟨⟨r, k⟩, h1, h2⟩ := h
  have h3 := ha _ _ _ _ h1
  cases r with
  | success b => exact fr_concatLast hb h3.2 h2
  | recovered b es' => exact fr_concatLast hb h3.2 h2
  | failed b es' => cases h2; exact ⟨fun y es h' => by cases h'; exact h3.1 _ _ rfl, h3.2⟩

theorem fr_concatMid {E β γ δ : Type} {en : Bool} {start : Nat} {f : β × γ → δ} {qb : PSem E β}
    {qc : PSem E γ} (hb : FR qb) (hc : FR qc) {r : Option (List E)} {i : Nat} {x : Res δ E} {j : Nat}
    (hs : start ≤ i) (h : concatMidSem en start f qb qc r i = .ok (x, j)) :
    (∀ y es, x = .failed y es → j = start ∧ start ≤ y) ∧ start ≤ j := by
  simp only [concatMidSem, Out.bind_eq_ok] at h
  obtain ⟨⟨r, k⟩, h1, h2⟩ := h
  have h3 := hb _ _ _ _ h1
  cases r with
  | success b => exact fr_concatLast hc (by omega) h2
  | recovered b es' => exact fr_concatLast hc (by omega) h2
  | failed b es' =>
    cases h2
    have := h3.1 _ _ rfl
    exact FR.fail (by omega)

theorem fr_concat3 {E α β γ δ : Type} {f : α × β × γ → δ} {qa : PSem E α} {qb : PSem E β}
    {qc : PSem E γ} (ha : FR qa) (hb : FR qb) (hc : FR qc) : FR (qConcat3 f qa qb qc) := by
  intro en i x j h
  simp only [qConcat3, Out.bind_eq_ok] at h
  obtain ⟨⟨r, k⟩, h1, h2⟩ := h
  have h3 := ha _ _ _ _ h1
  cases r with
  | success b => exact fr_concatMid hb hc h3.2 h2
  | recovered b es' => exact fr_concatMid hb hc h3.2 h2
  | failed b es' => cases h2; exact ⟨fun y es h' => by cases h'; exact h3.1 _ _ rfl, h3.2⟩

/-! ## Repetition -/

theorem fr_repItem {E α : Type} {cfg : RepCfg} {item : PSem E α} (hi : FR item) {en : Bool}
    {start : Nat} {again : List α → Option (List E) → Nat → Out (Res (List α) E × Nat)}
    (ha : ∀ out r i x j, start ≤ i → again out r i = .ok (x, j) →
      (∀ y es, x = .failed y es → j = start ∧ start ≤ y) ∧ start ≤ j)
    {out : List α} {r : Option (List E)} {before : Option Nat} {i : Nat} {x : Res (List α) E}
    {j : Nat} (hs : start ≤ i) (hb : ∀ b, before = some b → start ≤ b)
    (h : repItemSem cfg item en start again out r before i = .ok (x, j)) :
    (∀ y es, x = .failed y es → j = start ∧ start ≤ y) ∧ start ≤ j := by
  unfold repItemSem at h
  split at h
  · exact fr_finish hs h
  · simp only [Out.bind_eq_ok] at h
    obtain ⟨⟨r, k⟩, h1, h2⟩ := h
    have h3 := hi _ _ _ _ h1
    cases r with
    | success x => exact ha _ _ _ _ _ (by omega) h2
    | recovered x es' => exact ha _ _ _ _ _ (by omega) h2
    | failed x es' =>
      have h4 := h3.1 _ _ rfl
      simp only at h2
      split at h2
      · have h5 := Prod.mk.inj (Out.ok.inj h2)
        obtain ⟨h5, h6⟩ := h5
        subst h5
        refine FR.ok ?_ (by simp)
        rw [← h6]
        cases before with
        | none => simp only; omega
        | some b =>
          have := hb b rfl
          simp only
          split <;> omega
      · cases h2; exact FR.fail (by omega)

theorem fr_repLoop {E α β : Type} {cfg : RepCfg} {item : PSem E α} {sep : Option (PSem E β)}
    (hi : FR item) (hs : ∀ q, sep = some q → FR q) {en : Bool} {start : Nat} :
    ∀ (fuel : Nat) (out : List α) (r : Option (List E)) (i : Nat) (x : Res (List α) E) (j : Nat),
      start ≤ i → repLoopSem cfg item sep en start fuel out r i = .ok (x, j) →
      (∀ y es, x = .failed y es → j = start ∧ start ≤ y) ∧ start ≤ j
  | 0, _, _, _, _, _, _, h => by cases h
  | fuel + 1, out, r, i, x, j, hst, h => by
    have ih := fr_repLoop (cfg := cfg) hi hs (en := en) (start := start) fuel
    unfold repLoopSem at h
    split at h
    · exact fr_finish hst h
    · simp only at h
      split at h
      · rename_i q _ _
        simp only [Out.bind_eq_ok] at h
        obtain ⟨⟨r, k⟩, h1, h2⟩ := h
        have h3 := hs _ rfl _ _ _ _ h1
        cases r with
        | success x => exact fr_repItem hi ih (by omega) (fun b hb => by cases hb; omega) h2
        | recovered x es' => exact fr_repItem hi ih (by omega) (fun b hb => by cases hb; omega) h2
        | failed x es' =>
          simp only at h2
          split at h2
          · exact fr_repItem hi ih (by omega) (fun b hb => by cases hb; omega) h2
          · have := h3.1 _ _ rfl
            split at h2 <;> cases h2
            · exact FR.ok (by omega) (by simp)
            · exact FR.fail (by omega)
      · exact fr_repItem hi ih hst (fun b hb => by cases hb) h

theorem fr_repeat {E α β : Type} {fuel : Nat} {cfg : RepCfg} {item : PSem E α}
    {sep : Option (PSem E β)} (hi : FR item) (hs : ∀ q, sep = some q → FR q) :
    FR (qRepeat fuel cfg item sep) :=
  fun _ i x j h => fr_repLoop hi hs fuel [] none i x j (Nat.le_refl _) h

/-! ## Choice -/

/-- First pass over the alternatives. -/
theorem fr_altFirst {E α : Type} {i : Nat} : ∀ (qs : List (PSem E α)) (fails : List (FailSem E α)),
    (∀ q ∈ qs, FR q) → (∀ f ∈ fails, i ≤ f.1 ∧ FR f.2.2) → ∀ x j,
      altFirstSem qs fails i = .ok (x, j) →
      i ≤ j ∧ ∀ fs, x = .inr fs → j = i ∧ ∀ f ∈ fs, i ≤ f.1 ∧ FR f.2.2
  | [], fails, hq, hf, x, j, h => by
    cases h
    exact ⟨Nat.le_refl _, fun fs h => by cases h; exact ⟨rfl, hf⟩⟩
  | q :: qs, fails, hq, hf, x, j, h => by
    simp only [altFirstSem, Out.bind_eq_ok] at h
    obtain ⟨⟨r, k⟩, h1, h2⟩ := h
    have h3 := hq q (by simp) _ _ _ _ h1
    cases r with
    | success o => cases h2; exact ⟨h3.2, fun fs h => by cases h⟩
    | recovered o es => cases h2
    | failed y es =>
      obtain ⟨rfl, h4⟩ := h3.1 _ _ rfl
      refine fr_altFirst qs _ (fun q' h' => hq q' (by simp [h'])) ?_ _ _ h2
      intro f hf'
      rcases List.mem_append.1 hf' with h' | h'
      · exact hf f h'
      · rw [List.mem_singleton.1 h']; exact ⟨h4, hq q (by simp)⟩

theorem fr_altRecover {E α : Type} {i : Nat} : ∀ (fails : List (FailSem E α)),
    (∀ f ∈ fails, FR f.2.2) → ∀ x j,
      altRecoverSem fails i = .ok (x, j) →
      i ≤ j ∧ (x = none → j = i) ∧ ∀ r, x = some r → ∃ a es, r = .recovered a es
  | [], _, x, j, h => by
    cases h; exact ⟨Nat.le_refl _, fun _ => rfl, fun r h => by cases h⟩
  | (y, es, q) :: rest, hq, x, j, h => by
    simp only [altRecoverSem, Out.bind_eq_ok] at h
    obtain ⟨⟨r, k⟩, h1, h2⟩ := h
    have h3 := hq _ List.mem_cons_self _ _ _ _ h1
    cases r with
    | success o => cases h2
    | recovered o es' =>
      cases h2
      exact ⟨h3.2, (by simp), fun r h => by cases h; exact ⟨_, _, rfl⟩⟩
    | failed y' es' =>
      obtain ⟨rfl, h4⟩ := h3.1 _ _ rfl
      exact fr_altRecover rest (fun f hf => hq f (by simp [hf])) _ _ h2

theorem fr_alternate {α : Type} {ε : ErrTy S} {qs : List (PSem ε.E α)} (hq : ∀ q ∈ qs, FR q) :
    FR (qAlternate ε qs) := by
  intro en i x j h
  simp only [qAlternate, Out.bind_eq_ok] at h
  obtain ⟨⟨r, k⟩, h1, h2⟩ := h
  have h3 := fr_altFirst qs [] hq (by simp) _ _ h1
  cases r with
  | inl o => cases h2; exact FR.ok h3.1 (by simp)
  | inr fails =>
    obtain ⟨rfl, h4⟩ := h3.2 _ rfl
    simp only at h2
    split at h2
    · cases h2
    · have h5 : ∀ (z : Res α ε.E) (l : Nat),
          altCombineSem ε ((sortDesc fails).map fun f => (f.1, f.2.1)) k = .ok (z, l) →
          (∀ y es, z = .failed y es → l = k ∧ k ≤ y) ∧ k ≤ l := by
        intro z l hz
        obtain ⟨rfl, y, es, rfl, hy⟩ := altCombine_failed hz
        refine FR.fail ?_
        simp only [List.map_map, List.mem_map, Function.comp_apply] at hy
        obtain ⟨f, hf, rfl⟩ := hy
        exact (h4 f (mem_sortDesc.1 hf)).1
      split at h2
      · simp only [Out.bind_eq_ok] at h2
        obtain ⟨⟨r', k'⟩, h6, h7⟩ := h2
        have h8 := fr_altRecover _ (fun f hf => (h4 f (mem_sortDesc.1 hf)).2) _ _ h6
        cases r' with
        | none =>
          obtain rfl := h8.2.1 rfl
          exact h5 _ _ h7
        | some r' =>
          cases h7
          obtain ⟨a, es, rfl⟩ := h8.2.2 _ rfl
          exact FR.ok h8.1 (by simp)
      · exact h5 _ _ h2

/-! ## Recovery -/

theorem sfr_orElse {E α : Type} {s t : SSem E α} (hs : SFR s) (ht : SFR t) : SFR (s.orElse t) := by
  intro q hq st fa es i o fa' es' j h1 h2 h
  simp only [SSem.orElse, Out.bind_eq_ok] at h
  obtain ⟨⟨⟨o1, fa1, es1⟩, j1⟩, h3, h4⟩ := h
  have h5 := hs q hq st fa es i o1 fa1 es1 j1 h1 h2 h3
  cases o1 with
  | some o1 => cases h4; exact h5
  | none => exact ht q hq st fa1 es1 j1 o fa' es' j h5.1 h5.2 h4

/-- Giving up at a position determined by the state. -/
theorem sfr_giveUp {E α : Type} {p : Nat → Nat → Nat → Nat} {f : List E → Nat → Nat → List E}
    (hp : ∀ st fa i, st ≤ fa → st ≤ i → st ≤ p st fa i) :
    SFR (fun _ st fa es i => giveUp (α := α) fa (f es st i) (p st fa i)) := by
  intro q hq st fa es i o fa' es' j h1 h2 h
  cases h
  exact ⟨hp _ _ _ h2 h1, h2⟩

/-- Succeeding at the current position. -/
theorem sfr_ret {E α : Type} {f : Nat → Nat → α} :
    SFR (E := E) (fun _ st fa es i => .ok ((some (f st i), fa, es), i)) := by
  intro q hq st fa es i o fa' es' j h1 h2 h
  cases h
  exact ⟨h1, h2⟩

theorem Env.le_next (e : Env S) (i : Nat) : i ≤ e.next i := by
  unfold Env.next; split <;> omega

theorem findSem_le {e : Env S} {p : S.I → Bool} : ∀ {fuel i j : Nat},
    findSem e p fuel i = .ok j → i ≤ j
  | 0, i, j, h => by cases h
  | fuel + 1, i, j, h => by
    unfold findSem at h
    split at h
    · cases h; exact Nat.le_refl _
    · have := findSem_le h
      have := e.le_next i
      omega

theorem scanSem_le {E : Type} {e : Env S} {sc : Scanner S E} : ∀ {fuel : Nat} {st : sc.σ}
    {es : List E} {i : Nat} {es' : List E} {j : Nat}, scanSem e sc fuel st es i = .ok (es', j) → i ≤ j
  | 0, _, _, _, _, _, h => by cases h
  | fuel + 1, st, es, i, es', j, h => by
    unfold scanSem at h
    split at h
    · split at h
      · cases h
      · cases h; exact Nat.le_refl _
      · have := scanSem_le h; omega
    · cases h; exact Nat.le_refl _

theorem saveAt_eq {x i y : Nat} (h : saveAtSem x i = .ok y) : y = x ∧ i ≤ x := by
  unfold saveAtSem at h
  split at h <;> cases h
  exact ⟨rfl, by omega⟩

theorem sfr_runIn {E α : Type} {q : PSem E α} (hq : FR q) {exact silent : Bool} {st fa : Nat}
    {es : List E} {i : Nat} {o : Option α} {fa' : Nat} {es' : List E} {j : Nat} (h1 : st ≤ i)
    (h2 : st ≤ fa) (h : runInSem q exact silent fa es i = .ok ((o, fa', es'), j)) :
    st ≤ j ∧ st ≤ fa' := by
  simp only [runInSem, Out.bind_eq_ok] at h
  obtain ⟨⟨r, k⟩, h3, h4⟩ := h
  have h5 := hq _ _ _ _ h3
  cases r with
  | success x => cases h4; omega
  | recovered x es2 =>
    have h6 := Prod.mk.inj (Out.ok.inj h4)
    have h7 := Prod.mk.inj (Prod.mk.inj h6.1).2
    omega
  | failed x es2 =>
    simp only [Out.bind_eq_ok] at h4
    obtain ⟨y, h6, h7⟩ := h4
    obtain ⟨rfl, h8⟩ := saveAt_eq h6
    obtain ⟨rfl, h9⟩ := h5.1 _ _ rfl
    have h10 := Prod.mk.inj (Out.ok.inj h7)
    have h11 := Prod.mk.inj (Prod.mk.inj h10.1).2
    omega

theorem sfr_whileNot {E α : Type} {e : Env S} {p : S.I → Bool} {t : SSem E α} (ht : SFR t)
    {q : PSem E α} (hq : FR q) {st : Nat} : ∀ (fuel fa : Nat) (es : List E) (i : Nat) (o : Option α)
    (fa' : Nat) (es' : List E) (j : Nat), st ≤ i → st ≤ fa →
    whileNotSem e p t q st fuel fa es i = .ok ((o, fa', es'), j) → st ≤ j ∧ st ≤ fa'
  | 0, _, _, _, _, _, _, _, _, _, h => by cases h
  | fuel + 1, fa, es, i, o, fa', es', j, h1, h2, h => by
    unfold whileNotSem at h
    split at h
    · cases h; exact ⟨h1, h2⟩
    · simp only [Out.bind_eq_ok] at h
      obtain ⟨⟨⟨o1, fa1, es1⟩, j1⟩, h3, h4⟩ := h
      have h5 := ht q hq st fa es i o1 fa1 es1 j1 h1 h2 h3
      cases o1 with
      | some o1 => cases h4; exact h5
      | none =>
        have := e.le_next j1
        exact sfr_whileNot ht hq fuel fa1 es1 _ o fa' es' j (by omega) h5.2 h4

theorem fr_toRecover {E α : Type} {q : PSem E α} {s : SSem E α} (hq : FR q) (hs : SFR s) :
    FR (qToRecover q s) := by
  intro en i x j h
  simp only [qToRecover, Out.bind_eq_ok] at h
  obtain ⟨⟨r, k⟩, h1, h2⟩ := h
  have h3 := hq _ _ _ _ h1
  cases r with
  | success x => cases h2; exact h3
  | recovered x es' => cases h2; exact h3
  | failed x es' =>
    obtain ⟨rfl, h4⟩ := h3.1 _ _ rfl
    simp only at h2
    split at h2
    · cases h2; exact h3
    · simp only [Out.bind_eq_ok] at h2
      obtain ⟨fa, h5, ⟨⟨o, fa', es''⟩, l⟩, h6, h7⟩ := h2
      obtain ⟨rfl, h8⟩ := saveAt_eq h5
      have h9 := hs q hq _ _ _ _ _ _ _ _ (Nat.le_refl _) h4 h6
      cases o with
      | some o => cases h7; exact FR.ok h9.1 (by simp)
      | none => cases h7; exact FR.fail h4

/-! ## Clean grammars -/

section

variable {e : Env S} {ρ : QEnv S N}

mutual

/-- In a clean grammar a failed parse leaves the cursor at the start. -/
theorem G.fr (hρ : ∀ k, FR (ρ k)) (n : Nat) : ∀ {ε : ErrTy S} {α : Type} (g : G S N ε α),
    g.All (cleanL S N) → FR (g.den e ρ n)
  | _, _, .empty, h => by rw [G.den]; exact fr_empty
  | _, _, .none _, h => by rw [G.den]; exact fr_none
  | _, _, .eof, h => by rw [G.den]; exact fr_end
  | _, _, .just t, h => by rw [G.den]; exact fr_just
  | _, _, .filter p, h => by rw [G.den]; exact fr_filter
  | _, _, .filterMap f, h => by rw [G.den]; exact fr_filterMap
  | _, _, .seq v items, h => by rw [G.den]; exact fr_seq
  | _, _, .oneOf items, h => by rw [G.den]; exact fr_oneOf
  | _, _, .noneOf items, h => by rw [G.den]; exact fr_noneOf
  | _, _, .boxed g, h => by rw [G.All] at h; rw [G.den]; exact G.fr hρ n g h.2
  | _, _, .withError g, h => by rw [G.All] at h; rw [G.den]; exact G.fr hρ n g h.2
  | _, _, .to g v, h => by rw [G.All] at h; rw [G.den]; exact fr_map (G.fr hρ n g h.2)
  | _, _, .some g, h => by rw [G.All] at h; rw [G.den]; exact fr_map (G.fr hρ n g h.2)
  | _, _, .map f g, h => by rw [G.All] at h; rw [G.den]; exact fr_map (G.fr hρ n g h.2)
  | _, _, .mapWithSpan f g, h => by
    rw [G.All] at h; rw [G.den]; exact fr_mapWithSpan (G.fr hρ n g h.2)
  | _, _, .mapErr f g, h => by rw [G.All] at h; rw [G.den]; exact fr_mapErr (G.fr hρ n g h.2)
  | _, _, .mapErrWithSpan f g, h => by
    rw [G.All] at h; rw [G.den]; exact fr_mapErrWithSpan (G.fr hρ n g h.2)
  | _, _, .tryMap f g, h => by
    rw [G.All] at h; rw [G.den]; exact fr_tryMap h.1 (G.fr hρ n g h.2)
  | _, _, .then_ a b, h => by
    rw [G.All] at h; rw [G.den]; exact fr_concat2 (G.fr hρ n a h.2.1) (G.fr hρ n b h.2.2)
  | _, _, .thenIgnore a b, h => by
    rw [G.All] at h; rw [G.den]; exact fr_concat2 (G.fr hρ n a h.2.1) (G.fr hρ n b h.2.2)
  | _, _, .ignoreThen a b, h => by
    rw [G.All] at h; rw [G.den]; exact fr_concat2 (G.fr hρ n a h.2.1) (G.fr hρ n b h.2.2)
  | _, _, .delimitedBy l m r, h => by
    rw [G.All] at h; rw [G.den]
    exact fr_concat3 (G.fr hρ n l h.2.1) (G.fr hρ n m h.2.2.1) (G.fr hρ n r h.2.2.2)
  | _, _, .paddedBy p m, h => by
    rw [G.All] at h; rw [G.den]
    exact fr_concat3 (G.fr hρ n p h.2.1) (G.fr hρ n m h.2.2) (G.fr hρ n p h.2.1)
  | _, _, .chain gs, h => by rw [G.All] at h; rw [G.den]; exact fr_concat (GL.fr hρ n gs h.2)
  | _, _, .or a b, h => by
    rw [G.All] at h; rw [G.den]
    refine fr_alternate fun q hq => ?_
    simp only [List.mem_cons, List.not_mem_nil, or_false] at hq
    rcases hq with rfl | rfl
    · exact G.fr hρ n a h.2.1
    · exact G.fr hρ n b h.2.2
  | _, _, .orNot g, h => by
    rw [G.All] at h; rw [G.den]
    refine fr_alternate fun q hq => ?_
    simp only [List.mem_cons, List.not_mem_nil, or_false] at hq
    rcases hq with rfl | rfl
    · exact fr_map (G.fr hρ n g h.2)
    · exact fr_none
  | _, _, .alters gs, h => by
    rw [G.All] at h; rw [G.den]; exact fr_alternate (GL.fr hρ n gs h.2)
  | _, _, .repeated cfg item, h => by
    rw [G.All] at h; rw [G.den]; exact fr_repeat (G.fr hρ n item h.2) (fun q h => by cases h)
  | _, _, .separatedBy cfg item sep, h => by
    rw [G.All] at h; rw [G.den]
    refine fr_repeat (G.fr hρ n item h.2.1) (fun q hq => ?_)
    cases hq
    exact G.fr hρ n sep h.2.2
  | _, _, .toRecover g st, h => by
    rw [G.All] at h; rw [G.den]; exact fr_toRecover (G.fr hρ n g h.2.1) (CS.fr hρ n st h.2.2)
  | _, _, .call k, h => by rw [G.den]; exact hρ k

theorem GL.fr (hρ : ∀ k, FR (ρ k)) (n : Nat) : ∀ {ε : ErrTy S} {α : Type} (gs : GL S N ε α),
    gs.All (cleanL S N) → ∀ q ∈ gs.den e ρ n, FR q
  | _, _, .nil, _, q, h => by rw [GL.den] at h; cases h
  | _, _, .cons g gs, hc, q, h => by
    rw [GL.All] at hc
    rw [GL.den] at h
    rcases List.mem_cons.1 h with h | h
    · rw [h]; exact G.fr hρ n g hc.1
    · exact GL.fr hρ n gs hc.2 q h

theorem IS.fr (hρ : ∀ k, FR (ρ k)) (n : Nat) : ∀ {ε : ErrTy S} {α : Type} (s : IS S N ε α),
    s.All (cleanL S N) → SFR (s.den e ρ n)
  | _, _, .attemptTo, h => by
    rw [IS.den]; exact sfr_giveUp (f := fun es _ _ => es) (p := fun _ _ i => i) (by intros; omega)
  | _, _, .restart s, h => by
    rw [IS.All] at h; rw [IS.den]
    exact sfr_orElse (IS.fr hρ n s h.2)
      (sfr_giveUp (f := fun es _ _ => es) (p := fun st _ _ => st) (by intros; omega))
  | _, _, .seekToFailed s, h => by
    rw [IS.All] at h; rw [IS.den]
    exact sfr_orElse (IS.fr hρ n s h.2)
      (sfr_giveUp (f := fun es _ _ => es) (p := fun _ fa _ => fa) (by intros; omega))
  | _, _, .skip s, h => by
    rw [IS.All] at h; rw [IS.den]
    exact sfr_orElse (IS.fr hρ n s h.2)
      (sfr_giveUp (f := fun es _ _ => es) (p := fun _ _ i => e.next i)
        (by intros st fa i _ _; have := e.le_next i; omega))
  | _, _, .skipIf s p, h => by
    rw [IS.All] at h; rw [IS.den]
    exact sfr_orElse (IS.fr hρ n s h.2)
      (sfr_giveUp (f := fun es _ _ => es)
        (p := fun _ _ i => if e.tokIs p false i then i + 1 else i) (by intros; split <;> omega))
  | _, _, .find s p, h => by
    rw [IS.All] at h; rw [IS.den]
    refine sfr_orElse (IS.fr hρ n s h.2) ?_
    intro q hq st fa es i o fa' es' j h1 h2 h
    simp only [Out.bind_eq_ok] at h
    obtain ⟨k, h3, h4⟩ := h
    cases h4
    have := findSem_le h3
    omega
  | _, _, .scan s sc, h => by
    rw [IS.All] at h; rw [IS.den]
    refine sfr_orElse (IS.fr hρ n s h.2) ?_
    intro q hq st fa es i o fa' es' j h1 h2 h
    simp only [Out.bind_eq_ok] at h
    obtain ⟨⟨es1, k⟩, h3, h4⟩ := h
    cases h4
    have := scanSem_le h3
    omega
  | _, _, .maybe s t, h => by
    rw [IS.All] at h; rw [IS.den]
    refine sfr_orElse (IS.fr hρ n s h.2.1) ?_
    intro q hq st fa es i o fa' es' j h1 h2 h'
    simp only [Out.bind_eq_ok] at h'
    obtain ⟨⟨⟨o1, fa1, es1⟩, k⟩, h3, h4⟩ := h'
    have h5 := IS.fr hρ n t h.2.2 q hq st fa es i o1 fa1 es1 k h1 h2 h3
    have h6 := Prod.mk.inj (Out.ok.inj h4)
    have h7 := Prod.mk.inj h6.1
    have h8 := Prod.mk.inj h7.2
    obtain ⟨-, h6⟩ := h6
    simp only at h6
    refine ⟨?_, by omega⟩
    split at h6 <;> omega
  | _, _, .whileNot s p t, h => by
    rw [IS.All] at h; rw [IS.den]
    refine sfr_orElse (IS.fr hρ n s h.2.1) ?_
    intro q hq st fa es i o fa' es' j h1 h2 h'
    exact sfr_whileNot (IS.fr hρ n t h.2.2) hq n fa es i o fa' es' j h1 h2 h'
  | _, _, .retry s exact silent, h => by
    rw [IS.All] at h; rw [IS.den]
    refine sfr_orElse (IS.fr hρ n s h.2) ?_
    intro q hq st fa es i o fa' es' j h1 h2 h'
    exact sfr_runIn hq h1 h2 h'
  | _, _, .tryToParse s g exact silent, h => by
    rw [IS.All] at h; rw [IS.den]
    refine sfr_orElse (IS.fr hρ n s h.2.1) ?_
    intro q hq st fa es i o fa' es' j h1 h2 h'
    exact sfr_runIn (G.fr hρ n g h.2.2) h1 h2 h'
  | _, _, .pushError s f, h => by
    rw [IS.All] at h; rw [IS.den]
    exact sfr_orElse (IS.fr hρ n s h.2)
      (sfr_giveUp (f := fun es _ _ => es ++ [f ()]) (p := fun _ _ i => i) (by intros; omega))
  | _, _, .pushErrorHere s f, h => by
    rw [IS.All] at h; rw [IS.den]
    exact sfr_orElse (IS.fr hρ n s h.2)
      (sfr_giveUp (f := fun es _ i => es ++ [f (e.locationAt i)]) (p := fun _ _ i => i)
        (by intros; omega))
  | _, _, .pushErrorUpToHere s f, h => by
    rw [IS.All] at h; rw [IS.den]
    exact sfr_orElse (IS.fr hρ n s h.2)
      (sfr_giveUp (f := fun es st i => es ++ [f (e.spanOf st i)]) (p := fun _ _ i => i)
        (by intros; omega))
  | _, _, .pushErrorForToken s f, h => by
    rw [IS.All] at h; rw [IS.den]
    exact sfr_orElse (IS.fr hρ n s h.2)
      (sfr_giveUp (f := fun es _ i => es ++ [f (e.source i) (e.here i)]) (p := fun _ _ i => i)
        (by intros; omega))
  | _, _, .updateErrors s f, h => by
    rw [IS.All] at h; rw [IS.den]
    exact sfr_orElse (IS.fr hρ n s h.2)
      (sfr_giveUp (f := fun es _ _ => f es) (p := fun _ _ i => i) (by intros; omega))
  | _, _, .updateErrorsHere s f, h => by
    rw [IS.All] at h; rw [IS.den]
    exact sfr_orElse (IS.fr hρ n s h.2)
      (sfr_giveUp (f := fun es _ i => f es (e.locationAt i)) (p := fun _ _ i => i)
        (by intros; omega))
  | _, _, .updateErrorsUpToHere s f, h => by
    rw [IS.All] at h; rw [IS.den]
    exact sfr_orElse (IS.fr hρ n s h.2)
      (sfr_giveUp (f := fun es st i => f es (e.spanOf st i)) (p := fun _ _ i => i)
        (by intros; omega))
  | _, _, .updateErrorsForToken s f, h => by
    rw [IS.All] at h; rw [IS.den]
    exact sfr_orElse (IS.fr hρ n s h.2)
      (sfr_giveUp (f := fun es _ i => f es (e.source i) (e.here i)) (p := fun _ _ i => i)
        (by intros; omega))
  | _, _, .boxed s, h => by rw [IS.All] at h; rw [IS.den]; exact IS.fr hρ n s h.2

theorem CS.fr (hρ : ∀ k, FR (ρ k)) (n : Nat) : ∀ {ε : ErrTy S} {α : Type} (s : CS S N ε α),
    s.All (cleanL S N) → SFR (s.den e ρ n)
  | _, _, .ret s o, h => by
    rw [CS.All] at h; rw [CS.den]
    exact sfr_orElse (IS.fr hρ n s h) (sfr_ret (f := fun _ _ => o))
  | _, _, .retWith s o, h => by
    rw [CS.All] at h; rw [CS.den]
    exact sfr_orElse (IS.fr hρ n s h) (sfr_ret (f := fun _ _ => o ()))
  | _, _, .retWithSpan s f, h => by
    rw [CS.All] at h; rw [CS.den]
    exact sfr_orElse (IS.fr hρ n s h) (sfr_ret (f := fun st i => f (e.spanOf st i)))
  | _, _, .orFail s, h => by rw [CS.All] at h; rw [CS.den]; exact IS.fr hρ n s h

end

theorem callSem_fr {D : Defs S N} (hD : D.All (cleanL S N)) : ∀ (n : Nat) (k : N.K),
    FR (callSem e D n k)
  | 0, k, en, i, r, j, h => by cases h
  | n + 1, k, en, i, r, j, h => by
    rw [callSem] at h
    cases hk : D k with
    | none => rw [hk] at h; cases h
    | some g => rw [hk] at h; exact G.fr (callSem_fr hD n) n g (hD k g hk) _ _ _ _ h

theorem G.sem_fr {D : Defs S N} (hD : D.All (cleanL S N)) (n : Nat) {ε : ErrTy S} {α : Type}
    (g : G S N ε α) (hg : g.All (cleanL S N)) : FR (g.sem e D n) :=
  G.fr (callSem_fr hD n) n g hg

end

end PPC
