import Verif.SemClean

/-!
# Errors are never empty

For grammars whose error-updating functions and scanners keep nonempty error lists nonempty,
every failure and every recovered result carries at least one error (`NE`).
-/

namespace PPC

variable {S : Sig} {N : Names S}

/-- A result that carries errors if it is not a success. -/
def Res.Errs {α E : Type} : Res α E → Prop
  | .success _ => True
  | .recovered _ es => es ≠ []
  | .failed _ es => es ≠ []

/-- Results that are not successes carry errors. -/
def NE {E α : Type} (q : PSem E α) : Prop := ∀ en i r j, q en i = .ok (r, j) → r.Errs

/-- The error list stays nonempty. -/
def SNE {E α : Type} (s : SSem E α) : Prop :=
  ∀ q, NE q → ∀ st fa es i o fa' es' j, es ≠ [] → s q st fa es i = .ok ((o, fa', es'), j) → es' ≠ []

/-! ## Primitives -/

theorem ne_empty {E : Type} : NE (qEmpty (E := E)) := by
  intro en i r j h; cases h; trivial

theorem ne_none {E α : Type} : NE (qNone (E := E) (α := α)) := by
  intro en i r j h; cases h; trivial

theorem ne_end {e : Env S} {ε : ErrTy S} : NE (qEnd e ε) := by
  intro en i r j h
  unfold qEnd at h
  split at h <;> cases h
  · trivial
  · simp [Res.Errs]

theorem ne_just {e : Env S} {ε : ErrTy S} {t : S.I} : NE (qJust e ε t) := by
  intro en i r j h
  simp only [qJust] at h
  repeat' split at h
  all_goals cases h
  all_goals simp [Res.Errs, mismatch]

theorem ne_filter {e : Env S} {ε : ErrTy S} {p : S.I → Bool} : NE (qFilter e ε p) := by
  intro en i r j h
  simp only [qFilter] at h
  repeat' split at h
  all_goals cases h
  all_goals simp [Res.Errs, mismatch]

theorem ne_filterMap {e : Env S} {ε : ErrTy S} {α : Type} {f : S.I → Option α} : NE (qFilterMap e ε f) := by
  intro en i r j h
  simp only [qFilterMap] at h
  repeat' split at h
  all_goals cases h
  all_goals simp [Res.Errs, mismatch]

theorem ne_seq {e : Env S} {ε : ErrTy S} {α : Type} {v : α} {items : List S.I} : NE (qSeq e ε v items) := by
  intro en i r j h
  simp only [qSeq] at h
  repeat' split at h
  all_goals cases h
  all_goals simp [Res.Errs, mismatch]

theorem ne_oneOf {e : Env S} {ε : ErrTy S} {items : List S.I} : NE (qOneOf e ε items) := by
  intro en i r j h
  simp only [qOneOf] at h
  repeat' split at h
  all_goals cases h
  all_goals simp [Res.Errs, mismatch]

theorem ne_noneOf {e : Env S} {ε : ErrTy S} {items : List S.I} : NE (qNoneOf e ε items) := by
  intro en i r j h
  simp only [qNoneOf] at h
  repeat' split at h
  all_goals cases h
  all_goals simp [Res.Errs, mismatch]

/-! ## Mapping -/

theorem ne_map {E α β : Type} {f : α → β} {q : PSem E α} (hq : NE q) : NE (qMap f q) := by
  intro en i r j h
  simp only [qMap, Out.bind_eq_ok] at h
  obtain ⟨⟨r, k⟩, h1, h2⟩ := h
  have := hq _ _ _ _ h1
  cases r <;> cases h2 <;> simpa [Res.Errs, Res.map, Res.mapErr] using this

theorem ne_mapWithSpan {E α β : Type} {e : Env S} {f : α → S.Span → β} {q : PSem E α} (hq : NE q) : NE (qMapWithSpan e f q) := by
  intro en i r j h
  simp only [qMapWithSpan, Out.bind_eq_ok] at h
  obtain ⟨⟨r, k⟩, h1, h2⟩ := h
  have := hq _ _ _ _ h1
  cases r <;> cases h2 <;> simpa [Res.Errs, Res.map, Res.mapErr] using this

theorem ne_mapErr {E X α : Type} {f : X → E} {q : PSem X α} (hq : NE q) : NE (qMapErr f q) := by
  intro en i r j h
  simp only [qMapErr, Out.bind_eq_ok] at h
  obtain ⟨⟨r, k⟩, h1, h2⟩ := h
  have := hq _ _ _ _ h1
  cases r <;> cases h2 <;> simpa [Res.Errs, Res.map, Res.mapErr] using this

theorem ne_mapErrWithSpan {E X α : Type} {e : Env S} {f : X → S.Span → E} {q : PSem X α} (hq : NE q) :
    NE (qMapErrWithSpan e f q) := by
  intro en i r j h
  simp only [qMapErrWithSpan, Out.bind_eq_ok] at h
  obtain ⟨⟨r, k⟩, h1, h2⟩ := h
  have := hq _ _ _ _ h1
  cases r <;> cases h2 <;> simpa [Res.Errs, Res.map, Res.mapErr] using this

theorem ne_tryMapStep {E α β : Type} {e : Env S} {f : α → S.Span → TryMapResult β E} {en : Bool}
    {i j k : Nat} {a : α} {r : Res β E} (h : tryMapStep e f en i j a = .ok (r, k)) : r.Errs := by
  unfold tryMapStep at h
  split at h
  · cases h; trivial
  · split at h <;> cases h
    rename_i hn; simpa [Res.Errs] using hn
  · split at h
    · cases h
    · rename_i hn
      split at h <;> cases h <;> simpa [Res.Errs] using hn

theorem ne_tryMap {E α β : Type} {e : Env S} {f : α → S.Span → TryMapResult β E} {q : PSem E α}
    (hq : NE q) : NE (qTryMap e f q) := by
  intro en i r j h
  simp only [qTryMap, Out.bind_eq_ok] at h
  obtain ⟨⟨r, k⟩, h1, h2⟩ := h
  have := hq _ _ _ _ h1
  cases r with
  | success x => exact ne_tryMapStep h2
  | recovered x es' =>
    simp only [Out.bind_eq_ok] at h2
    obtain ⟨⟨r', k'⟩, h3, h4⟩ := h2
    have h5 := ne_tryMapStep h3
    cases r' <;> cases h4
    · trivial
    · simp only [Res.Errs, Res.prependErrs] at *; simp [this]
    · simp only [Res.Errs, Res.prependErrs] at *; simp [this]
  | failed x es' => cases h2; exact this

/-! ## Sequencing -/

/-- Recovered errors collected so far. -/
def RecNE {E : Type} (r : Option (List E)) : Prop := ∀ es, r = some es → es ≠ []

theorem RecNE.none {E : Type} : RecNE (none : Option (List E)) := by intro es h; cases h

theorem RecNE.some {E : Type} {es : List E} (h : es ≠ []) : RecNE (some es) := by
  intro es' h'; cases h'; exact h

theorem RecNE.extend {E : Type} {r : Option (List E)} {es : List E} (h : es ≠ []) :
    RecNE (extendRec r es) := by
  cases r with
  | none => exact .some h
  | some es0 => exact .some (by simp [h])

theorem ne_finish {α E : Type} {en : Bool} {o : α} {r : Option (List E)} {j k : Nat}
    {x : Res α E} (hr : RecNE r) (h : finishSem en o r j = .ok (x, k)) : x.Errs := by
  unfold finishSem at h
  split at h
  · split at h <;> cases h; exact hr _ rfl
  · cases h; trivial

theorem ne_concatRest {E α : Type} {en : Bool} {start : Nat} :
    ∀ (qs : List (PSem E α)) (out : List α) (r : Option (List E)) (i : Nat),
    (∀ q ∈ qs, NE q) → RecNE r → ∀ x j,
      concatRestSem en start qs out r i = .ok (x, j) → x.Errs
  | [], out, r, i, _, hr, x, j, h => by
    rw [concatRestSem] at h; exact ne_finish hr h
  | q :: qs, out, r, i, hq, hr, x, j, h => by
    simp only [concatRestSem, Out.bind_eq_ok] at h
    obtain ⟨⟨r, k⟩, h1, h2⟩ := h
    have h3 := hq q (by simp) _ _ _ _ h1
    cases r with
    | success b => exact ne_concatRest qs _ _ _ (fun q' h' => hq q' (by simp [h'])) hr _ _ h2
    | recovered b es' =>
      exact ne_concatRest qs _ _ _ (fun q' h' => hq q' (by simp [h'])) (.extend h3) _ _ h2
    | failed b es' => cases h2; exact h3

theorem ne_concat {E α : Type} {qs : List (PSem E α)} (hq : ∀ q ∈ qs, NE q) : NE (qConcat qs) := by
  intro en i x j h
  cases qs with
  | nil => cases h; trivial
  | cons q qs =>
    simp only [qConcat, Out.bind_eq_ok] at h
    obtain ⟨⟨r, k⟩, h1, h2⟩ := h
    have h3 := hq q (by simp) _ _ _ _ h1
    cases r with
    | success b => exact ne_concatRest qs _ _ _ (fun q' h' => hq q' (by simp [h'])) .none _ _ h2
    | recovered b es' =>
      exact ne_concatRest qs _ _ _ (fun q' h' => hq q' (by simp [h'])) (.some h3) _ _ h2
    | failed b es' => cases h2; exact h3

theorem ne_concatLast {E β γ : Type} {en : Bool} {start : Nat} {f : β → γ} {qb : PSem E β}
    (hb : NE qb) {r : Option (List E)} {i : Nat} {x : Res γ E} {j : Nat} (hr : RecNE r)
    (h : concatLastSem en start f qb r i = .ok (x, j)) : x.Errs := by
  simp only [concatLastSem, Out.bind_eq_ok] at h
  obtain ⟨⟨r, k⟩, h1, h2⟩ := h
  have h3 := hb _ _ _ _ h1
  cases r with
  | success b => exact ne_finish hr h2
  | recovered b es' => exact ne_finish (.extend h3) h2
  | failed b es' => cases h2; exact h3

theorem ne_concat2 {E α β γ : Type} {f : α × β → γ} {qa : PSem E α} {qb : PSem E β} (ha : NE qa)
    (hb : NE qb) : NE (qConcat2 f qa qb) := by
  intro en i x j h
  simp only [qConcat2, Out.bind_eq_ok] at h
  obtain ⟨⟨r, k⟩, h1, h2⟩ := h
  have h3 := ha _ _ _ _ h1
  cases r with
  | success b => exact ne_concatLast hb .none h2
  | recovered b es' => exact ne_concatLast hb (.some h3) h2
  | failed b es' => cases h2; exact h3

theorem ne_concatMid {E β γ δ : Type} {en : Bool} {start : Nat} {f : β × γ → δ} {qb : PSem E β}
    {qc : PSem E γ} (hb : NE qb) (hc : NE qc) {r : Option (List E)} {i : Nat} {x : Res δ E} {j : Nat}
    (hr : RecNE r) (h : concatMidSem en start f qb qc r i = .ok (x, j)) : x.Errs := by
  simp only [concatMidSem, Out.bind_eq_ok] at h
  obtain ⟨⟨r, k⟩, h1, h2⟩ := h
  have h3 := hb _ _ _ _ h1
  cases r with
  | success b => exact ne_concatLast hc hr h2
  | recovered b es' => exact ne_concatLast hc (.extend h3) h2
  | failed b es' => cases h2; exact h3

theorem ne_concat3 {E α β γ δ : Type} {f : α × β × γ → δ} {qa : PSem E α} {qb : PSem E β}
    {qc : PSem E γ} (ha : NE qa) (hb : NE qb) (hc : NE qc) : NE (qConcat3 f qa qb qc) := by
  intro en i x j h
  simp only [qConcat3, Out.bind_eq_ok] at h
  obtain ⟨⟨r, k⟩, h1, h2⟩ := h
  have h3 := ha _ _ _ _ h1
  cases r with
  | success b => exact ne_concatMid hb hc .none h2
  | recovered b es' => exact ne_concatMid hb hc (.some h3) h2
  | failed b es' => cases h2; exact h3

/-! ## Repetition -/

theorem ne_repItem {E α : Type} {cfg : RepCfg} {item : PSem E α} (hi : NE item) {en : Bool}
    {start : Nat} {again : List α → Option (List E) → Nat → Out (Res (List α) E × Nat)}
    (ha : ∀ out r i x j, RecNE r → again out r i = .ok (x, j) → x.Errs)
    {out : List α} {r : Option (List E)} {before : Option Nat} {i : Nat} {x : Res (List α) E}
    {j : Nat} (hr : RecNE r)
    (h : repItemSem cfg item en start again out r before i = .ok (x, j)) : x.Errs := by
  unfold repItemSem at h
  split at h
  · exact ne_finish hr h
  · simp only [Out.bind_eq_ok] at h
    obtain ⟨⟨r, k⟩, h1, h2⟩ := h
    have h3 := hi _ _ _ _ h1
    cases r with
    | success x => exact ha _ _ _ _ _ hr h2
    | recovered x es' => exact ha _ _ _ _ _ (.extend h3) h2
    | failed x es' =>
      simp only at h2
      split at h2
      · rw [← (Prod.mk.inj (Out.ok.inj h2)).1]; trivial
      · cases h2; exact h3

theorem ne_repLoop {E α β : Type} {cfg : RepCfg} {item : PSem E α} {sep : Option (PSem E β)}
    (hi : NE item) (hs : ∀ q, sep = some q → NE q) {en : Bool} {start : Nat} :
    ∀ (fuel : Nat) (out : List α) (r : Option (List E)) (i : Nat) (x : Res (List α) E) (j : Nat),
      RecNE r → repLoopSem cfg item sep en start fuel out r i = .ok (x, j) → x.Errs
  | 0, _, _, _, _, _, _, h => by cases h
  | fuel + 1, out, r, i, x, j, hr, h => by
    have ih := ne_repLoop (cfg := cfg) hi hs (en := en) (start := start) fuel
    unfold repLoopSem at h
    split at h
    · exact ne_finish hr h
    · simp only at h
      split at h
      · rename_i q _ _
        simp only [Out.bind_eq_ok] at h
        obtain ⟨⟨r, k⟩, h1, h2⟩ := h
        have h3 := hs _ rfl _ _ _ _ h1
        cases r with
        | success x => exact ne_repItem hi ih hr h2
        | recovered x es' => exact ne_repItem hi ih (.extend h3) h2
        | failed x es' =>
          simp only at h2
          split at h2
          · exact ne_repItem hi ih hr h2
          · split at h2 <;> cases h2
            · trivial
            · exact h3
      · exact ne_repItem hi ih hr h

theorem ne_repeat {E α β : Type} {fuel : Nat} {cfg : RepCfg} {item : PSem E α}
    {sep : Option (PSem E β)} (hi : NE item) (hs : ∀ q, sep = some q → NE q) :
    NE (qRepeat fuel cfg item sep) :=
  fun _ i x j h => ne_repLoop hi hs fuel [] none i x j .none h

/-! ## Choice -/

theorem ne_altFirst {E α : Type} : ∀ (qs : List (PSem E α)) (fails : List (FailSem E α)) (i : Nat),
    (∀ q ∈ qs, NE q) → (∀ f ∈ fails, f.2.1 ≠ [] ∧ NE f.2.2) → ∀ fs j,
      altFirstSem qs fails i = .ok (.inr fs, j) → ∀ f ∈ fs, f.2.1 ≠ [] ∧ NE f.2.2
  | [], fails, i, hq, hf, fs, j, h => by cases h; exact hf
  | q :: qs, fails, i, hq, hf, fs, j, h => by
    simp only [altFirstSem, Out.bind_eq_ok] at h
    obtain ⟨⟨r, k⟩, h1, h2⟩ := h
    have h3 := hq q (by simp) _ _ _ _ h1
    cases r with
    | success o => cases h2
    | recovered o es => cases h2
    | failed y es =>
      refine ne_altFirst qs _ _ (fun q' h' => hq q' (by simp [h'])) ?_ _ _ h2
      intro f hf'
      rcases List.mem_append.1 hf' with h' | h'
      · exact hf f h'
      · rw [List.mem_singleton.1 h']; exact ⟨h3, hq q (by simp)⟩

theorem ne_altRecover {E α : Type} : ∀ (fails : List (FailSem E α)) (i : Nat),
    (∀ f ∈ fails, NE f.2.2) → ∀ x j, altRecoverSem fails i = .ok (some x, j) → x.Errs
  | [], _, _, x, j, h => by cases h
  | (y, es, q) :: rest, i, hq, x, j, h => by
    simp only [altRecoverSem, Out.bind_eq_ok] at h
    obtain ⟨⟨r, k⟩, h1, h2⟩ := h
    have h3 := hq _ List.mem_cons_self _ _ _ _ h1
    cases r with
    | success o => cases h2
    | recovered o es' => cases h2; exact h3
    | failed y' es' => exact ne_altRecover rest _ (fun f hf => hq f (by simp [hf])) _ _ h2

theorem ne_altCombine {α : Type} {ε : ErrTy S} {fails : List (Nat × List ε.E)} {i : Nat}
    (hf : ∀ f ∈ fails, f.2 ≠ []) {r : Res α ε.E} {j : Nat}
    (h : altCombineSem ε fails i = .ok (r, j)) : r.Errs := by
  unfold altCombineSem at h
  simp only at h
  split at h
  · cases h
  · split at h
    · split at h
      · cases h; simp [Res.Errs]
      · split at h
        · cases h; exact hf _ (List.mem_cons_of_mem _ List.mem_cons_self)
        · cases h
    · split at h
      · cases h; exact hf _ (List.mem_cons_of_mem _ List.mem_cons_self)
      · cases h

theorem ne_alternate {α : Type} {ε : ErrTy S} {qs : List (PSem ε.E α)} (hq : ∀ q ∈ qs, NE q) :
    NE (qAlternate ε qs) := by
  intro en i x j h
  simp only [qAlternate, Out.bind_eq_ok] at h
  obtain ⟨⟨r, k⟩, h1, h2⟩ := h
  cases r with
  | inl o => cases h2; trivial
  | inr fails =>
    have h4 := ne_altFirst qs [] i hq (by simp) _ _ h1
    simp only at h2
    split at h2
    · cases h2
    · have h5 : ∀ (z : Res α ε.E) (k l : Nat),
          altCombineSem ε ((sortDesc fails).map fun f => (f.1, f.2.1)) k = .ok (z, l) → z.Errs := by
        intro z k l hz
        refine ne_altCombine ?_ hz
        intro f hf
        obtain ⟨f', hf', rfl⟩ := List.mem_map.1 hf
        exact (h4 f' (mem_sortDesc.1 hf')).1
      split at h2
      · simp only [Out.bind_eq_ok] at h2
        obtain ⟨⟨r', k'⟩, h6, h7⟩ := h2
        cases r' with
        | none => exact h5 _ _ _ h7
        | some r' =>
          cases h7
          exact ne_altRecover _ _ (fun f hf => (h4 f (mem_sortDesc.1 hf)).2) _ _ h6
      · exact h5 _ _ _ h2

/-! ## Recovery -/

theorem sne_orElse {E α : Type} {s t : SSem E α} (hs : SNE s) (ht : SNE t) : SNE (s.orElse t) := by
  intro q hq st fa es i o fa' es' j h1 h
  simp only [SSem.orElse, Out.bind_eq_ok] at h
  obtain ⟨⟨⟨o1, fa1, es1⟩, j1⟩, h3, h4⟩ := h
  have h5 := hs q hq st fa es i o1 fa1 es1 j1 h1 h3
  cases o1 with
  | some o1 => cases h4; exact h5
  | none => exact ht q hq st fa1 es1 j1 o fa' es' j h5 h4

theorem sne_giveUp {E α : Type} {p : Nat → Nat → Nat → Nat} {f : List E → Nat → Nat → List E}
    (hf : ∀ es st i, es ≠ [] → f es st i ≠ []) :
    SNE (fun _ st fa es i => giveUp (α := α) fa (f es st i) (p st fa i)) := by
  intro q hq st fa es i o fa' es' j h1 h
  cases h
  exact hf _ _ _ h1

theorem sne_ret {E α : Type} {f : Nat → Nat → α} :
    SNE (E := E) (fun _ st fa es i => .ok ((some (f st i), fa, es), i)) := by
  intro q hq st fa es i o fa' es' j h1 h
  cases h
  exact h1

theorem sne_scan {E : Type} {e : Env S} {sc : Scanner S E} (hk : sc.KeepsErrors) :
    ∀ {fuel : Nat} {st : sc.σ} {es : List E} {i : Nat} {es' : List E} {j : Nat},
      scanSem e sc fuel st es i = .ok (es', j) → es ≠ [] → es' ≠ []
  | 0, _, _, _, _, _, h, _ => by cases h
  | fuel + 1, st, es, i, es', j, h, hn => by
    unfold scanSem at h
    split at h
    · split at h
      · cases h
      · rename_i h1; cases h; exact hk.1 _ _ _ _ _ _ _ h1 hn
      · rename_i h1; exact sne_scan hk h (hk.1 _ _ _ _ _ _ _ h1 hn)
    · cases h; exact hk.2 _ _ _ hn

theorem sne_runIn {E α : Type} {q : PSem E α} {exact silent : Bool} {fa : Nat}
    {es : List E} {i : Nat} {o : Option α} {fa' : Nat} {es' : List E} {j : Nat}
    (hn : es ≠ []) (h : runInSem q exact silent fa es i = .ok ((o, fa', es'), j)) : es' ≠ [] := by
  simp only [runInSem, Out.bind_eq_ok] at h
  obtain ⟨⟨r, k⟩, h3, h4⟩ := h
  cases r with
  | success x => cases h4; exact hn
  | recovered x es2 =>
    have h6 := Prod.mk.inj (Out.ok.inj h4)
    have h7 := Prod.mk.inj (Prod.mk.inj h6.1).2
    rw [← h7.2]
    split <;> simp [hn]
  | failed x es2 =>
    simp only [Out.bind_eq_ok] at h4
    obtain ⟨y, h6, h7⟩ := h4
    have h10 := Prod.mk.inj (Out.ok.inj h7)
    have h11 := Prod.mk.inj (Prod.mk.inj h10.1).2
    rw [← h11.2]
    split <;> simp [hn]

theorem sne_whileNot {E α : Type} {e : Env S} {p : S.I → Bool} {t : SSem E α} (ht : SNE t)
    {q : PSem E α} (hq : NE q) {st : Nat} : ∀ (fuel fa : Nat) (es : List E) (i : Nat) (o : Option α)
    (fa' : Nat) (es' : List E) (j : Nat), es ≠ [] →
    whileNotSem e p t q st fuel fa es i = .ok ((o, fa', es'), j) → es' ≠ []
  | 0, _, _, _, _, _, _, _, _, h => by cases h
  | fuel + 1, fa, es, i, o, fa', es', j, h1, h => by
    unfold whileNotSem at h
    split at h
    · cases h; exact h1
    · simp only [Out.bind_eq_ok] at h
      obtain ⟨⟨⟨o1, fa1, es1⟩, j1⟩, h3, h4⟩ := h
      have h5 := ht q hq st fa es i o1 fa1 es1 j1 h1 h3
      cases o1 with
      | some o1 => cases h4; exact h5
      | none => exact sne_whileNot ht hq fuel fa1 es1 _ o fa' es' j h5 h4

theorem ne_toRecover {E α : Type} {q : PSem E α} {s : SSem E α} (hq : NE q) (hs : SNE s) :
    NE (qToRecover q s) := by
  intro en i x j h
  simp only [qToRecover, Out.bind_eq_ok] at h
  obtain ⟨⟨r, k⟩, h1, h2⟩ := h
  have h3 := hq _ _ _ _ h1
  cases r with
  | success x => cases h2; exact h3
  | recovered x es' => cases h2; exact h3
  | failed x es' =>
    simp only at h2
    split at h2
    · cases h2; exact h3
    · simp only [Out.bind_eq_ok] at h2
      obtain ⟨fa, h5, ⟨⟨o, fa', es''⟩, l⟩, h6, h7⟩ := h2
      have h9 := hs q hq _ _ _ _ _ _ _ _ h3 h6
      cases o <;> cases h7 <;> exact h9

/-! ## Every grammar -/

section

variable {e : Env S} {ρ : QEnv S N}

mutual

theorem G.ne (hρ : ∀ k, NE (ρ k)) (n : Nat) : ∀ {ε : ErrTy S} {α : Type} (g : G S N ε α),
    g.All (keepErrL S N) → NE (g.den e ρ n)
  | _, _, .empty, h => by rw [G.den]; exact ne_empty
  | _, _, .none _, h => by rw [G.den]; exact ne_none
  | _, _, .eof, h => by rw [G.den]; exact ne_end
  | _, _, .just t, h => by rw [G.den]; exact ne_just
  | _, _, .filter p, h => by rw [G.den]; exact ne_filter
  | _, _, .filterMap f, h => by rw [G.den]; exact ne_filterMap
  | _, _, .seq v items, h => by rw [G.den]; exact ne_seq
  | _, _, .oneOf items, h => by rw [G.den]; exact ne_oneOf
  | _, _, .noneOf items, h => by rw [G.den]; exact ne_noneOf
  | _, _, .boxed g, h => by rw [G.All] at h; rw [G.den]; exact G.ne hρ n g h.2
  | _, _, .withError g, h => by rw [G.All] at h; rw [G.den]; exact G.ne hρ n g h.2
  | _, _, .to g v, h => by
    rw [G.All] at h; rw [G.den]; exact ne_map (G.ne hρ n g h.2)
  | _, _, .some g, h => by
    rw [G.All] at h; rw [G.den]; exact ne_map (G.ne hρ n g h.2)
  | _, _, .map f g, h => by
    rw [G.All] at h; rw [G.den]; exact ne_map (G.ne hρ n g h.2)
  | _, _, .mapWithSpan f g, h => by
    rw [G.All] at h; rw [G.den]; exact ne_mapWithSpan (G.ne hρ n g h.2)
  | _, _, .mapErr f g, h => by
    rw [G.All] at h; rw [G.den]; exact ne_mapErr (G.ne hρ n g h.2)
  | _, _, .mapErrWithSpan f g, h => by
    rw [G.All] at h; rw [G.den]; exact ne_mapErrWithSpan (G.ne hρ n g h.2)
  | _, _, .tryMap f g, h => by
    rw [G.All] at h; rw [G.den]; exact ne_tryMap (G.ne hρ n g h.2)
  | _, _, .then_ a b, h => by
    rw [G.All] at h; rw [G.den]; exact ne_concat2 (G.ne hρ n a h.2.1) (G.ne hρ n b h.2.2)
  | _, _, .thenIgnore a b, h => by
    rw [G.All] at h; rw [G.den]; exact ne_concat2 (G.ne hρ n a h.2.1) (G.ne hρ n b h.2.2)
  | _, _, .ignoreThen a b, h => by
    rw [G.All] at h; rw [G.den]; exact ne_concat2 (G.ne hρ n a h.2.1) (G.ne hρ n b h.2.2)
  | _, _, .delimitedBy l m r, h => by
    rw [G.All] at h; rw [G.den]
    exact ne_concat3 (G.ne hρ n l h.2.1) (G.ne hρ n m h.2.2.1) (G.ne hρ n r h.2.2.2)
  | _, _, .paddedBy p m, h => by
    rw [G.All] at h; rw [G.den]
    exact ne_concat3 (G.ne hρ n p h.2.1) (G.ne hρ n m h.2.2) (G.ne hρ n p h.2.1)
  | _, _, .chain gs, h => by rw [G.All] at h; rw [G.den]; exact ne_concat (GL.ne hρ n gs h.2)
  | _, _, .or a b, h => by
    rw [G.All] at h; rw [G.den]
    refine ne_alternate fun q hq => ?_
    simp only [List.mem_cons, List.not_mem_nil, or_false] at hq
    rcases hq with rfl | rfl
    · exact G.ne hρ n a h.2.1
    · exact G.ne hρ n b h.2.2
  | _, _, .orNot g, h => by
    rw [G.All] at h; rw [G.den]
    refine ne_alternate fun q hq => ?_
    simp only [List.mem_cons, List.not_mem_nil, or_false] at hq
    rcases hq with rfl | rfl
    · exact ne_map (G.ne hρ n g h.2)
    · exact ne_none
  | _, _, .alters gs, h => by
    rw [G.All] at h; rw [G.den]; exact ne_alternate (GL.ne hρ n gs h.2)
  | _, _, .repeated cfg item, h => by
    rw [G.All] at h; rw [G.den]; exact ne_repeat (G.ne hρ n item h.2) (fun q h => by cases h)
  | _, _, .separatedBy cfg item sep, h => by
    rw [G.All] at h; rw [G.den]
    refine ne_repeat (G.ne hρ n item h.2.1) (fun q hq => ?_)
    cases hq
    exact G.ne hρ n sep h.2.2
  | _, _, .toRecover g st, h => by
    rw [G.All] at h; rw [G.den]; exact ne_toRecover (G.ne hρ n g h.2.1) (CS.ne hρ n st h.2.2)
  | _, _, .call k, h => by rw [G.den]; exact hρ k

theorem GL.ne (hρ : ∀ k, NE (ρ k)) (n : Nat) : ∀ {ε : ErrTy S} {α : Type} (gs : GL S N ε α),
    gs.All (keepErrL S N) → ∀ q ∈ gs.den e ρ n, NE q
  | _, _, .nil, _, q, h => by rw [GL.den] at h; cases h
  | _, _, .cons g gs, hc, q, h => by
    rw [GL.All] at hc
    rw [GL.den] at h
    rcases List.mem_cons.1 h with h | h
    · rw [h]; exact G.ne hρ n g hc.1
    · exact GL.ne hρ n gs hc.2 q h

theorem IS.ne (hρ : ∀ k, NE (ρ k)) (n : Nat) : ∀ {ε : ErrTy S} {α : Type} (s : IS S N ε α),
    s.All (keepErrL S N) → SNE (s.den e ρ n)
  | _, _, .attemptTo, h => by
    rw [IS.den]; exact sne_giveUp (f := fun es _ _ => es) (p := fun _ _ i => i) (fun _ _ _ h => h)
  | _, _, .restart s, h => by
    rw [IS.All] at h; rw [IS.den]
    exact sne_orElse (IS.ne hρ n s h.2)
      (sne_giveUp (f := fun es _ _ => es) (p := fun st fa i => st) (fun _ _ _ h => h))
  | _, _, .seekToFailed s, h => by
    rw [IS.All] at h; rw [IS.den]
    exact sne_orElse (IS.ne hρ n s h.2)
      (sne_giveUp (f := fun es _ _ => es) (p := fun st fa i => fa) (fun _ _ _ h => h))
  | _, _, .skip s, h => by
    rw [IS.All] at h; rw [IS.den]
    exact sne_orElse (IS.ne hρ n s h.2)
      (sne_giveUp (f := fun es _ _ => es) (p := fun st fa i => (e.next i)) (fun _ _ _ h => h))
  | _, _, .skipIf s p, h => by
    rw [IS.All] at h; rw [IS.den]
    exact sne_orElse (IS.ne hρ n s h.2)
      (sne_giveUp (f := fun es _ _ => es) (p := fun st fa i => (if e.tokIs p false i then i + 1 else i)) (fun _ _ _ h => h))
  | _, _, .find s p, h => by
    rw [IS.All] at h; rw [IS.den]
    refine sne_orElse (IS.ne hρ n s h.2) ?_
    intro q hq st fa es i o fa' es' j h1 h
    simp only [Out.bind_eq_ok] at h
    obtain ⟨k, h3, h4⟩ := h
    cases h4
    exact h1
  | _, _, .scan s sc, h => by
    rw [IS.All] at h; rw [IS.den]
    refine sne_orElse (IS.ne hρ n s h.2) ?_
    intro q hq st fa es i o fa' es' j h1 h'
    simp only [Out.bind_eq_ok] at h'
    obtain ⟨⟨es1, k⟩, h3, h4⟩ := h'
    cases h4
    exact sne_scan h.1 h3 h1
  | _, _, .maybe s t, h => by
    rw [IS.All] at h; rw [IS.den]
    refine sne_orElse (IS.ne hρ n s h.2.1) ?_
    intro q hq st fa es i o fa' es' j h1 h'
    simp only [Out.bind_eq_ok] at h'
    obtain ⟨⟨⟨o1, fa1, es1⟩, k⟩, h3, h4⟩ := h'
    have h5 := IS.ne hρ n t h.2.2 q hq st fa es i o1 fa1 es1 k h1 h3
    have h6 := Prod.mk.inj (Out.ok.inj h4)
    have h7 := Prod.mk.inj h6.1
    have h8 := Prod.mk.inj h7.2
    rw [← h8.2]
    exact h5
  | _, _, .whileNot s p t, h => by
    rw [IS.All] at h; rw [IS.den]
    refine sne_orElse (IS.ne hρ n s h.2.1) ?_
    intro q hq st fa es i o fa' es' j h1 h'
    exact sne_whileNot (IS.ne hρ n t h.2.2) hq n fa es i o fa' es' j h1 h'
  | _, _, .retry s exact silent, h => by
    rw [IS.All] at h; rw [IS.den]
    refine sne_orElse (IS.ne hρ n s h.2) ?_
    intro q hq st fa es i o fa' es' j h1 h'
    exact sne_runIn h1 h'
  | _, _, .tryToParse s g exact silent, h => by
    rw [IS.All] at h; rw [IS.den]
    refine sne_orElse (IS.ne hρ n s h.2.1) ?_
    intro q hq st fa es i o fa' es' j h1 h'
    exact sne_runIn h1 h'
  | _, _, .pushError s f, h => by
    rw [IS.All] at h; rw [IS.den]
    exact sne_orElse (IS.ne hρ n s h.2)
      (sne_giveUp (f := fun es st i => es ++ [f ()]) (p := fun _ _ i => i) (by simp))
  | _, _, .pushErrorHere s f, h => by
    rw [IS.All] at h; rw [IS.den]
    exact sne_orElse (IS.ne hρ n s h.2)
      (sne_giveUp (f := fun es st i => es ++ [f (e.locationAt i)]) (p := fun _ _ i => i) (by simp))
  | _, _, .pushErrorUpToHere s f, h => by
    rw [IS.All] at h; rw [IS.den]
    exact sne_orElse (IS.ne hρ n s h.2)
      (sne_giveUp (f := fun es st i => es ++ [f (e.spanOf st i)]) (p := fun _ _ i => i) (by simp))
  | _, _, .pushErrorForToken s f, h => by
    rw [IS.All] at h; rw [IS.den]
    exact sne_orElse (IS.ne hρ n s h.2)
      (sne_giveUp (f := fun es st i => es ++ [f (e.source i) (e.here i)]) (p := fun _ _ i => i) (by simp))
  | _, _, .updateErrors s f, h => by
    rw [IS.All] at h; rw [IS.den]
    exact sne_orElse (IS.ne hρ n s h.2)
      (sne_giveUp (f := fun es st i => f es) (p := fun _ _ i => i)
        (fun es st i he => by apply h.1; exact he))
  | _, _, .updateErrorsHere s f, h => by
    rw [IS.All] at h; rw [IS.den]
    exact sne_orElse (IS.ne hρ n s h.2)
      (sne_giveUp (f := fun es st i => f es (e.locationAt i)) (p := fun _ _ i => i)
        (fun es st i he => by apply h.1; exact he))
  | _, _, .updateErrorsUpToHere s f, h => by
    rw [IS.All] at h; rw [IS.den]
    exact sne_orElse (IS.ne hρ n s h.2)
      (sne_giveUp (f := fun es st i => f es (e.spanOf st i)) (p := fun _ _ i => i)
        (fun es st i he => by apply h.1; exact he))
  | _, _, .updateErrorsForToken s f, h => by
    rw [IS.All] at h; rw [IS.den]
    exact sne_orElse (IS.ne hρ n s h.2)
      (sne_giveUp (f := fun es st i => f es (e.source i) (e.here i)) (p := fun _ _ i => i)
        (fun es st i he => by apply h.1; exact he))
  | _, _, .boxed s, h => by rw [IS.All] at h; rw [IS.den]; exact IS.ne hρ n s h.2

theorem CS.ne (hρ : ∀ k, NE (ρ k)) (n : Nat) : ∀ {ε : ErrTy S} {α : Type} (s : CS S N ε α),
    s.All (keepErrL S N) → SNE (s.den e ρ n)
  | _, _, .ret s o, h => by
    rw [CS.All] at h; rw [CS.den]
    exact sne_orElse (IS.ne hρ n s h) (sne_ret (f := fun _ _ => o))
  | _, _, .retWith s o, h => by
    rw [CS.All] at h; rw [CS.den]
    exact sne_orElse (IS.ne hρ n s h) (sne_ret (f := fun _ _ => o ()))
  | _, _, .retWithSpan s f, h => by
    rw [CS.All] at h; rw [CS.den]
    exact sne_orElse (IS.ne hρ n s h) (sne_ret (f := fun st i => f (e.spanOf st i)))
  | _, _, .orFail s, h => by rw [CS.All] at h; rw [CS.den]; exact IS.ne hρ n s h

end

theorem callSem_ne {D : Defs S N} (hD : D.All (keepErrL S N)) : ∀ (n : Nat) (k : N.K),
    NE (callSem e D n k)
  | 0, k, en, i, r, j, h => by cases h
  | n + 1, k, en, i, r, j, h => by
    rw [callSem] at h
    cases hk : D k with
    | none => rw [hk] at h; cases h
    | some g => rw [hk] at h; exact G.ne (callSem_ne hD n) n g (hD k g hk) _ _ _ _ h

theorem G.sem_ne {D : Defs S N} (hD : D.All (keepErrL S N)) (n : Nat) {ε : ErrTy S} {α : Type}
    (g : G S N ε α) (hg : g.All (keepErrL S N)) : NE (g.sem e D n) :=
  G.ne (callSem_ne hD n) n g hg

end

/-! ## The scanner of the crate -/

theorem popUntil_errors {ε : ErrTy S} {r : Nat} {sp : S.Span} : ∀ (st : List (Delim S)) (es : List ε.E),
    ∃ more, (popUntil ε r sp st es).2.2 = es ++ more
  | [], es => ⟨[], by simp [popUntil]⟩
  | d :: ds, es => by
    unfold popUntil
    split
    · exact ⟨[], by simp⟩
    · obtain ⟨m, hm⟩ := popUntil_errors (r := r) (sp := sp) ds
        (es ++ [ε.unmatchedLeft d.left d.span (.span sp)])
      exact ⟨_, by rw [hm, List.append_assoc]⟩

theorem popOne_errors {ε : ErrTy S} {r : Nat} {t : S.I} {sp : S.Span} {st : List (Delim S)}
    {es : List ε.E} {st' : List (Delim S)} {es' : List ε.E}
    (h : popOne ε r t sp st es = .ok (st', es')) : ∃ more, es' = es ++ more := by
  unfold popOne at h
  split at h
  · split at h <;> cases h; exact ⟨_, rfl⟩
  · cases h; exact ⟨_, rfl⟩

theorem handleRest_errors {ε : ErrTy S} {types : List (S.I × S.I)} {t : S.I} {sp : S.Span}
    {st : List (Delim S)} {es : List ε.E} {st' : List (Delim S)} {es' : List ε.E}
    (h : handleRest ε types t sp st es = .ok (st', es')) : ∃ more, es' = es ++ more := by
  unfold handleRest at h
  split at h
  · cases h; exact ⟨[], by simp⟩
  · split at h
    · rename_i r _
      split at h
      · obtain ⟨m, hm⟩ := popUntil_errors (r := r) (sp := sp) st es
        split at h
        · rename_i hp; rw [hp] at hm; cases h; exact ⟨m, hm⟩
        · rename_i hp
          rw [hp] at hm
          obtain ⟨m', hm'⟩ := popOne_errors h
          simp only at hm
          exact ⟨m ++ m', by rw [hm', hm, List.append_assoc]⟩
      · exact popOne_errors h
    · cases h; exact ⟨[], by simp⟩

/-- `NestedDelimiters` only appends errors. -/
theorem handleToken_errors {ε : ErrTy S} {types : List (S.I × S.I)} {t : S.I} {sp : S.Span}
    {st : List (Delim S)} {es : List ε.E} {st' : List (Delim S)} {es' : List ε.E}
    (h : handleToken ε types t sp st es = .ok (st', es')) : ∃ more, es' = es ++ more := by
  unfold handleToken at h
  split at h
  · split at h
    · split at h
      · cases h; exact ⟨[], by simp⟩
      · exact handleRest_errors h
    · cases h
  · exact handleRest_errors h

theorem nestedDelimiters_keepsErrors (ε : ErrTy S) (types : List (S.I × S.I)) :
    (nestedDelimiters ε types).KeepsErrors := by
  constructor
  · intro t sp st es b st' es' h hn
    simp only at h
    split at h
    · rename_i h1
      obtain ⟨m, hm⟩ := handleToken_errors h1
      cases h
      rw [hm]; simp [hn]
    · cases h
  · intro l st es hn
    simp [hn]

end PPC
