import Verif.SpecPrefix
import Verif.SemHide

/-!
# Errors with and without recovery

`FE`: where a parser recovers, the same parser without recovery fails, with errors that are a
prefix of the errors of the recovered result. `SAP`: a strategy only appends errors.
-/

namespace PPC

variable {S : Sig} {N : Names S}

/-- A strategy that keeps the errors it is given. -/
def SAP {E α : Type} (s : SSem E α) : Prop :=
  ∀ q st fa es i o fa' es' j, s q st fa es i = .ok ((o, fa', es'), j) → es <+: es'

/-! ## Strategies -/

theorem sap_orElse {E α : Type} {s t : SSem E α} (hs : SAP s) (ht : SAP t) : SAP (s.orElse t) := by
  intro q st fa es i o fa' es' j h
  simp only [SSem.orElse, Out.bind_eq_ok] at h
  obtain ⟨⟨⟨o1, fa1, es1⟩, j1⟩, h3, h4⟩ := h
  have h5 := hs q st fa es i o1 fa1 es1 j1 h3
  cases o1 with
  | some o1 => cases h4; exact h5
  | none => exact h5.trans (ht q st fa1 es1 j1 o fa' es' j h4)

theorem sap_giveUp {E α : Type} {p : Nat → Nat → Nat → Nat} {f : List E → Nat → Nat → List E}
    (hf : ∀ es st i, es <+: f es st i) :
    SAP (fun _ st fa es i => giveUp (α := α) fa (f es st i) (p st fa i)) := by
  intro q st fa es i o fa' es' j h
  cases h
  exact hf _ _ _

theorem sap_ret {E α : Type} {f : Nat → Nat → α} :
    SAP (E := E) (fun _ st fa es i => .ok ((some (f st i), fa, es), i)) := by
  intro q st fa es i o fa' es' j h
  cases h
  exact List.prefix_rfl

theorem sap_scan {E : Type} {e : Env S} {sc : Scanner S E} (hk : sc.Appends) :
    ∀ {fuel : Nat} {st : sc.σ} {es : List E} {i : Nat} {es' : List E} {j : Nat},
      scanSem e sc fuel st es i = .ok (es', j) → es <+: es'
  | 0, _, _, _, _, _, h => by cases h
  | fuel + 1, st, es, i, es', j, h => by
    unfold scanSem at h
    split at h
    · split at h
      · cases h
      · rename_i h1; cases h; exact hk.1 _ _ _ _ _ _ _ h1
      · rename_i h1; exact (hk.1 _ _ _ _ _ _ _ h1).trans (sap_scan hk h)
    · cases h; exact hk.2 _ _ _

theorem sap_runIn {E α : Type} {q : PSem E α} {exact silent : Bool} {fa : Nat}
    {es : List E} {i : Nat} {o : Option α} {fa' : Nat} {es' : List E} {j : Nat}
    (h : runInSem q exact silent fa es i = .ok ((o, fa', es'), j)) : es <+: es' := by
  simp only [runInSem, Out.bind_eq_ok] at h
  obtain ⟨⟨r, k⟩, h3, h4⟩ := h
  cases r with
  | success x => cases h4; exact List.prefix_rfl
  | recovered x es2 =>
    have h6 := Prod.mk.inj (Out.ok.inj h4)
    have h7 := Prod.mk.inj (Prod.mk.inj h6.1).2
    rw [← h7.2]
    split <;> simp
  | failed x es2 =>
    simp only [Out.bind_eq_ok] at h4
    obtain ⟨y, h6, h7⟩ := h4
    have h10 := Prod.mk.inj (Out.ok.inj h7)
    have h11 := Prod.mk.inj (Prod.mk.inj h10.1).2
    rw [← h11.2]
    split <;> simp

theorem sap_whileNot {E α : Type} {e : Env S} {p : S.I → Bool} {t : SSem E α} (ht : SAP t)
    {q : PSem E α} {st : Nat} : ∀ (fuel fa : Nat) (es : List E) (i : Nat) (o : Option α)
    (fa' : Nat) (es' : List E) (j : Nat),
    whileNotSem e p t q st fuel fa es i = .ok ((o, fa', es'), j) → es <+: es'
  | 0, _, _, _, _, _, _, _, h => by cases h
  | fuel + 1, fa, es, i, o, fa', es', j, h => by
    unfold whileNotSem at h
    split at h
    · cases h; exact List.prefix_rfl
    · simp only [Out.bind_eq_ok] at h
      obtain ⟨⟨⟨o1, fa1, es1⟩, j1⟩, h3, h4⟩ := h
      have h5 := ht q st fa es i o1 fa1 es1 j1 h3
      cases o1 with
      | some o1 => cases h4; exact h5
      | none => exact h5.trans (sap_whileNot ht fuel fa1 es1 _ o fa' es' j h4)

section

variable {e : Env S} {ρ : QEnv S N} {F : N.K → Prop}

theorem IS.ap (n : Nat) : ∀ {ε : ErrTy S} {α : Type} (s : IS S N ε α),
    s.All (inSeqL F) → SAP (s.den e ρ n)
  | _, _, .attemptTo, h => by
    rw [IS.den]; exact sap_giveUp (f := fun es _ _ => es) (p := fun _ _ i => i) (fun _ _ _ => List.prefix_rfl)
  | _, _, .restart s, h => by
    rw [IS.All] at h; rw [IS.den]
    exact sap_orElse (IS.ap n s h.2)
      (sap_giveUp (f := fun es _ _ => es) (p := fun st fa i => st) (fun _ _ _ => List.prefix_rfl))
  | _, _, .seekToFailed s, h => by
    rw [IS.All] at h; rw [IS.den]
    exact sap_orElse (IS.ap n s h.2)
      (sap_giveUp (f := fun es _ _ => es) (p := fun st fa i => fa) (fun _ _ _ => List.prefix_rfl))
  | _, _, .skip s, h => by
    rw [IS.All] at h; rw [IS.den]
    exact sap_orElse (IS.ap n s h.2)
      (sap_giveUp (f := fun es _ _ => es) (p := fun st fa i => (e.next i)) (fun _ _ _ => List.prefix_rfl))
  | _, _, .skipIf s p, h => by
    rw [IS.All] at h; rw [IS.den]
    exact sap_orElse (IS.ap n s h.2)
      (sap_giveUp (f := fun es _ _ => es) (p := fun st fa i => (if e.tokIs p false i then i + 1 else i)) (fun _ _ _ => List.prefix_rfl))
  | _, _, .find s p, h => by
    rw [IS.All] at h; rw [IS.den]
    refine sap_orElse (IS.ap n s h.2) ?_
    intro q st fa es i o fa' es' j h
    simp only [Out.bind_eq_ok] at h
    obtain ⟨k, h3, h4⟩ := h
    cases h4
    exact List.prefix_rfl
  | _, _, .scan s sc, h => by
    rw [IS.All] at h; rw [IS.den]
    refine sap_orElse (IS.ap n s h.2) ?_
    intro q st fa es i o fa' es' j h'
    simp only [Out.bind_eq_ok] at h'
    obtain ⟨⟨es1, k⟩, h3, h4⟩ := h'
    cases h4
    exact sap_scan h.1 h3
  | _, _, .maybe s t, h => by
    rw [IS.All] at h; rw [IS.den]
    refine sap_orElse (IS.ap n s h.2.1) ?_
    intro q st fa es i o fa' es' j h'
    simp only [Out.bind_eq_ok] at h'
    obtain ⟨⟨⟨o1, fa1, es1⟩, k⟩, h3, h4⟩ := h'
    have h5 := IS.ap n t h.2.2 q st fa es i o1 fa1 es1 k h3
    have h6 := Prod.mk.inj (Out.ok.inj h4)
    have h7 := Prod.mk.inj h6.1
    have h8 := Prod.mk.inj h7.2
    rw [← h8.2]
    exact h5
  | _, _, .whileNot s p t, h => by
    rw [IS.All] at h; rw [IS.den]
    refine sap_orElse (IS.ap n s h.2.1) ?_
    intro q st fa es i o fa' es' j h'
    exact sap_whileNot (IS.ap n t h.2.2) n fa es i o fa' es' j h'
  | _, _, .retry s exact silent, h => by
    rw [IS.All] at h; rw [IS.den]
    refine sap_orElse (IS.ap n s h.2) ?_
    intro q st fa es i o fa' es' j h'
    exact sap_runIn h'
  | _, _, .tryToParse s g exact silent, h => by
    rw [IS.All] at h; rw [IS.den]
    refine sap_orElse (IS.ap n s h.2.1) ?_
    intro q st fa es i o fa' es' j h'
    exact sap_runIn h'
  | _, _, .pushError s f, h => by
    rw [IS.All] at h; rw [IS.den]
    exact sap_orElse (IS.ap n s h.2)
      (sap_giveUp (f := fun es st i => es ++ [f ()]) (p := fun _ _ i => i) (by simp))
  | _, _, .pushErrorHere s f, h => by
    rw [IS.All] at h; rw [IS.den]
    exact sap_orElse (IS.ap n s h.2)
      (sap_giveUp (f := fun es st i => es ++ [f (e.locationAt i)]) (p := fun _ _ i => i) (by simp))
  | _, _, .pushErrorUpToHere s f, h => by
    rw [IS.All] at h; rw [IS.den]
    exact sap_orElse (IS.ap n s h.2)
      (sap_giveUp (f := fun es st i => es ++ [f (e.spanOf st i)]) (p := fun _ _ i => i) (by simp))
  | _, _, .pushErrorForToken s f, h => by
    rw [IS.All] at h; rw [IS.den]
    exact sap_orElse (IS.ap n s h.2)
      (sap_giveUp (f := fun es st i => es ++ [f (e.source i) (e.here i)]) (p := fun _ _ i => i) (by simp))
  | _, _, .updateErrors s f, h => by
    rw [IS.All] at h; rw [IS.den]
    exact sap_orElse (IS.ap n s h.2)
      (sap_giveUp (f := fun es st i => f es) (p := fun _ _ i => i)
        (fun es st i => by apply h.1))
  | _, _, .updateErrorsHere s f, h => by
    rw [IS.All] at h; rw [IS.den]
    exact sap_orElse (IS.ap n s h.2)
      (sap_giveUp (f := fun es st i => f es (e.locationAt i)) (p := fun _ _ i => i)
        (fun es st i => by apply h.1))
  | _, _, .updateErrorsUpToHere s f, h => by
    rw [IS.All] at h; rw [IS.den]
    exact sap_orElse (IS.ap n s h.2)
      (sap_giveUp (f := fun es st i => f es (e.spanOf st i)) (p := fun _ _ i => i)
        (fun es st i => by apply h.1))
  | _, _, .updateErrorsForToken s f, h => by
    rw [IS.All] at h; rw [IS.den]
    exact sap_orElse (IS.ap n s h.2)
      (sap_giveUp (f := fun es st i => f es (e.source i) (e.here i)) (p := fun _ _ i => i)
        (fun es st i => by apply h.1))
  | _, _, .boxed s, h => by rw [IS.All] at h; rw [IS.den]; exact IS.ap n s h.2

theorem CS.ap (n : Nat) : ∀ {ε : ErrTy S} {α : Type} (s : CS S N ε α),
    s.All (inSeqL F) → SAP (s.den e ρ n)
  | _, _, .ret s o, h => by
    rw [CS.All] at h; rw [CS.den]
    exact sap_orElse (IS.ap n s h) (sap_ret (f := fun _ _ => o))
  | _, _, .retWith s o, h => by
    rw [CS.All] at h; rw [CS.den]
    exact sap_orElse (IS.ap n s h) (sap_ret (f := fun _ _ => o ()))
  | _, _, .retWithSpan s f, h => by
    rw [CS.All] at h; rw [CS.den]
    exact sap_orElse (IS.ap n s h) (sap_ret (f := fun st i => f (e.spanOf st i)))
  | _, _, .orFail s, h => by rw [CS.All] at h; rw [CS.den]; exact IS.ap n s h

end

/-! ## Recovered results and failures -/

/-- A success does not need recovery, and a recovered result starts with the errors that the parser
fails with when recovery is disabled. -/
structure FE {E α : Type} (q : PSem E α) : Prop where
  su : ∀ i a j, q true i = .ok (.success a, j) → q false i = .ok (.success a, j)
  re : ∀ i a es j, q true i = .ok (.recovered a es, j) →
    ∃ k es' l, q false i = .ok (.failed k es', l) ∧ es' <+: es

theorem RF.fe {E α : Type} {q : PSem E α} (h : RF q) : FE q where
  su i _ _ h1 := (h.eq i).symm.trans h1
  re _ _ _ _ h1 := absurd ((h.eq _).symm.trans h1) (h.nr _ _ _ _)

theorem fe_map {E α β : Type} {f : α → β} {q : PSem E α} (hq : FE q) : FE (qMap f q) where
  su i a j h := by
    simp only [qMap, Out.bind_eq_ok] at h
    obtain ⟨⟨r, k⟩, h1, h2⟩ := h
    cases r <;> cases h2
    rw [qMap, hq.su _ _ _ h1]; rfl
  re i a es j h := by
    simp only [qMap, Out.bind_eq_ok] at h
    obtain ⟨⟨r, k⟩, h1, h2⟩ := h
    cases r <;> cases h2
    obtain ⟨k, es', l, h3, h4⟩ := hq.re _ _ _ _ h1
    exact ⟨k, es', l, by rw [qMap, h3]; rfl, h4⟩

theorem fe_mapWithSpan {E α β : Type} {e : Env S} {f : α → S.Span → β} {q : PSem E α} (hq : FE q) :
    FE (qMapWithSpan e f q) where
  su i a j h := by
    simp only [qMapWithSpan, Out.bind_eq_ok] at h
    obtain ⟨⟨r, k⟩, h1, h2⟩ := h
    cases r <;> cases h2
    rw [qMapWithSpan, hq.su _ _ _ h1]; rfl
  re i a es j h := by
    simp only [qMapWithSpan, Out.bind_eq_ok] at h
    obtain ⟨⟨r, k⟩, h1, h2⟩ := h
    cases r <;> cases h2
    obtain ⟨k, es', l, h3, h4⟩ := hq.re _ _ _ _ h1
    exact ⟨k, es', l, by rw [qMapWithSpan, h3]; rfl, h4⟩

theorem fe_mapErr {E X α : Type} {f : X → E} {q : PSem X α} (hq : FE q) : FE (qMapErr f q) where
  su i a j h := by
    simp only [qMapErr, Out.bind_eq_ok] at h
    obtain ⟨⟨r, k⟩, h1, h2⟩ := h
    cases r <;> cases h2
    rw [qMapErr, hq.su _ _ _ h1]; rfl
  re i a es j h := by
    simp only [qMapErr, Out.bind_eq_ok] at h
    obtain ⟨⟨r, k⟩, h1, h2⟩ := h
    cases r <;> cases h2
    obtain ⟨k, es', l, h3, h4⟩ := hq.re _ _ _ _ h1
    exact ⟨k, es'.map f, l, by rw [qMapErr, h3]; rfl, h4.map f⟩

theorem fe_mapErrWithSpan {E X α : Type} {e : Env S} {f : X → S.Span → E} {q : PSem X α} (hq : RF q) :
    FE (qMapErrWithSpan e f q) where
  su i a j h := by
    rw [qMapErrWithSpan, hq.eq i] at h
    exact h
  re i a es j h := by
    simp only [qMapErrWithSpan, Out.bind_eq_ok] at h
    obtain ⟨⟨r, k⟩, h1, h2⟩ := h
    cases r <;> cases h2
    exact absurd ((hq.eq i).symm.trans h1) (hq.nr _ _ _ _)

theorem fe_tryMap {E α β : Type} {e : Env S} {f : α → S.Span → TryMapResult β E} {q : PSem E α}
    (hq : RF q) : FE (qTryMap e f q) where
  su i a j h := by
    simp only [qTryMap, Out.bind_eq_ok] at h
    obtain ⟨⟨r, k⟩, h1, h2⟩ := h
    rw [hq.eq i] at h1
    rw [qTryMap, h1]
    cases r with
    | success x =>
      show tryMapStep e f false i k x = _
      simp only [tryMapStep] at h2 ⊢
      repeat' split at h2
      all_goals first | exact h2 | cases h2
    | recovered x es => exact absurd h1 (hq.nr _ _ _ _)
    | failed x es => cases h2
  re i a es j h := by
    simp only [qTryMap, Out.bind_eq_ok] at h
    obtain ⟨⟨r, k⟩, h1, h2⟩ := h
    rw [hq.eq i] at h1
    cases r with
    | success x =>
      refine ⟨i, es, k, ?_, List.prefix_rfl⟩
      rw [qTryMap, h1]
      show tryMapStep e f false i k x = _
      simp only [tryMapStep] at h2 ⊢
      split at h2
      · cases h2
      · split at h2 <;> cases h2
      · split at h2
        · cases h2
        · cases h2; simp_all
    | recovered x es => exact absurd h1 (hq.nr _ _ _ _)
    | failed x es => cases h2

theorem fe_toRecover {E α : Type} {q : PSem E α} {s : SSem E α} (hq : RF q) (hs : SAP s) :
    FE (qToRecover q s) where
  su i a j h := by
    simp only [qToRecover, Out.bind_eq_ok] at h
    obtain ⟨⟨r, k⟩, h1, h2⟩ := h
    rw [hq.eq i] at h1
    rw [qToRecover, h1]
    cases r with
    | success x => cases h2; rfl
    | recovered x es => exact absurd h1 (hq.nr _ _ _ _)
    | failed x es =>
      simp only [Bool.not_true, Bool.false_eq_true, if_false, Out.bind_eq_ok] at h2
      obtain ⟨fa, h5, ⟨⟨o, fa', es''⟩, l⟩, h6, h7⟩ := h2
      cases o <;> cases h7
  re i a es j h := by
    simp only [qToRecover, Out.bind_eq_ok] at h
    obtain ⟨⟨r, k⟩, h1, h2⟩ := h
    rw [hq.eq i] at h1
    cases r with
    | success x => cases h2
    | recovered x es => exact absurd h1 (hq.nr _ _ _ _)
    | failed x es =>
      refine ⟨x, es, k, by rw [qToRecover, h1]; rfl, ?_⟩
      simp only [Bool.not_true, Bool.false_eq_true, if_false, Out.bind_eq_ok] at h2
      obtain ⟨fa, h5, ⟨⟨o, fa', es''⟩, l⟩, h6, h7⟩ := h2
      have h8 := hs _ _ _ _ _ _ _ _ _ h6
      cases o <;> cases h7
      exact h8

/-! ## Sequences

The rest of a sequence, run after its first parts (`r` = errors recovered so far). -/

/-- The rest of a sequence succeeds without recovery if nothing was recovered, fails without recovery
with a prefix of the errors if nothing was recovered before, and keeps errors recovered before. -/
structure FERest {E α : Type} (t : Bool → Option (List E) → Nat → Out (Res α E × Nat)) : Prop where
  su : ∀ r i a j, t true r i = .ok (.success a, j) → r = none ∧ t false none i = .ok (.success a, j)
  re : ∀ i a es j, t true none i = .ok (.recovered a es, j) →
    ∃ k es' l, t false none i = .ok (.failed k es', l) ∧ es' <+: es
  ke : ∀ es0 i a es j, t true (some es0) i = .ok (.recovered a es, j) → es0 <+: es

theorem feRest_finish {E α : Type} {o : α} : FERest (E := E) (fun en r i => finishSem en o r i) where
  su r i a j h := by cases r <;> cases h; exact ⟨rfl, rfl⟩
  re i a es j h := by cases h
  ke es0 i a es j h := by cases h; exact List.prefix_rfl

/-- One more part before the rest of a sequence. -/
def seqStep {E β γ : Type} (start : Nat) (q : PSem E β)
    (t : β → Bool → Option (List E) → Nat → Out (Res γ E × Nat)) (en : Bool) (r : Option (List E)) (i : Nat) :
    Out (Res γ E × Nat) := do
  match ← q en i with
  | (.success b, j) => t b en r j
  | (.recovered b es, j) => t b en (extendRec r es) j
  | (.failed x es, _) => .ok (.failed x es, start)

theorem feRest_step {E β γ : Type} {start : Nat} {q : PSem E β}
    {t : β → Bool → Option (List E) → Nat → Out (Res γ E × Nat)} (hq : FE q) (ht : ∀ b, FERest (t b)) :
    FERest (seqStep start q t) where
  su r i a j h := by
    simp only [seqStep, Out.bind_eq_ok] at h
    obtain ⟨⟨x, k⟩, h1, h2⟩ := h
    cases x with
    | success b =>
      obtain ⟨rfl, h3⟩ := (ht b).su _ _ _ _ h2
      exact ⟨rfl, by rw [seqStep, hq.su _ _ _ h1]; exact h3⟩
    | recovered b es =>
      obtain ⟨h3, -⟩ := (ht b).su _ _ _ _ h2
      cases r <;> cases h3
    | failed x es => cases h2
  re i a es j h := by
    simp only [seqStep, Out.bind_eq_ok] at h
    obtain ⟨⟨x, k⟩, h1, h2⟩ := h
    cases x with
    | success b =>
      obtain ⟨k', es', l, h3, h4⟩ := (ht b).re _ _ _ _ h2
      exact ⟨k', es', l, by rw [seqStep, hq.su _ _ _ h1]; exact h3, h4⟩
    | recovered b es1 =>
      obtain ⟨k', es', l, h3, h4⟩ := hq.re _ _ _ _ h1
      exact ⟨k', es', start, by rw [seqStep, h3]; rfl, h4.trans ((ht b).ke _ _ _ _ _ h2)⟩
    | failed x es => cases h2
  ke es0 i a es j h := by
    simp only [seqStep, Out.bind_eq_ok] at h
    obtain ⟨⟨x, k⟩, h1, h2⟩ := h
    cases x with
    | success b => exact (ht b).ke _ _ _ _ _ h2
    | recovered b es1 => exact (List.prefix_append _ _).trans ((ht b).ke _ _ _ _ _ h2)
    | failed x es => cases h2

theorem fe_concatRest {E α : Type} {start : Nat} : ∀ (qs : List (PSem E α)) (out : List α),
    (∀ q ∈ qs, FE q) → FERest (fun en r i => concatRestSem en start qs out r i)
  | [], out, _ => feRest_finish
  | q :: qs, out, h => feRest_step (start := start) (h q (by simp))
      (fun b => fe_concatRest qs (out ++ [b]) (fun q' h' => h q' (by simp [h'])))

/-- The first part of a sequence. -/
theorem fe_first {E β γ : Type} {q : PSem E β}
    {t : Nat → β → Bool → Option (List E) → Nat → Out (Res γ E × Nat)} (hq : FE q)
    (ht : ∀ i b, FERest (t i b)) {p : PSem E γ} (hp : ∀ en i, p en i = (do
      match ← q en i with
      | (.success b, j) => t i b en none j
      | (.recovered b es, j) => t i b en (some es) j
      | (.failed x es, j) => .ok (.failed x es, j))) : FE p where
  su i a j h := by
    simp only [hp, Out.bind_eq_ok] at h
    obtain ⟨⟨x, k⟩, h1, h2⟩ := h
    cases x with
    | success b => rw [hp, hq.su _ _ _ h1]; exact ((ht i b).su _ _ _ _ h2).2
    | recovered b es => cases ((ht i b).su _ _ _ _ h2).1
    | failed x es => cases h2
  re i a es j h := by
    simp only [hp, Out.bind_eq_ok] at h
    obtain ⟨⟨x, k⟩, h1, h2⟩ := h
    cases x with
    | success b =>
      obtain ⟨k', es', l, h3, h4⟩ := (ht i b).re _ _ _ _ h2
      exact ⟨k', es', l, by rw [hp, hq.su _ _ _ h1]; exact h3, h4⟩
    | recovered b es1 =>
      obtain ⟨k', es', l, h3, h4⟩ := hq.re _ _ _ _ h1
      exact ⟨k', es', l, by rw [hp, h3]; rfl, h4.trans ((ht i b).ke _ _ _ _ _ h2)⟩
    | failed x es => cases h2

theorem fe_concat {E α : Type} {qs : List (PSem E α)} (hq : ∀ q ∈ qs, FE q) : FE (qConcat qs) := by
  cases qs with
  | nil => exact ⟨fun _ _ _ h => h, fun _ _ _ _ h => by cases h⟩
  | cons q qs =>
    exact fe_first (t := fun i a en r j => concatRestSem en i qs [a] r j) (hq q (by simp))
      (fun i b => fe_concatRest qs [b] (fun q' h' => hq q' (by simp [h']))) (fun _ _ => rfl)

theorem fe_concatLast {E β γ : Type} {start : Nat} {f : β → γ} {qb : PSem E β} (hb : FE qb) :
    FERest (fun en r i => concatLastSem en start f qb r i) :=
  feRest_step (start := start) hb (fun _ => feRest_finish)

theorem fe_concat2 {E α β γ : Type} {f : α × β → γ} {qa : PSem E α} {qb : PSem E β} (ha : FE qa)
    (hb : FE qb) : FE (qConcat2 f qa qb) :=
  fe_first (t := fun i a en r j => concatLastSem en i (fun b => f (a, b)) qb r j) ha
    (fun _ _ => fe_concatLast hb) (fun _ _ => rfl)

theorem fe_concatMid {E β γ δ : Type} {start : Nat} {f : β × γ → δ} {qb : PSem E β} {qc : PSem E γ}
    (hb : FE qb) (hc : FE qc) : FERest (fun en r i => concatMidSem en start f qb qc r i) :=
  feRest_step (start := start) (t := fun b en r j => concatLastSem en start (fun c => f (b, c)) qc r j) hb
    (fun _ => fe_concatLast hc)

theorem fe_concat3 {E α β γ δ : Type} {f : α × β × γ → δ} {qa : PSem E α} {qb : PSem E β}
    {qc : PSem E γ} (ha : FE qa) (hb : FE qb) (hc : FE qc) : FE (qConcat3 f qa qb qc) :=
  fe_first (t := fun i a en r j => concatMidSem en i (fun x => f (a, x)) qb qc r j) ha
    (fun _ _ => fe_concatMid hb hc) (fun _ _ => rfl)

/-! ## Every grammar -/

section

variable {e : Env S} {ρ : QEnv S N} {F : N.K → Prop}

theorem FE.refl {E α : Type} {q : PSem E α} (h : ∀ i, q true i = q false i)
    (h2 : ∀ i a es j, q false i ≠ .ok (.recovered a es, j)) : FE q where
  su i _ _ h1 := (h i).symm.trans h1
  re _ _ _ _ h1 := absurd ((h _).symm.trans h1) (h2 _ _ _ _)

mutual

theorem G.fe (hF : ∀ k, F k → RF (ρ k)) (hρ : ∀ k, FE (ρ k)) (n : Nat) :
    ∀ {ε : ErrTy S} {α : Type} (g : G S N ε α), g.All (inSeqL F) → FE (g.den e ρ n)
  | _, _, .empty, h => by rw [G.den]; exact .refl (fun _ => rfl) nr_empty
  | _, _, .none _, h => by rw [G.den]; exact .refl (fun _ => rfl) nr_none
  | _, _, .eof, h => by rw [G.den]; exact .refl (fun _ => rfl) nr_end
  | _, _, .just t, h => by rw [G.den]; exact .refl (fun _ => rfl) nr_just
  | _, _, .filter p, h => by rw [G.den]; exact .refl (fun _ => rfl) nr_filter
  | _, _, .filterMap f, h => by rw [G.den]; exact .refl (fun _ => rfl) nr_filterMap
  | _, _, .seq v items, h => by rw [G.den]; exact .refl (fun _ => rfl) nr_seq
  | _, _, .oneOf items, h => by rw [G.den]; exact .refl (fun _ => rfl) nr_oneOf
  | _, _, .noneOf items, h => by rw [G.den]; exact .refl (fun _ => rfl) nr_noneOf
  | _, _, .boxed g, h => by rw [G.All] at h; rw [G.den]; exact G.fe hF hρ n g h.2
  | _, _, .withError g, h => by rw [G.All] at h; rw [G.den]; exact G.fe hF hρ n g h.2
  | _, _, .to g v, h => by rw [G.All] at h; rw [G.den]; exact fe_map (G.fe hF hρ n g h.2)
  | _, _, .some g, h => by rw [G.All] at h; rw [G.den]; exact fe_map (G.fe hF hρ n g h.2)
  | _, _, .map f g, h => by rw [G.All] at h; rw [G.den]; exact fe_map (G.fe hF hρ n g h.2)
  | _, _, .mapWithSpan f g, h => by
    rw [G.All] at h; rw [G.den]; exact fe_mapWithSpan (G.fe hF hρ n g h.2)
  | _, _, .mapErr f g, h => by rw [G.All] at h; rw [G.den]; exact fe_mapErr (G.fe hF hρ n g h.2)
  | _, _, .mapErrWithSpan f g, h => by
    rw [G.All] at h; rw [G.den]; exact fe_mapErrWithSpan (G.rf hF n g h.1)
  | _, _, .tryMap f g, h => by rw [G.All] at h; rw [G.den]; exact fe_tryMap (G.rf hF n g h.1)
  | _, _, .then_ a b, h => by
    rw [G.All] at h; rw [G.den]; exact fe_concat2 (G.fe hF hρ n a h.2.1) (G.fe hF hρ n b h.2.2)
  | _, _, .thenIgnore a b, h => by
    rw [G.All] at h; rw [G.den]; exact fe_concat2 (G.fe hF hρ n a h.2.1) (G.fe hF hρ n b h.2.2)
  | _, _, .ignoreThen a b, h => by
    rw [G.All] at h; rw [G.den]; exact fe_concat2 (G.fe hF hρ n a h.2.1) (G.fe hF hρ n b h.2.2)
  | _, _, .delimitedBy l m r, h => by
    rw [G.All] at h; rw [G.den]
    exact fe_concat3 (G.fe hF hρ n l h.2.1) (G.fe hF hρ n m h.2.2.1) (G.fe hF hρ n r h.2.2.2)
  | _, _, .paddedBy p m, h => by
    rw [G.All] at h; rw [G.den]
    exact fe_concat3 (G.fe hF hρ n p h.2.1) (G.fe hF hρ n m h.2.2) (G.fe hF hρ n p h.2.1)
  | _, _, .chain gs, h => by rw [G.All] at h; rw [G.den]; exact fe_concat (GL.fe hF hρ n gs h.2)
  | _, _, .or a b, h => by
    rw [G.All] at h
    refine (G.rf hF n (.or a b) ?_).fe
    rw [G.All]; exact ⟨trivial, h.1.1, h.1.2⟩
  | _, _, .orNot g, h => by
    rw [G.All] at h
    refine (G.rf hF n (.orNot g) ?_).fe
    rw [G.All]; exact ⟨trivial, h.1⟩
  | _, _, .alters gs, h => by
    rw [G.All] at h
    refine (G.rf hF n (.alters gs) ?_).fe
    rw [G.All]; exact ⟨trivial, h.1⟩
  | _, _, .repeated cfg item, h => by
    rw [G.All] at h
    refine (G.rf hF n (.repeated cfg item) ?_).fe
    rw [G.All]; exact ⟨trivial, h.1⟩
  | _, _, .separatedBy cfg item sep, h => by
    rw [G.All] at h
    refine (G.rf hF n (.separatedBy cfg item sep) ?_).fe
    rw [G.All]; exact ⟨trivial, h.1.1, h.1.2⟩
  | _, _, .toRecover g st, h => by
    rw [G.All] at h; rw [G.den]; exact fe_toRecover (G.rf hF n g h.1) (CS.ap n st h.2.2)
  | _, _, .call k, h => by rw [G.den]; exact hρ k

theorem GL.fe (hF : ∀ k, F k → RF (ρ k)) (hρ : ∀ k, FE (ρ k)) (n : Nat) :
    ∀ {ε : ErrTy S} {α : Type} (gs : GL S N ε α), gs.All (inSeqL F) → ∀ q ∈ gs.den e ρ n, FE q
  | _, _, .nil, _, q, h => by rw [GL.den] at h; cases h
  | _, _, .cons g gs, hc, q, h => by
    rw [GL.All] at hc
    rw [GL.den] at h
    rcases List.mem_cons.1 h with h | h
    · rw [h]; exact G.fe hF hρ n g hc.1
    · exact GL.fe hF hρ n gs hc.2 q h

end

theorem callSem_fe {D : Defs S N} (hF : RecFreeNames F D) (hD : D.All (inSeqL F)) :
    ∀ (n : Nat) (k : N.K), FE (callSem e D n k)
  | 0, k => ⟨fun _ _ _ h => (by cases h), fun _ _ _ _ h => (by cases h)⟩
  | n + 1, k => by
    have he : ∀ en i, callSem e D (n + 1) k en i = match D k with
      | some g => g.den e (callSem e D n) n en i
      | none => .panic "recursive parser is not defined" := fun _ _ => rfl
    cases hk : D k with
    | none =>
      simp only [hk] at he
      exact ⟨fun _ _ _ h => (by rw [he] at h; cases h), fun _ _ _ _ h => (by rw [he] at h; cases h)⟩
    | some g =>
      simp only [hk] at he
      have h1 := G.fe (e := e) (callSem_rf hF n) (callSem_fe hF hD n) n g (hD k g hk)
      refine ⟨fun i a j h => ?_, fun i a es j h => ?_⟩
      · rw [he] at h ⊢; exact h1.su _ _ _ h
      · rw [he] at h
        obtain ⟨k', es', l, h3, h4⟩ := h1.re _ _ _ _ h
        exact ⟨k', es', l, by rw [he]; exact h3, h4⟩

theorem G.sem_fe {D : Defs S N} (hF : RecFreeNames F D) (hD : D.All (inSeqL F)) (n : Nat)
    {ε : ErrTy S} {α : Type} {g : G S N ε α} (hg : g.All (inSeqL F)) : FE (g.sem e D n) :=
  G.fe (callSem_rf hF n) (callSem_fe hF hD n) n g hg

end

theorem nestedDelimiters_appends (ε : ErrTy S) (types : List (S.I × S.I)) :
    (nestedDelimiters ε types).Appends := by
  constructor
  · intro t sp st es b st' es' h
    simp only at h
    split at h
    · rename_i h1
      obtain ⟨m, hm⟩ := handleToken_errors h1
      cases h
      rw [hm]; simp
    · cases h
  · intro l st es
    simp

end PPC
