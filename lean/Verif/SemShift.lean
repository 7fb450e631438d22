import Verif.SemRefine3

/-!
# Shifting positions and increasing the evaluation bound

One induction for two facts about the positional semantics: evaluating with a larger bound
gives the same outcome unless the smaller bound was exceeded, and evaluating in the rest of an
input (from position `k` on) gives the same outcome with positions shifted by `k`.
-/

namespace PPC

variable {S : Sig} {N : Names S}

/-- `a` and `b` have the same outcome with `R`-related values; if `P`, `a` may also exceed the
bound when `b` does not. -/
inductive OLe (P : Prop) {α β : Type} (R : α → β → Prop) : Out α → Out β → Prop
  | oof {b} : P → OLe P R .oof b
  | oof2 : OLe P R .oof .oof
  | ok {x y} : R x y → OLe P R (.ok x) (.ok y)
  | panic {m} : OLe P R (.panic m) (.panic m)
  | stuck : OLe P R .stuck .stuck

/-- Bounds: equal, or possibly increasing if `P`. -/
def Bd (P : Prop) (n n' : Nat) : Prop := n = n' ∨ P ∧ n ≤ n'

theorem Bd.zero {P : Prop} {n' : Nat} (h : Bd P 0 n') : n' = 0 ∨ P := by
  rcases h with h | h
  · exact .inl h.symm
  · exact .inr h.1

theorem Bd.succ {P : Prop} {n n' : Nat} (h : Bd P (n + 1) n') : ∃ m, n' = m + 1 ∧ Bd P n m := by
  rcases h with h | ⟨hP, h⟩
  · exact ⟨n, h.symm, .inl rfl⟩
  · exact ⟨n' - 1, by omega, .inr ⟨hP, by omega⟩⟩

theorem OLe.bind {P : Prop} {α β γ δ : Type} {R : α → β → Prop} {Q : γ → δ → Prop} {a : Out α} {b : Out β}
    {f : α → Out γ} {g : β → Out δ} (h : OLe P R a b) (hf : ∀ x y, R x y → OLe P Q (f x) (g y)) :
    OLe P Q (a >>= f) (b >>= g) := by
  cases h with
  | oof h => exact .oof h
  | oof2 => exact .oof2
  | ok h => exact hf _ _ h
  | panic => exact .panic
  | stuck => exact .stuck

/-- Results at positions shifted by `k`. -/
inductive RR {α E : Type} (k : Nat) : Res α E × Nat → Res α E × Nat → Prop
  | success (o : α) (j : Nat) : RR k (.success o, j) (.success o, k + j)
  | recovered (o : α) (es : List E) (j : Nat) : RR k (.recovered o es, j) (.recovered o es, k + j)
  | failed (x : Nat) (es : List E) (j : Nat) : RR k (.failed x es, j) (.failed (k + x) es, k + j)

/-- Parsers at positions shifted by `k`. -/
def PR (P : Prop) {α E : Type} (k : Nat) (q q' : PSem E α) : Prop := ∀ en i, OLe P (RR k) (q en i) (q' en (k + i))

/-- Strategy results at positions shifted by `k`. -/
inductive SR {α E : Type} (k : Nat) : (Option α × Nat × List E) × Nat → (Option α × Nat × List E) × Nat → Prop
  | mk (o : Option α) (fa : Nat) (es : List E) (j : Nat) : SR k ((o, fa, es), j) ((o, k + fa, es), k + j)

/-- Strategies at positions shifted by `k`. -/
def TR (P : Prop) {α E : Type} (k : Nat) (s s' : SSem E α) : Prop := ∀ q q', PR P k q q' → ∀ st fa es i,
  OLe P (SR k) (s q st fa es i) (s' q' (k + st) (k + fa) es (k + i))

/-- `e'` is the input `e` from position `k` on. -/
structure IsRest (k : Nat) (e' e : Env S) : Prop where
  source : ∀ i, e.source (k + i) = e'.source i
  location : ∀ i, e.locationAt (k + i) = e'.locationAt i
  span : ∀ i j, e.spanOf (k + i) (k + j) = e'.spanOf i j

namespace IsRest

variable {k : Nat} {e' e : Env S} (h : IsRest k e' e)
include h

theorem next (i : Nat) : e.next (k + i) = k + e'.next i := by
  unfold Env.next
  rw [h.source]
  split <;> omega

theorem here (i : Nat) : e.here (k + i) = e'.here i := by
  unfold Env.here
  rw [h.next, h.span]

theorem tokIs (p : S.I → Bool) (d : Bool) (i : Nat) : e.tokIs p d (k + i) = e'.tokIs p d i := by
  unfold Env.tokIs
  rw [h.source]

theorem mismatch {α : Type} (ε : ErrTy S) (x : List (Option S.I)) (i j : Nat) :
    RR k ((PPC.mismatch e' ε x i : Res α ε.E), j) (PPC.mismatch e ε x (k + i), k + j) := by
  unfold PPC.mismatch
  rw [h.source, h.here]
  exact .failed _ _ _

end IsRest

theorem IsRest.refl (e : Env S) : IsRest 0 e e where
  source i := by rw [Nat.zero_add]
  location i := by rw [Nat.zero_add]
  span i j := by rw [Nat.zero_add, Nat.zero_add]

section

variable {P : Prop} {k : Nat} {e' e : Env S} {E α β γ δ : Type}

theorem PR.empty : PR P k (qEmpty : PSem E Unit) qEmpty := fun _ _ => .ok (.success _ _)

theorem PR.none_ : PR P k (qNone : PSem E (Option α)) qNone := fun _ _ => .ok (.success _ _)

theorem PR.end_ (h : IsRest k e' e) (ε : ErrTy S) : PR P k (qEnd e' ε) (qEnd e ε) := by
  intro en i
  unfold qEnd
  rw [h.source, h.location]
  split
  · exact .ok (.success _ _)
  · exact .ok (.failed _ _ _)

theorem PR.just (h : IsRest k e' e) (ε : ErrTy S) (x : S.I) : PR P k (qJust e' ε x) (qJust e ε x) := by
  intro en i
  unfold qJust
  rw [h.source]
  split
  · exact .ok (.success _ _)
  · exact .ok (h.mismatch ε _ _ _)

theorem PR.filter (h : IsRest k e' e) (ε : ErrTy S) (p : S.I → Bool) :
    PR P k (qFilter e' ε p) (qFilter e ε p) := by
  intro en i
  unfold qFilter
  rw [h.source]
  split
  · split
    · exact .ok (.success _ _)
    · exact .ok (h.mismatch ε _ _ _)
  · exact .ok (h.mismatch ε _ _ _)

theorem PR.filterMap (h : IsRest k e' e) (ε : ErrTy S) (f : S.I → Option α) :
    PR P k (qFilterMap e' ε f) (qFilterMap e ε f) := by
  intro en i
  unfold qFilterMap
  rw [h.source]
  split
  · exact .ok (.success _ _)
  · exact .ok (h.mismatch ε _ _ _)

theorem matchSeq_shift (h : IsRest k e' e) : ∀ (items : List S.I) (i : Nat),
    matchSeq e items (k + i) = (matchSeq e' items i).map fun x => (k + x.1, x.2) := by
  intro items
  induction items with
  | nil => intro i; rfl
  | cons x xs ih =>
    intro i
    unfold matchSeq
    rw [h.source]
    split
    · exact ih (i + 1)
    · rfl

theorem PR.seq (h : IsRest k e' e) (ε : ErrTy S) (v : α) (items : List S.I) :
    PR P k (qSeq e' ε v items) (qSeq e ε v items) := by
  intro en i
  unfold qSeq
  rw [matchSeq_shift h]
  cases matchSeq e' items i with
  | none =>
    show OLe P _ _ (Out.ok (Res.success v, k + i + items.length))
    rw [Nat.add_assoc]
    exact .ok (.success _ _)
  | some x => exact .ok (h.mismatch ε _ _ _)

theorem PR.oneOf (h : IsRest k e' e) (ε : ErrTy S) (items : List S.I) :
    PR P k (qOneOf e' ε items) (qOneOf e ε items) := by
  intro en i
  unfold qOneOf
  rw [h.source]
  split
  · split
    · exact .ok (.success _ _)
    · exact .ok (h.mismatch ε _ _ _)
  · exact .ok (h.mismatch ε _ _ _)

theorem PR.noneOf (h : IsRest k e' e) (ε : ErrTy S) (items : List S.I) :
    PR P k (qNoneOf e' ε items) (qNoneOf e ε items) := by
  intro en i
  unfold qNoneOf
  rw [h.source, h.location]
  split
  · split
    · exact .ok (h.mismatch ε _ _ _)
    · exact .ok (.success _ _)
  · exact .ok (.failed _ _ _)

variable {q q' : PSem E α}

theorem PR.map (hq : PR P k q q') (f : α → β) : PR P k (qMap f q) (qMap f q') := by
  intro en i
  refine (hq en i).bind ?_
  rintro _ _ (⟨o, j⟩ | ⟨o, es, j⟩ | ⟨x, es, j⟩)
  · exact .ok (.success _ _)
  · exact .ok (.recovered _ _ _)
  · exact .ok (.failed _ _ _)

theorem PR.mapWithSpan (h : IsRest k e' e) (hq : PR P k q q') (f : α → S.Span → β) :
    PR P k (qMapWithSpan e' f q) (qMapWithSpan e f q') := by
  intro en i
  refine (hq en i).bind ?_
  rintro _ _ (⟨o, j⟩ | ⟨o, es, j⟩ | ⟨x, es, j⟩)
  · dsimp only; rw [h.span]; exact .ok (.success _ _)
  · dsimp only; rw [h.span]; exact .ok (.recovered _ _ _)
  · exact .ok (.failed _ _ _)

theorem PR.mapErr {X : Type} {q q' : PSem X α} (hq : PR P k q q') (f : X → E) :
    PR P k (qMapErr f q) (qMapErr f q') := by
  intro en i
  refine (hq en i).bind ?_
  rintro _ _ (⟨o, j⟩ | ⟨o, es, j⟩ | ⟨x, es, j⟩)
  · exact .ok (.success _ _)
  · exact .ok (.recovered _ _ _)
  · exact .ok (.failed _ _ _)

theorem PR.mapErrWithSpan (h : IsRest k e' e) {X : Type} {q q' : PSem X α} (hq : PR P k q q')
    (f : X → S.Span → E) : PR P k (qMapErrWithSpan e' f q) (qMapErrWithSpan e f q') := by
  intro en i
  refine (hq en i).bind ?_
  rintro _ _ (⟨o, j⟩ | ⟨o, es, j⟩ | ⟨x, es, j⟩)
  · exact .ok (.success _ _)
  · dsimp only; rw [h.span]; exact .ok (.recovered _ _ _)
  · dsimp only; rw [h.span]; exact .ok (.failed _ _ _)

theorem tryMapStep_shift (h : IsRest k e' e) (f : α → S.Span → TryMapResult β E) (en : Bool)
    (i j : Nat) (a : α) : OLe P (RR k) (tryMapStep e' f en i j a) (tryMapStep e f en (k + i) (k + j) a) := by
  unfold tryMapStep
  rw [h.span]
  split
  · exact .ok (.success _ _)
  · split
    · exact .panic
    · exact .ok (.failed _ _ _)
  · split
    · exact .panic
    · split
      · exact .ok (.recovered _ _ _)
      · exact .ok (.failed _ _ _)

theorem PR.tryMap (h : IsRest k e' e) (hq : PR P k q q') (f : α → S.Span → TryMapResult β E) :
    PR P k (qTryMap e' f q) (qTryMap e f q') := by
  intro en i
  refine (hq en i).bind ?_
  rintro _ _ (⟨o, j⟩ | ⟨o, es, j⟩ | ⟨x, es, j⟩)
  · exact tryMapStep_shift h f en i j o
  · refine (tryMapStep_shift h f en i j o).bind ?_
    rintro _ _ (⟨o, j⟩ | ⟨o, es, j⟩ | ⟨x, es, j⟩)
    · exact .ok (.success _ _)
    · exact .ok (.recovered _ _ _)
    · exact .ok (.failed _ _ _)
  · exact .ok (.failed _ _ _)

theorem finishSem_shift (en : Bool) (o : α) (r : Option (List E)) (j : Nat) :
    OLe P (RR k) (finishSem en o r j) (finishSem en o r (k + j)) := by
  unfold finishSem
  split
  · split
    · exact .ok (.recovered _ _ _)
    · exact .panic
  · exact .ok (.success _ _)

/-- Lists of parsers. -/
inductive PRs (P : Prop) {E α : Type} (k : Nat) : List (PSem E α) → List (PSem E α) → Prop
  | nil : PRs P k [] []
  | cons {q q' qs qs'} : PR P k q q' → PRs P k qs qs' → PRs P k (q :: qs) (q' :: qs')

theorem concatRest_shift {qs qs' : List (PSem E α)} (hq : PRs P k qs qs') (en : Bool) (i0 : Nat) :
    ∀ out r i, OLe P (RR k) (concatRestSem en i0 qs out r i) (concatRestSem en (k + i0) qs' out r (k + i)) := by
  induction hq with
  | nil => intro out r i; exact finishSem_shift _ _ _ _
  | cons h1 _ ih =>
    intro out r i
    refine (h1 en i).bind ?_
    rintro _ _ (⟨o, j⟩ | ⟨o, es, j⟩ | ⟨x, es, j⟩)
    · exact ih _ _ _
    · exact ih _ _ _
    · exact .ok (.failed _ _ _)

theorem PRs.concat {qs qs' : List (PSem E α)} (hq : PRs P k qs qs') : PR P k (qConcat qs) (qConcat qs') := by
  intro en i
  cases hq with
  | nil => exact .ok (.success _ _)
  | cons h1 h2 =>
    refine (h1 en i).bind ?_
    rintro _ _ (⟨o, j⟩ | ⟨o, es, j⟩ | ⟨x, es, j⟩)
    · exact concatRest_shift h2 en i _ _ _
    · exact concatRest_shift h2 en i _ _ _
    · exact .ok (.failed _ _ _)

theorem concatLast_shift {qb qb' : PSem E β} (hb : PR P k qb qb') (en : Bool) (i0 : Nat) (f : β → γ)
    (r : Option (List E)) (i : Nat) :
    OLe P (RR k) (concatLastSem en i0 f qb r i) (concatLastSem en (k + i0) f qb' r (k + i)) := by
  refine (hb en i).bind ?_
  rintro _ _ (⟨o, j⟩ | ⟨o, es, j⟩ | ⟨x, es, j⟩)
  · exact finishSem_shift _ _ _ _
  · exact finishSem_shift _ _ _ _
  · exact .ok (.failed _ _ _)

theorem PR.concat2 {qb qb' : PSem E β} (ha : PR P k q q') (hb : PR P k qb qb') (f : α × β → γ) :
    PR P k (qConcat2 f q qb) (qConcat2 f q' qb') := by
  intro en i
  refine (ha en i).bind ?_
  rintro _ _ (⟨o, j⟩ | ⟨o, es, j⟩ | ⟨x, es, j⟩)
  · exact concatLast_shift hb en i _ _ _
  · exact concatLast_shift hb en i _ _ _
  · exact .ok (.failed _ _ _)

theorem concatMid_shift {qb qb' : PSem E β} {qc qc' : PSem E γ} (hb : PR P k qb qb') (hc : PR P k qc qc')
    (en : Bool) (i0 : Nat) (f : β × γ → δ) (r : Option (List E)) (i : Nat) :
    OLe P (RR k) (concatMidSem en i0 f qb qc r i) (concatMidSem en (k + i0) f qb' qc' r (k + i)) := by
  refine (hb en i).bind ?_
  rintro _ _ (⟨o, j⟩ | ⟨o, es, j⟩ | ⟨x, es, j⟩)
  · exact concatLast_shift hc en i0 _ _ _
  · exact concatLast_shift hc en i0 _ _ _
  · exact .ok (.failed _ _ _)

theorem PR.concat3 {qb qb' : PSem E β} {qc qc' : PSem E γ} (ha : PR P k q q') (hb : PR P k qb qb')
    (hc : PR P k qc qc') (f : α × β × γ → δ) : PR P k (qConcat3 f q qb qc) (qConcat3 f q' qb' qc') := by
  intro en i
  refine (ha en i).bind ?_
  rintro _ _ (⟨o, j⟩ | ⟨o, es, j⟩ | ⟨x, es, j⟩)
  · exact concatMid_shift hb hc en i _ _ _
  · exact concatMid_shift hb hc en i _ _ _
  · exact .ok (.failed _ _ _)

/-! ## Repetition -/

theorem repItem_shift (hq : PR P k q q') (cfg : RepCfg) (en : Bool) (i0 : Nat)
    {again again' : List α → Option (List E) → Nat → Out (Res (List α) E × Nat)}
    (hag : ∀ out r i, OLe P (RR k) (again out r i) (again' out r (k + i)))
    (out : List α) (r : Option (List E)) (b : Option Nat) (i : Nat) :
    OLe P (RR k) (repItemSem cfg q en i0 again out r b i)
      (repItemSem cfg q' en (k + i0) again' out r (b.map (k + ·)) (k + i)) := by
  unfold repItemSem
  split
  · exact finishSem_shift _ _ _ _
  · refine (hq _ i).bind ?_
    rintro _ _ (⟨o, j⟩ | ⟨o, es, j⟩ | ⟨x, es, j⟩)
    · exact hag _ _ _
    · exact hag _ _ _
    · dsimp only
      split
      · cases b with
        | none => exact .ok (.success _ _)
        | some b =>
          dsimp only [Option.map]
          split
          · exact .ok (.success _ _)
          · exact .ok (.success _ _)
      · exact .ok (.failed _ _ _)

/-- Optional separators. -/
inductive POpt (P : Prop) {E β : Type} (k : Nat) : Option (PSem E β) → Option (PSem E β) → Prop
  | none : POpt P k .none .none
  | some {p p' : PSem E β} : PR P k p p' → POpt P k (.some p) (.some p')

theorem repLoop_shift (hq : PR P k q q') (cfg : RepCfg) {sep sep' : Option (PSem E β)}
    (hs : POpt P k sep sep') (en : Bool) (i0 : Nat) : ∀ {n n' : Nat}, Bd P n n' → ∀ out r i,
    OLe P (RR k) (repLoopSem cfg q sep en i0 n out r i) (repLoopSem cfg q' sep' en (k + i0) n' out r (k + i)) := by
  intro n
  induction n with
  | zero =>
    intro n' hn out r i
    rcases hn.zero with rfl | hP
    · exact .oof2
    · exact .oof hP
  | succ n ih =>
    intro n' hn out r i
    obtain ⟨m, rfl, hm⟩ := hn.succ
    unfold repLoopSem
    have hag := fun out r i => ih hm out r i
    split
    · exact finishSem_shift _ _ _ _
    · cases hs with
      | none =>
        dsimp only
        exact repItem_shift hq cfg en i0 hag out r none i
      | some hs =>
        cases hb : (!out.isEmpty || cfg.allowLeading) with
        | false => exact repItem_shift hq cfg en i0 hag out r none i
        | true =>
          dsimp only
          refine (hs _ i).bind ?_
          rintro _ _ (⟨o, j⟩ | ⟨o, es, j⟩ | ⟨x, es, j⟩)
          · exact repItem_shift hq cfg en i0 hag out r (some i) j
          · exact repItem_shift hq cfg en i0 hag out _ (some i) j
          · dsimp only
            split
            · exact repItem_shift hq cfg en i0 hag out r (some i) j
            · split
              · exact .ok (.success _ _)
              · exact .ok (.failed _ _ _)

theorem PR.repeat_ (hq : PR P k q q') (cfg : RepCfg) {sep sep' : Option (PSem E β)}
    (hs : POpt P k sep sep') {n n' : Nat} (hn : Bd P n n') :
    PR P k (qRepeat n cfg q sep) (qRepeat n' cfg q' sep') :=
  fun en i => repLoop_shift hq cfg hs en i hn [] none i

/-! ## Choice -/

/-- Lists of failures. -/
inductive FRel (P : Prop) {E α : Type} (k : Nat) : List (FailSem E α) → List (FailSem E α) → Prop
  | nil : FRel P k [] []
  | cons {x es q q' fs fs'} : PR P k q q' → FRel P k fs fs' →
      FRel P k ((x, es, q) :: fs) ((k + x, es, q') :: fs')

theorem FRel.append {fs fs' gs gs' : List (FailSem E α)} (h : FRel P k fs fs') (h' : FRel P k gs gs') :
    FRel P k (fs ++ gs) (fs' ++ gs') := by
  induction h with
  | nil => exact h'
  | cons h1 _ ih => exact .cons h1 ih

theorem FRel.insert {x : Nat} {es : List E} (hq : PR P k q q') {fs fs' : List (FailSem E α)}
    (h : FRel P k fs fs') : FRel P k (insertDesc (x, es, q) fs) (insertDesc (k + x, es, q') fs') := by
  induction h with
  | nil => exact .cons hq .nil
  | @cons y es' p p' fs fs' h1 h2 ih =>
    unfold insertDesc
    by_cases hlt : y < x
    · rw [if_pos hlt, if_pos (by show k + y < k + x; omega)]
      exact .cons hq (.cons h1 h2)
    · rw [if_neg hlt, if_neg (by show ¬k + y < k + x; omega)]
      exact .cons h1 ih

theorem FRel.sort_aux {fs fs' : List (FailSem E α)} (h : FRel P k fs fs') :
    ∀ {acc acc' : List (FailSem E α)}, FRel P k acc acc' →
    FRel P k (fs.foldl (fun acc x => insertDesc x acc) acc) (fs'.foldl (fun acc x => insertDesc x acc) acc') := by
  induction h with
  | nil => intro acc acc' h; exact h
  | cons h1 _ ih => intro acc acc' h; exact ih (FRel.insert h1 h)

theorem FRel.sort {fs fs' : List (FailSem E α)} (h : FRel P k fs fs') :
    FRel P k (sortDesc fs) (sortDesc fs') := h.sort_aux .nil

/-- Outcome of the first pass. -/
inductive AR (P : Prop) {E α : Type} (k : Nat) : (α ⊕ List (FailSem E α)) × Nat → (α ⊕ List (FailSem E α)) × Nat → Prop
  | inl (o : α) (j : Nat) : AR P k (.inl o, j) (.inl o, k + j)
  | inr {fs fs'} (j : Nat) : FRel P k fs fs' → AR P k (.inr fs, j) (.inr fs', k + j)

theorem altFirst_shift {qs qs' : List (PSem E α)} (hq : PRs P k qs qs') :
    ∀ {fs fs'}, FRel P k fs fs' → ∀ i, OLe P (AR P k) (altFirstSem qs fs i) (altFirstSem qs' fs' (k + i)) := by
  induction hq with
  | nil => intro fs fs' h i; exact .ok (.inr _ h)
  | cons h1 _ ih =>
    intro fs fs' h i
    refine (h1 false i).bind ?_
    rintro _ _ (⟨o, j⟩ | ⟨o, es, j⟩ | ⟨x, es, j⟩)
    · exact .ok (.inl _ _)
    · exact .panic
    · exact ih (h.append (.cons h1 .nil)) _

/-- Outcome of the recovery pass. -/
inductive AR2 {E α : Type} (k : Nat) : Option (Res α E) × Nat → Option (Res α E) × Nat → Prop
  | none (j : Nat) : AR2 k (none, j) (none, k + j)
  | some (o : α) (es : List E) (j : Nat) : AR2 k (some (.recovered o es), j) (some (.recovered o es), k + j)

theorem altRecover_shift {fs fs' : List (FailSem E α)} (h : FRel P k fs fs') :
    ∀ i, OLe P (AR2 k) (altRecoverSem fs i) (altRecoverSem fs' (k + i)) := by
  induction h with
  | nil => intro i; exact .ok (.none _)
  | cons h1 _ ih =>
    intro i
    refine (h1 true i).bind ?_
    rintro _ _ (⟨o, j⟩ | ⟨o, es, j⟩ | ⟨x, es, j⟩)
    · exact .panic
    · exact .ok (.some _ _ _)
    · exact ih _

theorem FRel.keys {fs fs' : List (FailSem E α)} (h : FRel P k fs fs') :
    fs'.map (fun f => (f.1, f.2.1)) = (fs.map fun f => (f.1, f.2.1)).map fun x => (k + x.1, x.2) := by
  induction h with
  | nil => rfl
  | cons h1 _ ih => simp [ih]

theorem altCombine_shift (ε : ErrTy S) (fs : List (Nat × List ε.E)) (i : Nat) :
    OLe P (RR k) (altCombineSem (α := α) ε fs i)
      (altCombineSem (α := α) ε (fs.map fun x => (k + x.1, x.2)) (k + i)) := by
  cases fs with
  | nil => exact .panic
  | cons f rest =>
    obtain ⟨x, es⟩ := f
    have hsec : ∀ rest : List (Nat × List ε.E), OLe P (RR k)
        (match rest with
          | (x, es) :: _ => Out.ok ((.failed x es : Res α ε.E), i)
          | [] => .panic "called `Option::unwrap()` on a `None` value")
        (match rest.map fun x => (k + x.1, x.2) with
          | (x, es) :: _ => Out.ok ((.failed x es : Res α ε.E), k + i)
          | [] => .panic "called `Option::unwrap()` on a `None` value") := by
      intro rest
      cases rest with
      | nil => exact .panic
      | cons f rest => exact .ok (.failed _ _ _)
    have hflat : (rest.map fun x => (k + x.1, x.2)).flatMap (·.2) = rest.flatMap (·.2) := by
      induction rest with
      | nil => rfl
      | cons f rest ih => simp [ih]
    match es with
    | [] => exact hsec rest
    | [d] =>
      simp only [altCombineSem, List.map_cons]
      cases hd : ε.isExpectedFound d with
      | true =>
        simp only [if_true]
        rw [hflat]
        exact .ok (.failed _ _ _)
      | false =>
        simp only [Bool.false_eq_true, if_false]
        exact hsec rest
    | d :: d' :: ds => exact hsec rest

theorem FRel.isEmpty {fs fs' : List (FailSem E α)} (h : FRel P k fs fs') : fs'.isEmpty = fs.isEmpty := by
  cases h <;> rfl

theorem PRs.alternate (ε : ErrTy S) {qs qs' : List (PSem ε.E α)} (hq : PRs P k qs qs') :
    PR P k (qAlternate ε qs) (qAlternate ε qs') := by
  intro en i
  refine (altFirst_shift hq .nil i).bind ?_
  rintro _ _ (⟨o, j⟩ | ⟨j, hf⟩)
  · exact .ok (.success _ _)
  · dsimp only
    rw [hf.isEmpty]
    split
    · exact .panic
    · split
      · refine (altRecover_shift hf.sort j).bind ?_
        rintro _ _ (⟨l⟩ | ⟨o, es, l⟩)
        · dsimp only
          rw [hf.sort.keys]
          exact altCombine_shift ε _ _
        · exact .ok (.recovered _ _ _)
      · rw [hf.sort.keys]
        exact altCombine_shift ε _ _

/-! ## Recovery -/

theorem TR.orElse {s s' t t' : SSem E α} (hs : TR P k s s') (ht : TR P k t t') :
    TR P k (s.orElse t) (s'.orElse t') := by
  intro q q' hq st fa es i
  refine (hs q q' hq st fa es i).bind ?_
  rintro _ _ ⟨o, fa', es', j⟩
  cases o with
  | none => exact ht q q' hq st fa' es' j
  | some o => exact .ok (.mk _ _ _ _)

theorem giveUp_shift (fa : Nat) (es : List E) (j : Nat) :
    OLe P (SR k) (giveUp fa es j : Out ((Option α × Nat × List E) × Nat)) (giveUp (k + fa) es (k + j)) :=
  .ok (.mk _ _ _ _)

theorem findSem_shift (h : IsRest k e' e) (p : S.I → Bool) : ∀ {n n' : Nat}, Bd P n n' → ∀ i,
    OLe P (fun j j' => j' = k + j) (findSem e' p n i) (findSem e p n' (k + i)) := by
  intro n
  induction n with
  | zero =>
    intro n' hn i
    rcases hn.zero with rfl | hP
    · exact .oof2
    · exact .oof hP
  | succ n ih =>
    intro n' hn i
    obtain ⟨m, rfl, hm⟩ := hn.succ
    unfold findSem
    rw [h.tokIs, h.next]
    split
    · exact .ok rfl
    · exact ih hm _

theorem scanSem_shift (h : IsRest k e' e) (sc : Scanner S E) : ∀ {n n' : Nat}, Bd P n n' → ∀ st es i,
    OLe P (fun x y => y.1 = x.1 ∧ y.2 = k + x.2) (scanSem e' sc n st es i) (scanSem e sc n' st es (k + i)) := by
  intro n
  induction n with
  | zero =>
    intro n' hn st es i
    rcases hn.zero with rfl | hP
    · exact .oof2
    · exact .oof hP
  | succ n ih =>
    intro n' hn st es i
    obtain ⟨m, rfl, hm⟩ := hn.succ
    unfold scanSem
    rw [h.source, h.here, h.location]
    split
    · split
      · exact .panic
      · exact .ok ⟨rfl, rfl⟩
      · exact ih hm _ _ _
    · exact .ok ⟨rfl, rfl⟩

theorem whileNot_shift (h : IsRest k e' e) (p : S.I → Bool) {s s' : SSem E α} (hs : TR P k s s')
    (hq : PR P k q q') (st : Nat) : ∀ {n n' : Nat}, Bd P n n' → ∀ fa es i,
    OLe P (SR k) (whileNotSem e' p s q st n fa es i) (whileNotSem e p s' q' (k + st) n' (k + fa) es (k + i)) := by
  intro n
  induction n with
  | zero =>
    intro n' hn fa es i
    rcases hn.zero with rfl | hP
    · exact .oof2
    · exact .oof hP
  | succ n ih =>
    intro n' hn fa es i
    obtain ⟨m, rfl, hm⟩ := hn.succ
    unfold whileNotSem
    rw [h.tokIs]
    split
    · exact giveUp_shift _ _ _
    · refine (hs q q' hq st fa es i).bind ?_
      rintro _ _ ⟨o, fa', es', j⟩
      cases o with
      | none =>
        dsimp only
        rw [h.next]
        exact ih hm _ _ _
      | some o => exact .ok (.mk _ _ _ _)

theorem saveAt_shift (x i : Nat) :
    OLe P (fun j j' => j' = k + j) (saveAtSem x i) (saveAtSem (k + x) (k + i)) := by
  unfold saveAtSem
  by_cases hlt : x < i
  · rw [if_pos hlt, if_pos (by omega)]; exact .panic
  · rw [if_neg hlt, if_neg (by omega)]; exact .ok rfl

theorem runIn_shift (hq : PR P k q q') (exact_ silent : Bool) (fa : Nat) (es : List E) (i : Nat) :
    OLe P (SR k) (runInSem q exact_ silent fa es i) (runInSem q' exact_ silent (k + fa) es (k + i)) := by
  refine (hq _ i).bind ?_
  rintro _ _ (⟨o, j⟩ | ⟨o, es, j⟩ | ⟨x, es, j⟩)
  · exact .ok (.mk _ _ _ _)
  · exact .ok (.mk _ _ _ _)
  · refine (saveAt_shift x j).bind ?_
    rintro y _ rfl
    exact giveUp_shift _ _ _

theorem PR.toRecover (hq : PR P k q q') {s s' : SSem E α} (hs : TR P k s s') :
    PR P k (qToRecover q s) (qToRecover q' s') := by
  intro en i
  refine (hq en i).bind ?_
  rintro _ _ (⟨o, j⟩ | ⟨o, es, j⟩ | ⟨x, es, j⟩)
  · exact .ok (.success _ _)
  · exact .ok (.recovered _ _ _)
  · dsimp only
    split
    · exact .ok (.failed _ _ _)
    · refine (saveAt_shift x j).bind ?_
      rintro fa _ rfl
      refine (hs q q' hq j fa es j).bind ?_
      rintro _ _ ⟨o, fa', es', l⟩
      cases o with
      | none => exact .ok (.failed _ _ _)
      | some o => exact .ok (.recovered _ _ _)

end

/-! ## Grammars -/

section

variable {P : Prop} {k n n' : Nat} {e' e : Env S} {ρ ρ' : QEnv S N}

mutual

theorem G.shift (h : IsRest k e' e) (hn : Bd P n n') (hρ : ∀ x, PR P k (ρ x) (ρ' x)) :
    ∀ {ε : ErrTy S} {α : Type} (g : G S N ε α), PR P k (g.den e' ρ n) (g.den e ρ' n')
  | _, _, .empty => by unfold G.den; exact .empty
  | _, _, .none _ => by unfold G.den; exact .none_
  | ε, _, .eof => by unfold G.den; exact .end_ h ε
  | ε, _, .just t => by unfold G.den; exact .just h ε t
  | ε, _, .filter p => by unfold G.den; exact .filter h ε p
  | ε, _, .filterMap f => by unfold G.den; exact .filterMap h ε f
  | ε, _, .seq v items => by unfold G.den; exact .seq h ε v items
  | ε, _, .oneOf items => by unfold G.den; exact .oneOf h ε items
  | ε, _, .noneOf items => by unfold G.den; exact .noneOf h ε items
  | _, _, .boxed g => by unfold G.den; exact G.shift h hn hρ g
  | _, _, .withError g => by unfold G.den; exact G.shift h hn hρ g
  | _, _, .to g v => by unfold G.den; exact (G.shift h hn hρ g).map _
  | _, _, .some g => by unfold G.den; exact (G.shift h hn hρ g).map _
  | _, _, .map f g => by unfold G.den; exact (G.shift h hn hρ g).map _
  | _, _, .mapWithSpan f g => by unfold G.den; exact (G.shift h hn hρ g).mapWithSpan h _
  | _, _, .mapErr f g => by unfold G.den; exact (G.shift h hn hρ g).mapErr _
  | _, _, .mapErrWithSpan f g => by unfold G.den; exact (G.shift h hn hρ g).mapErrWithSpan h _
  | _, _, .tryMap f g => by unfold G.den; exact (G.shift h hn hρ g).tryMap h _
  | _, _, .then_ a b => by unfold G.den; exact (G.shift h hn hρ a).concat2 (G.shift h hn hρ b) _
  | _, _, .thenIgnore a b => by unfold G.den; exact (G.shift h hn hρ a).concat2 (G.shift h hn hρ b) _
  | _, _, .ignoreThen a b => by unfold G.den; exact (G.shift h hn hρ a).concat2 (G.shift h hn hρ b) _
  | _, _, .delimitedBy l m r => by
    unfold G.den; exact (G.shift h hn hρ l).concat3 (G.shift h hn hρ m) (G.shift h hn hρ r) _
  | _, _, .paddedBy p m => by
    unfold G.den; exact (G.shift h hn hρ p).concat3 (G.shift h hn hρ m) (G.shift h hn hρ p) _
  | _, _, .chain gs => by unfold G.den; exact (GL.shift h hn hρ gs).concat
  | ε, _, .or a b => by
    unfold G.den; exact PRs.alternate ε (.cons (G.shift h hn hρ a) (.cons (G.shift h hn hρ b) .nil))
  | ε, _, .orNot g => by
    unfold G.den; exact PRs.alternate ε (.cons ((G.shift h hn hρ g).map _) (.cons .none_ .nil))
  | ε, _, .alters gs => by unfold G.den; exact PRs.alternate ε (GL.shift h hn hρ gs)
  | _, _, .repeated cfg item => by
    unfold G.den; exact (G.shift h hn hρ item).repeat_ cfg .none hn
  | _, _, .separatedBy cfg item sep => by
    unfold G.den; exact (G.shift h hn hρ item).repeat_ cfg (.some (G.shift h hn hρ sep)) hn
  | _, _, .toRecover g st => by unfold G.den; exact (G.shift h hn hρ g).toRecover (CS.shift h hn hρ st)
  | _, _, .call x => by unfold G.den; exact hρ x

theorem GL.shift (h : IsRest k e' e) (hn : Bd P n n') (hρ : ∀ x, PR P k (ρ x) (ρ' x)) :
    ∀ {ε : ErrTy S} {α : Type} (gs : GL S N ε α), PRs P k (gs.den e' ρ n) (gs.den e ρ' n')
  | _, _, .nil => by unfold GL.den; exact .nil
  | _, _, .cons g gs => by unfold GL.den; exact .cons (G.shift h hn hρ g) (GL.shift h hn hρ gs)

theorem IS.shift (h : IsRest k e' e) (hn : Bd P n n') (hρ : ∀ x, PR P k (ρ x) (ρ' x)) :
    ∀ {ε : ErrTy S} {α : Type} (s : IS S N ε α), TR P k (s.den e' ρ n) (s.den e ρ' n')
  | _, _, .attemptTo => by unfold IS.den; exact fun _ _ _ _ _ _ _ => giveUp_shift _ _ _
  | _, _, .restart s => by
    unfold IS.den; exact (IS.shift h hn hρ s).orElse fun _ _ _ _ _ _ _ => giveUp_shift _ _ _
  | _, _, .seekToFailed s => by
    unfold IS.den; exact (IS.shift h hn hρ s).orElse fun _ _ _ _ _ _ _ => giveUp_shift _ _ _
  | _, _, .skip s => by
    unfold IS.den
    refine (IS.shift h hn hρ s).orElse fun _ _ _ _ _ _ _ => ?_
    rw [h.next]; exact giveUp_shift _ _ _
  | _, _, .skipIf s p => by
    unfold IS.den
    refine (IS.shift h hn hρ s).orElse fun _ _ _ _ _ _ i => ?_
    rw [h.tokIs]
    split
    · exact giveUp_shift _ _ _
    · exact giveUp_shift _ _ _
  | _, _, .find s p => by
    unfold IS.den
    refine (IS.shift h hn hρ s).orElse fun _ _ _ _ _ _ i => ?_
    refine (findSem_shift h p hn i).bind ?_
    rintro j _ rfl
    exact giveUp_shift _ _ _
  | _, _, .scan s sc => by
    unfold IS.den
    refine (IS.shift h hn hρ s).orElse fun _ _ _ _ _ es i => ?_
    refine (scanSem_shift h sc hn sc.fresh es i).bind ?_
    rintro ⟨es', j⟩ ⟨_, _⟩ ⟨h1, h2⟩
    dsimp only at h1 h2
    subst h1 h2
    exact giveUp_shift _ _ _
  | _, _, .maybe s t => by
    unfold IS.den
    refine (IS.shift h hn hρ s).orElse fun q q' hq st fa es i => ?_
    refine (IS.shift h hn hρ t q q' hq st fa es i).bind ?_
    rintro _ _ ⟨o, fa', es', j⟩
    cases o with
    | none => exact .ok (.mk _ _ _ _)
    | some o => exact .ok (.mk _ _ _ _)
  | _, _, .whileNot s p t => by
    unfold IS.den
    exact (IS.shift h hn hρ s).orElse fun q q' hq st fa es i =>
      whileNot_shift h p (IS.shift h hn hρ t) hq st hn fa es i
  | _, _, .retry s ex si => by
    unfold IS.den
    exact (IS.shift h hn hρ s).orElse fun q q' hq st fa es i => runIn_shift hq ex si fa es i
  | _, _, .tryToParse s g ex si => by
    unfold IS.den
    exact (IS.shift h hn hρ s).orElse fun _ _ _ st fa es i => runIn_shift (G.shift h hn hρ g) ex si fa es i
  | _, _, .pushError s f => by
    unfold IS.den; exact (IS.shift h hn hρ s).orElse fun _ _ _ _ _ _ _ => giveUp_shift _ _ _
  | _, _, .pushErrorHere s f => by
    unfold IS.den
    refine (IS.shift h hn hρ s).orElse fun _ _ _ _ _ _ _ => ?_
    rw [h.location]; exact giveUp_shift _ _ _
  | _, _, .pushErrorUpToHere s f => by
    unfold IS.den
    refine (IS.shift h hn hρ s).orElse fun _ _ _ _ _ _ _ => ?_
    rw [h.span]; exact giveUp_shift _ _ _
  | _, _, .pushErrorForToken s f => by
    unfold IS.den
    refine (IS.shift h hn hρ s).orElse fun _ _ _ _ _ _ _ => ?_
    rw [h.source, h.here]; exact giveUp_shift _ _ _
  | _, _, .updateErrors s f => by
    unfold IS.den; exact (IS.shift h hn hρ s).orElse fun _ _ _ _ _ _ _ => giveUp_shift _ _ _
  | _, _, .updateErrorsHere s f => by
    unfold IS.den
    refine (IS.shift h hn hρ s).orElse fun _ _ _ _ _ _ _ => ?_
    rw [h.location]; exact giveUp_shift _ _ _
  | _, _, .updateErrorsUpToHere s f => by
    unfold IS.den
    refine (IS.shift h hn hρ s).orElse fun _ _ _ _ _ _ _ => ?_
    rw [h.span]; exact giveUp_shift _ _ _
  | _, _, .updateErrorsForToken s f => by
    unfold IS.den
    refine (IS.shift h hn hρ s).orElse fun _ _ _ _ _ _ _ => ?_
    rw [h.source, h.here]; exact giveUp_shift _ _ _
  | _, _, .boxed s => by unfold IS.den; exact IS.shift h hn hρ s

theorem CS.shift (h : IsRest k e' e) (hn : Bd P n n') (hρ : ∀ x, PR P k (ρ x) (ρ' x)) :
    ∀ {ε : ErrTy S} {α : Type} (s : CS S N ε α), TR P k (s.den e' ρ n) (s.den e ρ' n')
  | _, _, .ret s o => by
    unfold CS.den; exact (IS.shift h hn hρ s).orElse fun _ _ _ _ _ _ _ => .ok (.mk _ _ _ _)
  | _, _, .retWith s o => by
    unfold CS.den; exact (IS.shift h hn hρ s).orElse fun _ _ _ _ _ _ _ => .ok (.mk _ _ _ _)
  | _, _, .retWithSpan s f => by
    unfold CS.den
    refine (IS.shift h hn hρ s).orElse fun _ _ _ _ _ _ _ => ?_
    rw [h.span]; exact .ok (.mk _ _ _ _)
  | _, _, .orFail s => by unfold CS.den; exact IS.shift h hn hρ s

end

theorem callSem_shift (h : IsRest k e' e) (D : Defs S N) : ∀ {n n' : Nat}, Bd P n n' →
    ∀ x, PR P k (callSem e' D n x) (callSem e D n' x) := by
  intro n
  induction n with
  | zero =>
    intro n' hn x en i
    rcases hn.zero with rfl | hP
    · exact .oof2
    · exact .oof hP
  | succ n ih =>
    intro n' hn x en i
    obtain ⟨m, rfl, hm⟩ := hn.succ
    unfold callSem
    cases D x with
    | none => exact .panic
    | some g => exact G.shift h hm (ih hm) g en i

/-- Evaluating in the rest of the input, with a smaller bound. -/
theorem G.sem_shift (h : IsRest k e' e) (D : Defs S N) (hn : Bd P n n') {ε : ErrTy S} {α : Type}
    (g : G S N ε α) (en : Bool) (i : Nat) :
    OLe P (RR k) (g.sem e' D n en i) (g.sem e D n' en (k + i)) :=
  G.shift h hn (callSem_shift h D hn) g en i

theorem RR.eq_zero {α E : Type} {x y : Res α E × Nat} (h : RR 0 x y) : y = x := by
  cases h <;> simp

theorem OLe.eq_zero {α E : Type} {a b : Out (Res α E × Nat)} (h : OLe P (RR 0) a b) (ha : a ≠ .oof) :
    b = a := by
  cases h with
  | oof => exact (ha rfl).elim
  | oof2 => rfl
  | ok h => rw [h.eq_zero]
  | panic => rfl
  | stuck => rfl

/-- Evaluating with a larger bound. -/
theorem G.sem_mono (e : Env S) (D : Defs S N) (hn : n ≤ n') {ε : ErrTy S} {α : Type}
    (g : G S N ε α) (en : Bool) (i : Nat) (h : g.sem e D n en i ≠ .oof) :
    g.sem e D n' en i = g.sem e D n en i := by
  have h1 := G.sem_shift (P := True) (IsRest.refl e) D (.inr ⟨trivial, hn⟩) g en i
  rw [Nat.zero_add] at h1
  exact h1.eq_zero h

end

end PPC
