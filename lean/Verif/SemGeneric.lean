import Verif.SpecGeneric
import Verif.Sem
import Verif.ParserBase

/-!
# Corresponding parsers compute corresponding results

One lemma per function of the positional semantics.
-/

namespace PPC.Generic

/-- Corresponding outcomes. -/
inductive OutR {α β : Type} (R : α → β → Prop) : Out α → Out β → Prop
  | ok {a : α} {b : β} (h : R a b) : OutR R (.ok a) (.ok b)
  | panic (m : String) : OutR R (.panic m) (.panic m)
  | oof : OutR R .oof .oof
  | stuck : OutR R .stuck .stuck

theorem OutR.bind {α β γ δ : Type} {R : α → β → Prop} {Q : γ → δ → Prop} {x : Out α} {y : Out β} {f : α → Out γ}
    {g : β → Out δ} (h : OutR R x y) (hf : ∀ a b, R a b → OutR Q (f a) (g b)) : OutR Q (x >>= f) (y >>= g) := by
  cases h with
  | ok h => exact hf _ _ h
  | panic m => exact .panic m
  | oof => exact .oof
  | stuck => exact .stuck

/-! ## Lists -/

section

variable {α β γ δ : Type} {R : α → β → Prop} {Q : γ → δ → Prop}

theorem ListR.append {as as' : List α} {bs bs' : List β} (h : ListR R as bs) (h' : ListR R as' bs') :
    ListR R (as ++ as') (bs ++ bs') := by
  induction h with
  | nil => exact h'
  | cons h1 _ ih => exact .cons h1 ih

theorem ListR.single {a : α} {b : β} (h : R a b) : ListR R [a] [b] := .cons h .nil

theorem ListR.length {as : List α} {bs : List β} (h : ListR R as bs) : as.length = bs.length := by
  induction h with
  | nil => rfl
  | cons _ _ ih => simp [ih]

theorem ListR.isEmpty {as : List α} {bs : List β} (h : ListR R as bs) : as.isEmpty = bs.isEmpty := by
  cases h <;> rfl

theorem ListR.map {as : List α} {bs : List β} {f : α → γ} {g : β → δ} (h : ListR R as bs)
    (hf : ∀ a b, R a b → Q (f a) (g b)) : ListR Q (as.map f) (bs.map g) := by
  induction h with
  | nil => exact .nil
  | cons h1 _ ih => exact .cons (hf _ _ h1) ih

theorem ListR.any {as : List α} {bs : List β} {p : α → Bool} {q : β → Bool} (h : ListR R as bs)
    (hp : ∀ a b, R a b → p a = q b) : as.any p = bs.any q := by
  induction h with
  | nil => rfl
  | cons h1 _ ih => simp [hp _ _ h1, ih]

theorem ListR.foldl {as : List α} {bs : List β} {f : γ → α → γ} {g : δ → β → δ} (h : ListR R as bs)
    (hf : ∀ x y a b, Q x y → R a b → Q (f x a) (g y b)) : ∀ {x : γ} {y : δ}, Q x y → Q (as.foldl f x) (bs.foldl g y) := by
  induction h with
  | nil => exact fun h => h
  | cons h1 _ ih => exact fun h => ih (hf _ _ _ _ h h1)

theorem OptR.isSome {a : Option α} {b : Option β} (h : OptR R a b) : a.isSome = b.isSome := by cases h <;> rfl

theorem OptR.isNone {a : Option α} {b : Option β} (h : OptR R a b) : a.isNone = b.isNone := by cases h <;> rfl

end

variable {S S' : Sig} {ρ : SigRel S S'} {e : Env S} {e' : Env S'}

/-! ## Inputs -/

/-- Trackers that respect relations between their states have corresponding places. -/
theorem EnvR.of_trackers {T : S.L → S'.L → Prop} (hs : ∀ i, OptR ρ.tok (e.source i) (e'.source i))
    (h0 : T e.start e'.start) (ha : ∀ l l' t t', T l l' → ρ.tok t t' → T (S.advance l t) (S'.advance l' t'))
    (hl : ∀ l l' i, T l l' → ρ.loc (S.location l i) (S'.location l' i))
    (hp : ∀ l l' m m' i j, T l l' → T m m' → ρ.span (S.spanningTo l i m j) (S'.spanningTo l' i m' j)) :
    EnvR ρ e e' := by
  have h : ∀ i, T (e.trackerAt i) (e'.trackerAt i) := by
    intro i
    induction i with
    | zero => exact h0
    | succ i ih =>
      have h1 := hs i
      simp only [Env.trackerAt]
      revert h1
      cases e.source i <;> cases e'.source i <;> intro h1 <;> cases h1
      · exact ih
      · rename_i h1; exact ha _ _ _ _ ih h1
  exact ⟨hs, fun i => hl _ _ i (h i), fun i j => hp _ _ _ _ i j (h i) (h j)⟩

theorem EnvR.next (h : EnvR ρ e e') (i : Nat) : e.next i = e'.next i := by
  simp only [Env.next, (h.source i).isSome]

theorem EnvR.here (h : EnvR ρ e e') (i : Nat) : ρ.span (e.here i) (e'.here i) := by
  simp only [Env.here, h.next i]
  exact h.spanOf _ _

theorem EnvR.valid (h : EnvR ρ e e') {i : Nat} : Valid e i ↔ Valid e' i := by
  simp only [Valid, (h.source _).isSome]

theorem EnvR.tokIs (h : EnvR ρ e e') {p : S.I → Bool} {p' : S'.I → Bool} (hp : PredR ρ p p') (b : Bool) (i : Nat) :
    e.tokIs p b i = e'.tokIs p' b i := by
  have h1 := h.source i
  simp only [Env.tokIs]
  revert h1
  cases e.source i <;> cases e'.source i <;> intro h1 <;> cases h1
  · rfl
  · rename_i h1; exact hp _ _ h1

theorem isTok_rel {a : Option S.I} {a' : Option S'.I} {b : S.I} {b' : S'.I} (h : OptR ρ.tok a a') (hb : ρ.tok b b') :
    isTok S a b = isTok S' a' b' := by
  cases h with
  | none => rfl
  | some h => simp only [isTok]; exact ρ.eqI h hb

/-! ## Parsers and strategies -/

section

variable {α α' β β' γ γ' δ δ' E E' : Type}

/-- Corresponding results that end at the same position. -/
inductive RV (A : α → α' → Prop) (R : E → E' → Prop) : Res α E × Nat → Res α' E' × Nat → Prop
  | success {o o'} (j : Nat) (h : A o o') : RV A R (.success o, j) (.success o', j)
  | recovered {o o' es es'} (j : Nat) (h : A o o') (hs : ListR R es es') :
      RV A R (.recovered o es, j) (.recovered o' es', j)
  | failed {es es'} (x j : Nat) (hs : ListR R es es') : RV A R (.failed x es, j) (.failed x es', j)

/-- Corresponding parsers. -/
def PR (A : α → α' → Prop) (R : E → E' → Prop) (q : PSem E α) (q' : PSem E' α') : Prop :=
  ∀ en i, OutR (RV A R) (q en i) (q' en i)

/-- Corresponding answers of strategies. -/
inductive SV (A : α → α' → Prop) (R : E → E' → Prop) :
    (Option α × Nat × List E) × Nat → (Option α' × Nat × List E') × Nat → Prop
  | mk {o o' es es'} (fa j : Nat) (h : OptR A o o') (hs : ListR R es es') : SV A R ((o, fa, es), j) ((o', fa, es'), j)

/-- Corresponding strategies. -/
def SR (A : α → α' → Prop) (R : E → E' → Prop) (s : SSem E α) (s' : SSem E' α') : Prop :=
  ∀ q q', PR A R q q' → ∀ st fa es es' i, ListR R es es' → OutR (SV A R) (s q st fa es i) (s' q' st fa es' i)

variable {A : α → α' → Prop} {B : β → β' → Prop} {C : γ → γ' → Prop} {F : δ → δ' → Prop} {R : E → E' → Prop}
variable {q : PSem E α} {q' : PSem E' α'} {qb : PSem E β} {qb' : PSem E' β'} {qc : PSem E γ} {qc' : PSem E' γ'}

theorem PR.none_ : PR (OptR A) R qNone qNone := fun _ _ => .ok (.success _ .none)

theorem PR.empty_ {A : Unit → Unit → Prop} (h : A () ()) : PR A R qEmpty qEmpty := fun _ _ => .ok (.success _ h)

theorem PR.map {f : α → β} {f' : α' → β'} (hf : ∀ a a', A a a' → B (f a) (f' a')) (h : PR A R q q') :
    PR B R (qMap f q) (qMap f' q') := by
  intro en i
  refine (h en i).bind ?_
  rintro _ _ (⟨j, h⟩ | ⟨j, h, hs⟩ | ⟨x, j, hs⟩)
  · exact .ok (.success _ (hf _ _ h))
  · exact .ok (.recovered _ (hf _ _ h) hs)
  · exact .ok (.failed _ _ hs)

theorem PR.mapWithSpan (he : EnvR ρ e e') {f : α → S.Span → β} {f' : α' → S'.Span → β'}
    (hf : ∀ a a' s s', A a a' → ρ.span s s' → B (f a s) (f' a' s')) (h : PR A R q q') :
    PR B R (qMapWithSpan e f q) (qMapWithSpan e' f' q') := by
  intro en i
  refine (h en i).bind ?_
  rintro _ _ (⟨j, h⟩ | ⟨j, h, hs⟩ | ⟨x, j, hs⟩)
  · exact .ok (.success _ (hf _ _ _ _ h (he.spanOf _ _)))
  · exact .ok (.recovered _ (hf _ _ _ _ h (he.spanOf _ _)) hs)
  · exact .ok (.failed _ _ hs)

theorem PR.mapErr {X X' : Type} {T : X → X' → Prop} {q : PSem X α} {q' : PSem X' α'} {f : X → E} {f' : X' → E'}
    (hf : ∀ x x', T x x' → R (f x) (f' x')) (h : PR A T q q') : PR A R (qMapErr f q) (qMapErr f' q') := by
  intro en i
  refine (h en i).bind ?_
  rintro _ _ (⟨j, h⟩ | ⟨j, h, hs⟩ | ⟨x, j, hs⟩)
  · exact .ok (.success _ h)
  · exact .ok (.recovered _ h (hs.map hf))
  · exact .ok (.failed _ _ (hs.map hf))

theorem PR.mapErrWithSpan (he : EnvR ρ e e') {X X' : Type} {T : X → X' → Prop} {q : PSem X α} {q' : PSem X' α'}
    {f : X → S.Span → E} {f' : X' → S'.Span → E'} (hf : ∀ x x' s s', T x x' → ρ.span s s' → R (f x s) (f' x' s'))
    (h : PR A T q q') : PR A R (qMapErrWithSpan e f q) (qMapErrWithSpan e' f' q') := by
  intro en i
  refine (h en i).bind ?_
  rintro _ _ (⟨j, h⟩ | ⟨j, h, hs⟩ | ⟨x, j, hs⟩)
  · exact .ok (.success _ h)
  · exact .ok (.recovered _ h (hs.map fun _ _ h => hf _ _ _ _ h (he.spanOf _ _)))
  · exact .ok (.failed _ _ (hs.map fun _ _ h => hf _ _ _ _ h (he.spanOf _ _)))

theorem tryMapStep_rel (he : EnvR ρ e e') {f : α → S.Span → TryMapResult β E} {f' : α' → S'.Span → TryMapResult β' E'}
    (hf : ∀ a a' s s', A a a' → ρ.span s s' → TryR B R (f a s) (f' a' s')) (en : Bool) (i j : Nat) {a : α} {a' : α'}
    (h : A a a') : OutR (RV B R) (tryMapStep e f en i j a) (tryMapStep e' f' en i j a') := by
  have h1 := hf a a' _ _ h (he.spanOf i j)
  simp only [tryMapStep]
  revert h1
  generalize f a (e.spanOf i j) = r, f' a' (e'.spanOf i j) = r'
  intro h1
  cases h1 with
  | ok h => exact .ok (.success _ h)
  | err h =>
    simp only [h.isEmpty]
    split
    · exact .panic _
    · exact .ok (.failed _ _ h)
  | recovered h hs =>
    simp only [hs.isEmpty]
    split
    · exact .panic _
    · split
      · exact .ok (.recovered _ h hs)
      · exact .ok (.failed _ _ hs)

theorem PR.tryMap (he : EnvR ρ e e') {f : α → S.Span → TryMapResult β E} {f' : α' → S'.Span → TryMapResult β' E'}
    (hf : ∀ a a' s s', A a a' → ρ.span s s' → TryR B R (f a s) (f' a' s')) (h : PR A R q q') :
    PR B R (qTryMap e f q) (qTryMap e' f' q') := by
  intro en i
  refine (h en i).bind ?_
  rintro _ _ (⟨j, h⟩ | ⟨j, h, hs⟩ | ⟨x, j, hs⟩)
  · exact tryMapStep_rel he hf en i j h
  · refine (tryMapStep_rel he hf en i j h).bind ?_
    rintro _ _ (⟨k, h'⟩ | ⟨k, h', hs'⟩ | ⟨x, k, hs'⟩)
    · exact .ok (.success _ h')
    · exact .ok (.recovered _ h' (hs.append hs'))
    · exact .ok (.failed _ _ (hs.append hs'))
  · exact .ok (.failed _ _ hs)

/-! ## Sequences -/

theorem finishSem_rel (en : Bool) {o : α} {o' : α'} (h : A o o') {r : Option (List E)} {r' : Option (List E')}
    (hr : OptR (ListR R) r r') (j : Nat) : OutR (RV A R) (finishSem en o r j) (finishSem en o' r' j) := by
  cases hr with
  | none => exact .ok (.success _ h)
  | some hr =>
    cases en
    · exact .panic _
    · exact .ok (.recovered _ h hr)

theorem extendRec_rel {r : Option (List E)} {r' : Option (List E')} (hr : OptR (ListR R) r r') {es : List E}
    {es' : List E'} (hs : ListR R es es') : OptR (ListR R) (extendRec r es) (extendRec r' es') := by
  cases hr with
  | none => exact .some hs
  | some hr => exact .some (hr.append hs)

theorem concatRest_rel {qs : List (PSem E α)} {qs' : List (PSem E' α')} (hq : ListR (PR A R) qs qs') (en : Bool)
    (start : Nat) : ∀ {out : List α} {out' : List α'} {r : Option (List E)} {r' : Option (List E')},
    ListR A out out' → OptR (ListR R) r r' → ∀ i,
    OutR (RV (ListR A) R) (concatRestSem en start qs out r i) (concatRestSem en start qs' out' r' i) := by
  induction hq with
  | nil => intro _ _ _ _ ho hr i; exact finishSem_rel en ho hr i
  | cons h1 _ ih =>
    intro _ _ _ _ ho hr i
    refine (h1 en i).bind ?_
    rintro _ _ (⟨j, h⟩ | ⟨j, h, hs⟩ | ⟨x, j, hs⟩)
    · exact ih (ho.append (.single h)) hr j
    · exact ih (ho.append (.single h)) (extendRec_rel hr hs) j
    · exact .ok (.failed _ _ hs)

theorem PR.concat {qs : List (PSem E α)} {qs' : List (PSem E' α')} (hq : ListR (PR A R) qs qs') :
    PR (ListR A) R (qConcat qs) (qConcat qs') := by
  intro en i
  cases hq with
  | nil => exact .ok (.success _ .nil)
  | cons h1 h2 =>
    refine (h1 en i).bind ?_
    rintro _ _ (⟨j, h⟩ | ⟨j, h, hs⟩ | ⟨x, j, hs⟩)
    · exact concatRest_rel h2 en i (.single h) .none j
    · exact concatRest_rel h2 en i (.single h) (.some hs) j
    · exact .ok (.failed _ _ hs)

theorem concatLast_rel (hb : PR B R qb qb') (en : Bool) (start : Nat) {f : β → γ} {f' : β' → γ'}
    (hf : ∀ b b', B b b' → C (f b) (f' b')) {r : Option (List E)} {r' : Option (List E')} (hr : OptR (ListR R) r r')
    (i : Nat) : OutR (RV C R) (concatLastSem en start f qb r i) (concatLastSem en start f' qb' r' i) := by
  refine (hb en i).bind ?_
  rintro _ _ (⟨j, h⟩ | ⟨j, h, hs⟩ | ⟨x, j, hs⟩)
  · exact finishSem_rel en (hf _ _ h) hr j
  · exact finishSem_rel en (hf _ _ h) (extendRec_rel hr hs) j
  · exact .ok (.failed _ _ hs)

theorem PR.concat2 (ha : PR A R q q') (hb : PR B R qb qb') {f : α × β → γ} {f' : α' × β' → γ'}
    (hf : ∀ a a' b b', A a a' → B b b' → C (f (a, b)) (f' (a', b'))) :
    PR C R (qConcat2 f q qb) (qConcat2 f' q' qb') := by
  intro en i
  refine (ha en i).bind ?_
  rintro _ _ (⟨j, h⟩ | ⟨j, h, hs⟩ | ⟨x, j, hs⟩)
  · exact concatLast_rel hb en i (fun _ _ => hf _ _ _ _ h) .none j
  · exact concatLast_rel hb en i (fun _ _ => hf _ _ _ _ h) (.some hs) j
  · exact .ok (.failed _ _ hs)

theorem concatMid_rel (hb : PR B R qb qb') (hc : PR C R qc qc') (en : Bool) (start : Nat) {f : β × γ → δ}
    {f' : β' × γ' → δ'} (hf : ∀ b b' c c', B b b' → C c c' → F (f (b, c)) (f' (b', c'))) {r : Option (List E)}
    {r' : Option (List E')} (hr : OptR (ListR R) r r') (i : Nat) :
    OutR (RV F R) (concatMidSem en start f qb qc r i) (concatMidSem en start f' qb' qc' r' i) := by
  refine (hb en i).bind ?_
  rintro _ _ (⟨j, h⟩ | ⟨j, h, hs⟩ | ⟨x, j, hs⟩)
  · exact concatLast_rel hc en start (fun _ _ => hf _ _ _ _ h) hr j
  · exact concatLast_rel hc en start (fun _ _ => hf _ _ _ _ h) (extendRec_rel hr hs) j
  · exact .ok (.failed _ _ hs)

theorem PR.concat3 (ha : PR A R q q') (hb : PR B R qb qb') (hc : PR C R qc qc') {f : α × β × γ → δ}
    {f' : α' × β' × γ' → δ'} (hf : ∀ a a' b b' c c', A a a' → B b b' → C c c' → F (f (a, b, c)) (f' (a', b', c'))) :
    PR F R (qConcat3 f q qb qc) (qConcat3 f' q' qb' qc') := by
  intro en i
  refine (ha en i).bind ?_
  rintro _ _ (⟨j, h⟩ | ⟨j, h, hs⟩ | ⟨x, j, hs⟩)
  · exact concatMid_rel hb hc en i (fun _ _ _ _ => hf _ _ _ _ _ _ h) .none j
  · exact concatMid_rel hb hc en i (fun _ _ _ _ => hf _ _ _ _ _ _ h) (.some hs) j
  · exact .ok (.failed _ _ hs)

/-! ## Repetition -/

theorem repItem_rel (hq : PR A R q q') (cfg : RepCfg) (en : Bool) (i0 : Nat)
    {again : List α → Option (List E) → Nat → Out (Res (List α) E × Nat)}
    {again' : List α' → Option (List E') → Nat → Out (Res (List α') E' × Nat)}
    (hag : ∀ out out' r r' i, ListR A out out' → OptR (ListR R) r r' →
      OutR (RV (ListR A) R) (again out r i) (again' out' r' i))
    {out : List α} {out' : List α'} {r : Option (List E)} {r' : Option (List E')} (ho : ListR A out out')
    (hr : OptR (ListR R) r r') (b : Option Nat) (i : Nat) :
    OutR (RV (ListR A) R) (repItemSem cfg q en i0 again out r b i) (repItemSem cfg q' en i0 again' out' r' b i) := by
  unfold repItemSem
  rw [ho.length]
  by_cases h1 : (cfg.allowTrailing && cfg.atMax out'.length) = true
  · simp only [if_pos h1]
    exact finishSem_rel _ ho hr i
  · simp only [if_neg h1]
    refine (hq _ i).bind ?_
    rintro _ _ (⟨j, h⟩ | ⟨j, h, hs⟩ | ⟨x, j, hs⟩)
    · exact hag _ _ _ _ _ (ho.append (.single h)) hr
    · exact hag _ _ _ _ _ (ho.append (.single h)) (extendRec_rel hr hs)
    · by_cases h2 : cfg.minimum ≤ out'.length
      · simp only [if_pos h2]
        exact .ok (.success _ ho)
      · simp only [if_neg h2]
        exact .ok (.failed _ _ hs)

theorem repLoop_rel (hq : PR A R q q') (cfg : RepCfg) {sep : Option (PSem E β)} {sep' : Option (PSem E' β')}
    (hs : OptR (PR B R) sep sep') (en : Bool) (i0 : Nat) : ∀ (n : Nat) (out : List α) (out' : List α')
    (r : Option (List E)) (r' : Option (List E')) (i : Nat), ListR A out out' → OptR (ListR R) r r' →
    OutR (RV (ListR A) R) (repLoopSem cfg q sep en i0 n out r i) (repLoopSem cfg q' sep' en i0 n out' r' i) := by
  intro n
  induction n with
  | zero => intro out out' r r' i ho hr; exact .oof
  | succ n ih =>
    intro out out' r r' i ho hr
    unfold repLoopSem
    rw [ho.length, ho.isEmpty]
    by_cases h1 : (!cfg.allowTrailing && cfg.atMax out'.length) = true
    · simp only [if_pos h1]
      exact finishSem_rel _ ho hr i
    · simp only [if_neg h1]
      cases hs with
      | none => exact repItem_rel hq cfg en i0 ih ho hr none i
      | some hs =>
        cases hb : (!out'.isEmpty || cfg.allowLeading) with
        | false => exact repItem_rel hq cfg en i0 ih ho hr none i
        | true =>
          refine (hs _ i).bind ?_
          rintro _ _ (⟨j, h⟩ | ⟨j, h, hs⟩ | ⟨x, j, hs⟩)
          · exact repItem_rel hq cfg en i0 ih ho hr (some i) j
          · exact repItem_rel hq cfg en i0 ih ho (extendRec_rel hr hs) (some i) j
          · by_cases h2 : out'.isEmpty = true
            · simp only [if_pos h2]
              exact repItem_rel hq cfg en i0 ih ho hr (some i) j
            · simp only [if_neg h2]
              by_cases h3 : cfg.minimum ≤ out'.length
              · simp only [if_pos h3]
                exact .ok (.success _ ho)
              · simp only [if_neg h3]
                exact .ok (.failed _ _ hs)

theorem PR.repeat_ (hq : PR A R q q') (cfg : RepCfg) {sep : Option (PSem E β)} {sep' : Option (PSem E' β')}
    (hs : OptR (PR B R) sep sep') (n : Nat) : PR (ListR A) R (qRepeat n cfg q sep) (qRepeat n cfg q' sep') :=
  fun en i => repLoop_rel hq cfg hs en i n [] [] none none i .nil .none

/-! ## Choice -/

/-- Corresponding failures. -/
def FailR (A : α → α' → Prop) (R : E → E' → Prop) (x : FailSem E α) (y : FailSem E' α') : Prop :=
  x.1 = y.1 ∧ ListR R x.2.1 y.2.1 ∧ PR A R x.2.2 y.2.2

theorem insert_rel {f : FailSem E α} {f' : FailSem E' α'} (h : FailR A R f f') {fs : List (FailSem E α)}
    {fs' : List (FailSem E' α')} (hs : ListR (FailR A R) fs fs') :
    ListR (FailR A R) (insertDesc f fs) (insertDesc f' fs') := by
  induction hs with
  | nil => exact .single h
  | @cons g g' gs gs' h1 h2 ih =>
    unfold insertDesc
    rw [h1.1, h.1]
    by_cases hlt : g'.1 < f'.1
    · simp only [if_pos hlt]
      exact .cons h (.cons h1 h2)
    · simp only [if_neg hlt]
      exact .cons h1 ih

theorem sort_rel {fs : List (FailSem E α)} {fs' : List (FailSem E' α')} (hs : ListR (FailR A R) fs fs') :
    ListR (FailR A R) (sortDesc fs) (sortDesc fs') :=
  hs.foldl (Q := ListR (FailR A R)) (fun _ _ _ _ h h' => insert_rel h' h) .nil

/-- Outcome of the first pass. -/
inductive AR (A : α → α' → Prop) (R : E → E' → Prop) :
    (α ⊕ List (FailSem E α)) × Nat → (α' ⊕ List (FailSem E' α')) × Nat → Prop
  | inl {o o'} (j : Nat) (h : A o o') : AR A R (.inl o, j) (.inl o', j)
  | inr {fs fs'} (j : Nat) (h : ListR (FailR A R) fs fs') : AR A R (.inr fs, j) (.inr fs', j)

theorem altFirst_rel {qs : List (PSem E α)} {qs' : List (PSem E' α')} (hq : ListR (PR A R) qs qs') :
    ∀ {fs : List (FailSem E α)} {fs' : List (FailSem E' α')}, ListR (FailR A R) fs fs' → ∀ i,
    OutR (AR A R) (altFirstSem qs fs i) (altFirstSem qs' fs' i) := by
  induction hq with
  | nil => intro fs fs' h i; exact .ok (.inr _ h)
  | cons h1 _ ih =>
    intro fs fs' h i
    refine (h1 false i).bind ?_
    rintro _ _ (⟨j, h'⟩ | ⟨j, h', hs⟩ | ⟨x, j, hs⟩)
    · exact .ok (.inl _ h')
    · exact .panic _
    · exact ih (h.append (.single ⟨rfl, hs, h1⟩)) _

/-- Outcome of the recovery pass. -/
inductive AR2 (A : α → α' → Prop) (R : E → E' → Prop) : Option (Res α E) × Nat → Option (Res α' E') × Nat → Prop
  | none (j : Nat) : AR2 A R (.none, j) (.none, j)
  | some {o o' es es'} (j : Nat) (h : A o o') (hs : ListR R es es') :
      AR2 A R (.some (.recovered o es), j) (.some (.recovered o' es'), j)

theorem altRecover_rel {fs : List (FailSem E α)} {fs' : List (FailSem E' α')} (h : ListR (FailR A R) fs fs') :
    ∀ i, OutR (AR2 A R) (altRecoverSem fs i) (altRecoverSem fs' i) := by
  induction h with
  | nil => intro i; exact .ok (.none _)
  | cons h1 _ ih =>
    intro i
    refine (h1.2.2 true i).bind ?_
    rintro _ _ (⟨j, h'⟩ | ⟨j, h', hs⟩ | ⟨x, j, hs⟩)
    · exact .panic _
    · exact .ok (.some _ h' hs)
    · exact ih _

end

section

variable {α α' : Type} {A : α → α' → Prop} {ε : ErrTy S} {ε' : ErrTy S'} {E : ErrRel ρ ε ε'}

theorem mergeAll_rel {x : ε.E} {x' : ε'.E} (h : E.R x x') {es : List ε.E} {es' : List ε'.E} (hs : ListR E.R es es') :
    E.R (mergeAll ε x es) (mergeAll ε' x' es') := by
  refine hs.foldl (Q := E.R) (fun x x' y y' hx hy => ?_) h
  rw [E.isExpectedFound hy]
  cases ε'.isExpectedFound y'
  · exact hx
  · exact E.merge hx hy

theorem altCombine_rel {fs : List (Nat × List ε.E)} {fs' : List (Nat × List ε'.E)}
    (h : ListR (ProdR Eq (ListR E.R)) fs fs') (i : Nat) :
    OutR (RV A E.R) (altCombineSem ε fs i) (altCombineSem ε' fs' i) := by
  have hsec : ∀ {gs : List (Nat × List ε.E)} {gs' : List (Nat × List ε'.E)}, ListR (ProdR Eq (ListR E.R)) gs gs' →
      OutR (RV A E.R)
        (match gs with
          | (x, es) :: _ => .ok (.failed x es, i)
          | [] => .panic "called `Option::unwrap()` on a `None` value")
        (match gs' with
          | (x, es) :: _ => .ok (.failed x es, i)
          | [] => .panic "called `Option::unwrap()` on a `None` value") := by
    intro gs gs' hg
    cases hg with
    | nil => exact .panic _
    | cons h1 h2 =>
      rename_i a b _ _
      obtain ⟨x, es⟩ := a
      obtain ⟨x', es'⟩ := b
      obtain ⟨rfl, h3⟩ := h1
      exact .ok (.failed _ _ h3)
  cases h with
  | nil => exact .panic _
  | @cons a b rest rest' h1 h2 =>
    obtain ⟨x, es⟩ := a
    obtain ⟨x', es'⟩ := b
    obtain ⟨h0, h3⟩ := h1
    simp only at h0 h3
    subst h0
    cases h3 with
    | nil => exact hsec h2
    | cons h4 h5 =>
      cases h5 with
      | nil =>
        simp only [altCombineSem]
        rw [E.isExpectedFound h4]
        split
        · refine .ok (.failed _ _ (.single (mergeAll_rel h4 ?_)))
          induction h2 with
          | nil => exact .nil
          | cons h6 _ ih => simp only [List.flatMap_cons]; exact h6.2.append ih
        · exact hsec h2
      | cons h6 h7 => exact hsec h2

theorem PR.alternate {qs : List (PSem ε.E α)} {qs' : List (PSem ε'.E α')} (hq : ListR (PR A E.R) qs qs') :
    PR A E.R (qAlternate ε qs) (qAlternate ε' qs') := by
  intro en i
  refine (altFirst_rel hq .nil i).bind ?_
  rintro _ _ (⟨j, h⟩ | ⟨j, h⟩)
  · exact .ok (.success _ h)
  · simp only [h.isEmpty]
    rename_i fs fs'
    by_cases h0 : fs'.isEmpty = true
    · simp only [if_pos h0]; exact .panic _
    · simp only [if_neg h0]
      have hk := (sort_rel h).map (Q := ProdR Eq (ListR E.R)) (f := fun f => (f.1, f.2.1))
        (g := fun f => (f.1, f.2.1)) fun a b h => ⟨h.1, h.2.1⟩
      cases en with
      | false =>
        simp only [Bool.false_eq_true, if_false]
        exact altCombine_rel hk j
      | true =>
        simp only [if_true]
        refine (altRecover_rel (sort_rel h) j).bind ?_
        rintro _ _ (⟨l⟩ | ⟨l, h1, h2⟩)
        · exact altCombine_rel hk l
        · exact .ok (.recovered _ h1 h2)

/-! ## Primitives -/

theorem mismatch_rel (he : EnvR ρ e e') {xs : List (Option S.I)} {xs' : List (Option S'.I)}
    (h : ListR (OptR ρ.tok) xs xs') (i j : Nat) :
    OutR (RV A E.R) (.ok (mismatch e ε xs i, j)) (.ok (mismatch e' ε' xs' i, j)) :=
  .ok (.failed _ _ (.single (E.expectedFound h (he.source i) (.span (he.here i)))))

theorem PR.eof {A : Unit → Unit → Prop} (h : A () ()) (he : EnvR ρ e e') : PR A E.R (qEnd e ε) (qEnd e' ε') := by
  intro en i
  have h1 := he.source i
  simp only [qEnd]
  revert h1
  cases e.source i <;> cases e'.source i <;> intro h1 <;> cases h1
  · exact .ok (.success _ h)
  · rename_i h1
    exact .ok (.failed _ _ (.single (E.expectedFound (.single .none) (.some h1) (.location (he.locationAt i)))))

theorem PR.just (he : EnvR ρ e e') {t : S.I} {t' : S'.I} (h : ρ.tok t t') :
    PR ρ.tok E.R (qJust e ε t) (qJust e' ε' t') := by
  intro en i
  simp only [qJust, isTok_rel (he.source i) h]
  split
  · exact .ok (.success _ h)
  · exact mismatch_rel he (.single (.some h)) i i

theorem PR.filter (he : EnvR ρ e e') {p : S.I → Bool} {p' : S'.I → Bool} (h : PredR ρ p p') :
    PR ρ.tok E.R (qFilter e ε p) (qFilter e' ε' p') := by
  intro en i
  have h1 := he.source i
  simp only [qFilter]
  revert h1
  generalize e.source i = x, e'.source i = x'
  intro h1
  cases h1 with
  | none => exact mismatch_rel he .nil i i
  | some h1 =>
    simp only [h _ _ h1]
    split
    · exact .ok (.success _ h1)
    · exact mismatch_rel he .nil i i

theorem PR.filterMap (he : EnvR ρ e e') {f : S.I → Option α} {f' : S'.I → Option α'}
    (h : ∀ t t', ρ.tok t t' → OptR A (f t) (f' t')) : PR A E.R (qFilterMap e ε f) (qFilterMap e' ε' f') := by
  intro en i
  have h1 : OptR A ((e.source i).bind f) ((e'.source i).bind f') := by
    have h1 := he.source i
    revert h1
    generalize e.source i = x, e'.source i = x'
    intro h1
    cases h1 with
    | none => exact .none
    | some h1 => exact h _ _ h1
  simp only [qFilterMap]
  revert h1
  generalize (e.source i).bind f = x, (e'.source i).bind f' = x'
  intro h1
  cases h1 with
  | none => exact mismatch_rel he .nil i i
  | some h1 => exact .ok (.success _ h1)

theorem matchSeq_rel (he : EnvR ρ e e') {xs : List S.I} {xs' : List S'.I} (h : ListR ρ.tok xs xs') : ∀ i,
    OptR (ProdR Eq ρ.tok) (matchSeq e xs i) (matchSeq e' xs' i) := by
  induction h with
  | nil => intro i; exact .none
  | cons h1 _ ih =>
    intro i
    simp only [matchSeq, isTok_rel (he.source i) h1]
    split
    · exact ih _
    · exact .some ⟨rfl, h1⟩

theorem PR.seq (he : EnvR ρ e e') {v : α} {v' : α'} (hv : A v v') {xs : List S.I} {xs' : List S'.I}
    (h : ListR ρ.tok xs xs') : PR A E.R (qSeq e ε v xs) (qSeq e' ε' v' xs') := by
  intro en i
  have h1 := matchSeq_rel he h i
  simp only [qSeq, h.length]
  revert h1
  generalize matchSeq e xs i = x, matchSeq e' xs' i = x'
  intro h1
  cases h1 with
  | none => exact .ok (.success _ hv)
  | some h1 =>
    rename_i a b
    obtain ⟨j, t⟩ := a
    obtain ⟨j', t'⟩ := b
    obtain ⟨rfl, h2⟩ := h1
    exact mismatch_rel he (.single (.some h2)) j i

theorem PR.oneOf (he : EnvR ρ e e') {xs : List S.I} {xs' : List S'.I} (h : ListR ρ.tok xs xs') :
    PR ρ.tok E.R (qOneOf e ε xs) (qOneOf e' ε' xs') := by
  intro en i
  have h1 := he.source i
  have h2 : ListR (OptR ρ.tok) (xs.map some) (xs'.map some) := h.map fun _ _ h => .some h
  simp only [qOneOf]
  revert h1
  generalize e.source i = x, e'.source i = x'
  intro h1
  cases h1 with
  | none => exact mismatch_rel he h2 i i
  | some h1 =>
    simp only [h.any fun _ _ h' => ρ.eqI h1 h']
    split
    · exact .ok (.success _ h1)
    · exact mismatch_rel he h2 i i

theorem PR.noneOf (he : EnvR ρ e e') {xs : List S.I} {xs' : List S'.I} (h : ListR ρ.tok xs xs') :
    PR ρ.tok E.R (qNoneOf e ε xs) (qNoneOf e' ε' xs') := by
  intro en i
  have h1 := he.source i
  simp only [qNoneOf]
  revert h1
  generalize e.source i = x, e'.source i = x'
  intro h1
  cases h1 with
  | none => exact .ok (.failed _ _ (.single (E.expectedFound .nil .none (.location (he.locationAt i)))))
  | some h1 =>
    simp only [h.any fun _ _ h' => ρ.eqI h1 h']
    split
    · exact mismatch_rel he .nil i i
    · exact .ok (.success _ h1)

end

/-! ## Strategies -/

section

variable {α α' E E' : Type} {A : α → α' → Prop} {R : E → E' → Prop}
variable {q : PSem E α} {q' : PSem E' α'} {s t : SSem E α} {s' t' : SSem E' α'}

theorem giveUp_rel (fa : Nat) {es : List E} {es' : List E'} (hs : ListR R es es') (j : Nat) :
    OutR (SV A R) (giveUp fa es j) (giveUp fa es' j) := .ok (.mk _ _ .none hs)

theorem SR.orElse (hs : SR A R s s') (ht : SR A R t t') : SR A R (s.orElse t) (s'.orElse t') := by
  intro q q' hq st fa es es' i he
  refine (hs q q' hq st fa es es' i he).bind ?_
  rintro _ _ ⟨fa', j, ho, he'⟩
  cases ho with
  | none => exact ht q q' hq st fa' _ _ j he'
  | some ho => exact .ok (.mk _ _ (.some ho) he')

theorem findSem_rel (he : EnvR ρ e e') {p : S.I → Bool} {p' : S'.I → Bool} (hp : PredR ρ p p') : ∀ n i,
    OutR Eq (findSem e p n i) (findSem e' p' n i)
  | 0, _ => .oof
  | n + 1, i => by
    simp only [findSem, he.tokIs hp, he.next]
    split
    · exact .ok rfl
    · exact findSem_rel he hp n _

theorem scanSem_rel (he : EnvR ρ e e') {sc : Scanner S E} {sc' : Scanner S' E'} {Q : sc.σ → sc'.σ → Prop}
    (h1 : ∀ t t' s s' st st' es es', ρ.tok t t' → ρ.span s s' → Q st st' → ListR R es es' →
      ScanR Q R (sc.scan t s st es) (sc'.scan t' s' st' es'))
    (h2 : ∀ l l' st st' es es', ρ.loc l l' → Q st st' → ListR R es es' →
      ListR R (sc.eof l st es) (sc'.eof l' st' es')) : ∀ n st st' es es' i, Q st st' → ListR R es es' →
    OutR (fun x y => ListR R x.1 y.1 ∧ x.2 = y.2) (scanSem e sc n st es i) (scanSem e' sc' n st' es' i)
  | 0, _, _, _, _, _, _, _ => .oof
  | n + 1, st, st', es, es', i, hq, hs => by
    have h3 := he.source i
    simp only [scanSem]
    revert h3
    generalize e.source i = x, e'.source i = x'
    intro h3
    cases h3 with
    | none => exact .ok ⟨h2 _ _ _ _ _ _ (he.locationAt i) hq hs, rfl⟩
    | @some t t' h3 =>
      have h4 := h1 t t' _ _ st st' es es' h3 (he.here i) hq hs
      simp only
      revert h4
      generalize sc.scan t (e.here i) st es = y, sc'.scan t' (e'.here i) st' es' = y'
      intro h4
      cases h4 with
      | error m => exact .panic m
      | @ok b st st' es es' h4 h5 =>
        cases b
        · exact scanSem_rel he h1 h2 n _ _ _ _ _ h4 h5
        · exact .ok ⟨h5, rfl⟩

theorem whileNot_rel (he : EnvR ρ e e') {p : S.I → Bool} {p' : S'.I → Bool} (hp : PredR ρ p p') (hs : SR A R s s')
    (hq : PR A R q q') (st : Nat) : ∀ n fa es es' i, ListR R es es' →
    OutR (SV A R) (whileNotSem e p s q st n fa es i) (whileNotSem e' p' s' q' st n fa es' i)
  | 0, _, _, _, _, _ => .oof
  | n + 1, fa, es, es', i, hes => by
    simp only [whileNotSem, he.tokIs hp]
    split
    · exact giveUp_rel _ hes _
    · refine (hs q q' hq st fa es es' i hes).bind ?_
      rintro _ _ ⟨fa', j, ho, he'⟩
      cases ho with
      | none =>
        simp only [he.next]
        exact whileNot_rel he hp hs hq st n _ _ _ _ he'
      | some ho => exact .ok (.mk _ _ (.some ho) he')

theorem saveAt_rel (x i : Nat) : OutR Eq (saveAtSem x i) (saveAtSem x i) := by
  unfold saveAtSem
  split
  · exact .panic _
  · exact .ok rfl

theorem runIn_rel (hq : PR A R q q') (exact_ silent : Bool) (fa : Nat) {es : List E} {es' : List E'}
    (he : ListR R es es') (i : Nat) :
    OutR (SV A R) (runInSem q exact_ silent fa es i) (runInSem q' exact_ silent fa es' i) := by
  refine (hq _ i).bind ?_
  have hadd : ∀ {fs : List E} {fs' : List E'}, ListR R fs fs' →
      ListR R (if silent = true then es else es ++ fs) (if silent = true then es' else es' ++ fs') := by
    intro fs fs' hf
    split
    · exact he
    · exact he.append hf
  rintro _ _ (⟨j, h⟩ | ⟨j, h, hs⟩ | ⟨x, j, hs⟩)
  · exact .ok (.mk _ _ (.some h) he)
  · exact .ok (.mk _ _ (.some h) (hadd hs))
  · refine (saveAt_rel x j).bind ?_
    rintro y _ rfl
    exact giveUp_rel _ (hadd hs) _

theorem PR.toRecover (hq : PR A R q q') (hs : SR A R s s') : PR A R (qToRecover q s) (qToRecover q' s') := by
  intro en i
  refine (hq en i).bind ?_
  rintro _ _ (⟨j, h⟩ | ⟨j, h, hs'⟩ | ⟨x, j, hs'⟩)
  · exact .ok (.success _ h)
  · exact .ok (.recovered _ h hs')
  · cases en with
    | false => exact .ok (.failed _ _ hs')
    | true =>
      refine (saveAt_rel x j).bind ?_
      rintro y _ rfl
      refine (hs q q' hq j y _ _ j hs').bind ?_
      rintro _ _ ⟨fa', k, ho, he'⟩
      cases ho with
      | none => exact .ok (.failed _ _ he')
      | some ho => exact .ok (.recovered _ ho he')

end

/-! ## Grammars -/

variable {N : Names S} {N' : Names S'} {ν : NamesRel ρ N N'}

/-- Corresponding meanings of recursive parsers. -/
def QR (ν : NamesRel ρ N N') (σ : QEnv S N) (σ' : QEnv S' N') : Prop :=
  ∀ k, PR (ν.out k) (ν.err k).R (σ k) (σ' (ν.key k))

section

set_option linter.unusedSectionVars false

variable (he : EnvR ρ e e') {σ : QEnv S N} {σ' : QEnv S' N'} (hσ : QR ν σ σ') (n : Nat)
include he hσ

mutual

theorem RelG.den {ε : ErrTy S} {ε' : ErrTy S'} {E : ErrRel ρ ε ε'} {α α' : Type} {A : α → α' → Prop} {g : G S N ε α}
    {g' : G S' N' ε' α'} : RelG ρ ν E A g g' → PR A E.R (g.den e σ n) (g'.den e' σ' n)
  | .empty h => by simp only [G.den]; exact .empty_ h
  | .none => by simp only [G.den]; exact .none_
  | .eof h => by simp only [G.den]; exact .eof h he
  | .just h => by simp only [G.den]; exact .just he h
  | .filter h => by simp only [G.den]; exact .filter he h
  | .filterMap h => by simp only [G.den]; exact .filterMap he h
  | .seq hv h => by simp only [G.den]; exact .seq he hv h
  | .oneOf h => by simp only [G.den]; exact .oneOf he h
  | .noneOf h => by simp only [G.den]; exact .noneOf he h
  | .boxed h => by simp only [G.den]; exact h.den
  | .withError h => by simp only [G.den]; exact h.den
  | .to h hv => by simp only [G.den]; exact .map (fun _ _ _ => hv) h.den
  | .some h => by simp only [G.den]; exact .map (fun _ _ h => .some h) h.den
  | .map hf h => by simp only [G.den]; exact .map hf h.den
  | .mapWithSpan hf h => by simp only [G.den]; exact .mapWithSpan he hf h.den
  | .mapErr hf h => by simp only [G.den]; exact .mapErr hf h.den
  | .mapErrWithSpan hf h => by simp only [G.den]; exact .mapErrWithSpan he hf h.den
  | .tryMap hf h => by simp only [G.den]; exact .tryMap he hf h.den
  | .then_ ha hb => by simp only [G.den]; exact .concat2 ha.den hb.den fun _ _ _ _ h h' => ⟨h, h'⟩
  | .thenIgnore ha hb => by simp only [G.den]; exact .concat2 ha.den hb.den fun _ _ _ _ h _ => h
  | .ignoreThen ha hb => by simp only [G.den]; exact .concat2 ha.den hb.den fun _ _ _ _ _ h => h
  | .delimitedBy ha hb hc => by
    simp only [G.den]; exact .concat3 ha.den hb.den hc.den fun _ _ _ _ _ _ _ h _ => h
  | .paddedBy ha hb => by simp only [G.den]; exact .concat3 ha.den hb.den ha.den fun _ _ _ _ _ _ _ h _ => h
  | .chain h => by simp only [G.den]; exact .concat h.den
  | .or ha hb => by simp only [G.den]; exact .alternate (.cons ha.den (.cons hb.den .nil))
  | .orNot h => by
    simp only [G.den]; exact .alternate (.cons (.map (fun _ _ h => .some h) h.den) (.cons .none_ .nil))
  | .alters h => by simp only [G.den]; exact .alternate h.den
  | .repeated (A := A) h => by simp only [G.den]; exact .repeat_ (B := A) h.den _ .none n
  | .separatedBy ha hb => by simp only [G.den]; exact .repeat_ ha.den _ (.some hb.den) n
  | .toRecover h hs => by simp only [G.den]; exact .toRecover h.den hs.den
  | .call => by simp only [G.den]; exact hσ _
termination_by structural h => h

theorem RelGL.den {ε : ErrTy S} {ε' : ErrTy S'} {E : ErrRel ρ ε ε'} {α α' : Type} {A : α → α' → Prop}
    {gs : GL S N ε α} {gs' : GL S' N' ε' α'} :
    RelGL ρ ν E A gs gs' → ListR (PR A E.R) (gs.den e σ n) (gs'.den e' σ' n)
  | .nil => by simp only [GL.den]; exact .nil
  | .cons h hs => by simp only [GL.den]; exact .cons h.den hs.den
termination_by structural h => h

theorem RelIS.den {ε : ErrTy S} {ε' : ErrTy S'} {E : ErrRel ρ ε ε'} {α α' : Type} {A : α → α' → Prop}
    {s : IS S N ε α} {s' : IS S' N' ε' α'} : RelIS ρ ν E A s s' → SR A E.R (s.den e σ n) (s'.den e' σ' n)
  | .attemptTo => by simp only [IS.den]; exact fun _ _ _ _ _ _ _ _ h => giveUp_rel _ h _
  | .restart h => by simp only [IS.den]; exact h.den.orElse fun _ _ _ _ _ _ _ _ h => giveUp_rel _ h _
  | .seekToFailed h => by simp only [IS.den]; exact h.den.orElse fun _ _ _ _ _ _ _ _ h => giveUp_rel _ h _
  | .skip h => by
    simp only [IS.den]
    exact h.den.orElse fun _ _ _ _ _ _ _ _ h => by simp only [he.next]; exact giveUp_rel _ h _
  | .skipIf h hp => by
    simp only [IS.den]
    exact h.den.orElse fun _ _ _ _ _ _ _ _ h => by simp only [he.tokIs hp]; exact giveUp_rel _ h _
  | .find h hp => by
    simp only [IS.den]
    exact h.den.orElse fun _ _ _ _ _ _ _ _ h =>
      (findSem_rel he hp n _).bind fun _ _ h' => by subst h'; exact giveUp_rel _ h _
  | .scan h ⟨Q, h0, h1, h2⟩ => by
    simp only [IS.den]
    exact h.den.orElse fun _ _ _ _ _ _ _ i h =>
      (scanSem_rel he h1 h2 n _ _ _ _ i h0 h).bind fun x y h' => by
        obtain ⟨x1, x2⟩ := x
        obtain ⟨y1, y2⟩ := y
        obtain ⟨h3, h4⟩ := h'
        simp only at h3 h4
        subst h4
        exact giveUp_rel _ h3 _
  | .maybe h ht => by
    simp only [IS.den]
    exact h.den.orElse fun q q' hq st fa es es' i h =>
      (ht.den q q' hq st fa es es' i h).bind fun x y h' => by
        cases h' with
        | mk fa' j ho hes =>
          simp only [ho.isSome]
          exact .ok (.mk _ _ ho hes)
  | .whileNot h hp ht => by
    simp only [IS.den]
    exact h.den.orElse fun _ _ hq _ _ _ _ _ h => whileNot_rel he hp ht.den hq _ n _ _ _ _ h
  | .retry h => by simp only [IS.den]; exact h.den.orElse fun _ _ hq _ _ _ _ _ h => runIn_rel hq _ _ _ h _
  | .tryToParse h hg => by
    simp only [IS.den]; exact h.den.orElse fun _ _ _ _ _ _ _ _ h => runIn_rel hg.den _ _ _ h _
  | .pushError h hf => by
    simp only [IS.den]; exact h.den.orElse fun _ _ _ _ _ _ _ _ h => giveUp_rel _ (h.append (.single hf)) _
  | .pushErrorHere h hf => by
    simp only [IS.den]
    exact h.den.orElse fun _ _ _ _ _ _ _ i h => giveUp_rel _ (h.append (.single (hf _ _ (he.locationAt i)))) _
  | .pushErrorUpToHere h hf => by
    simp only [IS.den]
    exact h.den.orElse fun _ _ _ st _ _ _ i h => giveUp_rel _ (h.append (.single (hf _ _ (he.spanOf st i)))) _
  | .pushErrorForToken h hf => by
    simp only [IS.den]
    exact h.den.orElse fun _ _ _ _ _ _ _ i h =>
      giveUp_rel _ (h.append (.single (hf _ _ _ _ (he.source i) (he.here i)))) _
  | .updateErrors h hf => by
    simp only [IS.den]; exact h.den.orElse fun _ _ _ _ _ _ _ _ h => giveUp_rel _ (hf _ _ h) _
  | .updateErrorsHere h hf => by
    simp only [IS.den]; exact h.den.orElse fun _ _ _ _ _ _ _ i h => giveUp_rel _ (hf _ _ _ _ h (he.locationAt i)) _
  | .updateErrorsUpToHere h hf => by
    simp only [IS.den]; exact h.den.orElse fun _ _ _ st _ _ _ i h => giveUp_rel _ (hf _ _ _ _ h (he.spanOf st i)) _
  | .updateErrorsForToken h hf => by
    simp only [IS.den]
    exact h.den.orElse fun _ _ _ _ _ _ _ i h => giveUp_rel _ (hf _ _ _ _ _ _ h (he.source i) (he.here i)) _
  | .boxed h => by simp only [IS.den]; exact h.den
termination_by structural h => h

theorem RelCS.den {ε : ErrTy S} {ε' : ErrTy S'} {E : ErrRel ρ ε ε'} {α α' : Type} {A : α → α' → Prop}
    {s : CS S N ε α} {s' : CS S' N' ε' α'} : RelCS ρ ν E A s s' → SR A E.R (s.den e σ n) (s'.den e' σ' n)
  | .ret h ho => by simp only [CS.den]; exact h.den.orElse fun _ _ _ _ _ _ _ _ h => .ok (.mk _ _ (.some ho) h)
  | .retWith h ho => by simp only [CS.den]; exact h.den.orElse fun _ _ _ _ _ _ _ _ h => .ok (.mk _ _ (.some ho) h)
  | .retWithSpan h hf => by
    simp only [CS.den]
    exact h.den.orElse fun _ _ _ st _ _ _ i h => .ok (.mk _ _ (.some (hf _ _ (he.spanOf st i))) h)
  | .orFail h => by simp only [CS.den]; exact h.den
termination_by structural h => h

end

end

theorem callSem_rel (he : EnvR ρ e e') {D : Defs S N} {D' : Defs S' N'} (hD : DefsR ν D D') : ∀ n,
    QR ν (callSem e D n) (callSem e' D' n)
  | 0 => fun _ _ _ => .oof
  | n + 1 => fun k en i => by
    simp only [callSem]
    rcases hD k with ⟨h1, h2⟩ | ⟨g, g', h1, h2, h3⟩
    · rw [h1, h2]; exact .panic _
    · rw [h1, h2]; exact h3.den he (callSem_rel he hD n) n en i

theorem RelG.sem (he : EnvR ρ e e') {D : Defs S N} {D' : Defs S' N'} (hD : DefsR ν D D') (n : Nat) {ε : ErrTy S}
    {ε' : ErrTy S'} {E : ErrRel ρ ε ε'} {α α' : Type} {A : α → α' → Prop} {g : G S N ε α} {g' : G S' N' ε' α'}
    (h : RelG ρ ν E A g g') : PR A E.R (g.sem e D n) (g'.sem e' D' n) := h.den he (callSem_rel he hD n) n

end PPC.Generic
