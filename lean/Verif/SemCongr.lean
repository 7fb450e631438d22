import Verif.SemShift
import Verif.ParserBase

/-!
# Limits of the evaluation bound

A parse that stays within its bound asks its children for finitely many results only. So if, at every
position, each child of one parser eventually agrees with the corresponding child of another (when the
bound of the other is large enough), the parsers themselves eventually agree. Used for C50.
-/

namespace PPC

variable {S : Sig} {N : Names S}

/-- From some bound on, the outcomes `X` are that of `x`, with values related by `R`; nothing is said if
`x` exceeds its bound. -/
inductive Lim {α β : Type} (R : α → (Nat → β) → Prop) : Out α → (Nat → Out β) → Prop
  | oof {X} : Lim R .oof X
  | ok {a y X} (m0 : Nat) : R a y → (∀ m, m0 ≤ m → X m = .ok (y m)) → Lim R (.ok a) X
  | panic {msg X} (m0 : Nat) : (∀ m, m0 ≤ m → X m = .panic msg) → Lim R (.panic msg) X
  | stuck {X} (m0 : Nat) : (∀ m, m0 ≤ m → X m = .stuck) → Lim R .stuck X

section

variable {α β γ δ : Type} {R : α → (Nat → β) → Prop} {Q : γ → (Nat → δ) → Prop}

theorem Lim.ret {a : α} {y : Nat → β} (h : R a y) : Lim R (.ok a) (fun m => .ok (y m)) :=
  .ok 0 h fun _ _ => rfl

theorem Lim.fail {msg : String} : Lim R (.panic msg) (fun _ => .panic msg) := .panic 0 fun _ _ => rfl

theorem Lim.congr {x : Out α} {X Y : Nat → Out β} (h : Lim R x X) (m0 : Nat) (hY : ∀ m, m0 ≤ m → Y m = X m) :
    Lim R x Y := by
  cases h with
  | oof => exact .oof
  | ok m1 h hX => exact .ok (max m0 m1) h fun m hm => by rw [hY m (by omega), hX m (by omega)]
  | panic m1 hX => exact .panic (max m0 m1) fun m hm => by rw [hY m (by omega), hX m (by omega)]
  | stuck m1 hX => exact .stuck (max m0 m1) fun m hm => by rw [hY m (by omega), hX m (by omega)]

theorem Lim.bind {x : Out α} {X : Nat → Out β} {f : α → Out γ} {F : Nat → β → Out δ} (h : Lim R x X)
    (hf : ∀ a y, R a y → Lim Q (f a) (fun m => F m (y m))) : Lim Q (x >>= f) (fun m => X m >>= F m) := by
  cases h with
  | oof => exact .oof
  | ok m1 h hX => exact (hf _ _ h).congr m1 fun m hm => by rw [hX m hm]; rfl
  | panic m1 hX => exact .panic m1 fun m hm => by rw [hX m hm]; rfl
  | stuck m1 hX => exact .stuck m1 fun m hm => by rw [hX m hm]; rfl

end

/-- Bounds that grow without end. -/
def Tends (φ : Nat → Nat) : Prop := ∀ k, ∃ m0, ∀ m, m0 ≤ m → k ≤ φ m

theorem Tends.id : Tends fun m => m := fun k => ⟨k, fun _ h => h⟩

theorem Tends.pred {φ : Nat → Nat} (h : Tends φ) : Tends fun m => φ m - 1 := fun k => by
  obtain ⟨m0, hm⟩ := h (k + 1)
  exact ⟨m0, fun m h => by have := hm m h; show k ≤ φ m - 1; omega⟩

theorem Tends.succ {φ : Nat → Nat} (h : Tends φ) : ∃ m0, ∀ m, m0 ≤ m → φ m = φ m - 1 + 1 := by
  obtain ⟨m0, hm⟩ := h 1
  exact ⟨m0, fun m h => by have := hm m h; omega⟩

/-- The same result, at positions that exist. -/
inductive RV {α E : Type} (e : Env S) : Res α E × Nat → (Nat → Res α E × Nat) → Prop
  | success (o : α) (j : Nat) : Valid e j → RV e (.success o, j) (fun _ => (.success o, j))
  | recovered (o : α) (es : List E) (j : Nat) : Valid e j → RV e (.recovered o es, j) (fun _ => (.recovered o es, j))
  | failed (x : Nat) (es : List E) (j : Nat) : Valid e x → Valid e j →
      RV e (.failed x es, j) (fun _ => (.failed x es, j))

/-- Parsers that agree in the limit. -/
def PL {α E : Type} (e : Env S) (q : PSem E α) (Q : Nat → PSem E α) : Prop :=
  ∀ en i, Valid e i → Lim (RV e) (q en i) (fun m => Q m en i)

/-- The same result of a strategy, at positions that exist. -/
inductive SV {α E : Type} (e : Env S) :
    (Option α × Nat × List E) × Nat → (Nat → (Option α × Nat × List E) × Nat) → Prop
  | mk (o : Option α) (fa : Nat) (es : List E) (j : Nat) : Valid e fa → Valid e j →
      SV e ((o, fa, es), j) (fun _ => ((o, fa, es), j))

/-- Strategies that agree in the limit. -/
def TL {α E : Type} (e : Env S) (s : SSem E α) (T : Nat → SSem E α) : Prop :=
  ∀ q Q, PL e q Q → ∀ st fa es i, Valid e st → Valid e fa → Valid e i →
    Lim (SV e) (s q st fa es i) (fun m => T m (Q m) st fa es i)

/-- The same position, which exists. -/
def NV (e : Env S) (j : Nat) (y : Nat → Nat) : Prop := (y = fun _ => j) ∧ Valid e j

section

variable {e : Env S} {E α β γ δ : Type}

/-- Parsers without children. -/
theorem PL.leaf {ε : ErrTy S} {q : PSem ε.E α} (g : G S N ε α) (h : g.sem e (fun _ => none) 0 = q)
    (hok : ∀ en i, ∃ v, q en i = .ok v) : PL e q (fun _ => q) := by
  intro en i hi
  obtain ⟨⟨r, j⟩, hv⟩ := hok en i
  have h1 := G.sem_valid (e := e) (fun _ => none) 0 g en hi (by rw [h]; exact hv)
  simp only [hv]
  cases r with
  | success o => exact .ret (R := RV e) (.success _ _ h1.2.1)
  | recovered o es => exact .ret (R := RV e) (.recovered _ _ _ h1.2.1)
  | failed x es => exact .ret (R := RV e) (.failed _ _ _ (h1.2.2 x es rfl).2 h1.2.1)

theorem PL.none_ : PL e (qNone : PSem E (Option α)) (fun _ => qNone) := fun _ _ hi => .ret (.success _ _ hi)

variable {q : PSem E α} {Q : Nat → PSem E α}

theorem PL.map (hq : PL e q Q) (f : α → β) : PL e (qMap f q) (fun m => qMap f (Q m)) := by
  intro en i hi
  refine (hq en i hi).bind ?_
  rintro _ _ (⟨o, j, hj⟩ | ⟨o, es, j, hj⟩ | ⟨x, es, j, hx, hj⟩)
  · exact .ret (.success _ _ hj)
  · exact .ret (.recovered _ _ _ hj)
  · exact .ret (.failed _ _ _ hx hj)

theorem PL.mapWithSpan (hq : PL e q Q) (f : α → S.Span → β) :
    PL e (qMapWithSpan e f q) (fun m => qMapWithSpan e f (Q m)) := by
  intro en i hi
  refine (hq en i hi).bind ?_
  rintro _ _ (⟨o, j, hj⟩ | ⟨o, es, j, hj⟩ | ⟨x, es, j, hx, hj⟩)
  · exact .ret (.success _ _ hj)
  · exact .ret (.recovered _ _ _ hj)
  · exact .ret (.failed _ _ _ hx hj)

theorem PL.mapErr {X : Type} {q : PSem X α} {Q : Nat → PSem X α} (hq : PL e q Q) (f : X → E) :
    PL e (qMapErr f q) (fun m => qMapErr f (Q m)) := by
  intro en i hi
  refine (hq en i hi).bind ?_
  rintro _ _ (⟨o, j, hj⟩ | ⟨o, es, j, hj⟩ | ⟨x, es, j, hx, hj⟩)
  · exact .ret (.success _ _ hj)
  · exact .ret (.recovered _ _ _ hj)
  · exact .ret (.failed _ _ _ hx hj)

theorem PL.mapErrWithSpan {X : Type} {q : PSem X α} {Q : Nat → PSem X α} (hq : PL e q Q)
    (f : X → S.Span → E) : PL e (qMapErrWithSpan e f q) (fun m => qMapErrWithSpan e f (Q m)) := by
  intro en i hi
  refine (hq en i hi).bind ?_
  rintro _ _ (⟨o, j, hj⟩ | ⟨o, es, j, hj⟩ | ⟨x, es, j, hx, hj⟩)
  · exact .ret (.success _ _ hj)
  · exact .ret (.recovered _ _ _ hj)
  · exact .ret (.failed _ _ _ hx hj)

theorem tryMapStep_lim (f : α → S.Span → TryMapResult β E) (en : Bool) {i j : Nat} (hi : Valid e i)
    (hj : Valid e j) (a : α) : Lim (RV e) (tryMapStep e f en i j a) (fun _ => tryMapStep e f en i j a) := by
  unfold tryMapStep
  cases f a (e.spanOf i j) with
  | ok o => exact .ret (.success _ _ hj)
  | err es =>
    cases es with
    | nil => exact .fail
    | cons d ds => exact .ret (.failed _ _ _ hi hi)
  | recovered o es =>
    cases es with
    | nil => exact .fail
    | cons d ds =>
      cases en with
      | true => exact .ret (.recovered _ _ _ hj)
      | false => exact .ret (.failed _ _ _ hi hj)

theorem PL.tryMap (hq : PL e q Q) (f : α → S.Span → TryMapResult β E) :
    PL e (qTryMap e f q) (fun m => qTryMap e f (Q m)) := by
  intro en i hi
  refine (hq en i hi).bind ?_
  rintro _ _ (⟨o, j, hj⟩ | ⟨o, es, j, hj⟩ | ⟨x, es, j, hx, hj⟩)
  · exact tryMapStep_lim f en hi hj o
  · refine (tryMapStep_lim f en hi hj o).bind ?_
    rintro _ _ (⟨o, j, hj⟩ | ⟨o, es, j, hj⟩ | ⟨x, es, j, hx, hj⟩)
    · exact .ret (.success _ _ hj)
    · exact .ret (.recovered _ _ _ hj)
    · exact .ret (.failed _ _ _ hx hj)
  · exact .ret (.failed _ _ _ hx hj)

theorem finishSem_lim (en : Bool) (o : α) (r : Option (List E)) {j : Nat} (hj : Valid e j) :
    Lim (RV e) (finishSem en o r j) (fun _ => finishSem en o r j) := by
  unfold finishSem
  cases r with
  | none => exact .ret (.success _ _ hj)
  | some es =>
    cases en with
    | true => exact .ret (.recovered _ _ _ hj)
    | false => exact .fail

/-- Lists of parsers. -/
inductive PLs {E α : Type} (e : Env S) : List (PSem E α) → (Nat → List (PSem E α)) → Prop
  | nil : PLs e [] (fun _ => [])
  | cons {q Q qs Qs} : PL e q Q → PLs e qs Qs → PLs e (q :: qs) (fun m => Q m :: Qs m)

theorem concatRest_lim {qs : List (PSem E α)} {Qs : Nat → List (PSem E α)} (hq : PLs e qs Qs) (en : Bool)
    {i0 : Nat} (h0 : Valid e i0) : ∀ out r i, Valid e i →
    Lim (RV e) (concatRestSem en i0 qs out r i) (fun m => concatRestSem en i0 (Qs m) out r i) := by
  induction hq with
  | nil => intro out r i hi; exact finishSem_lim _ _ _ hi
  | cons h1 _ ih =>
    intro out r i hi
    refine (h1 en i hi).bind ?_
    rintro _ _ (⟨o, j, hj⟩ | ⟨o, es, j, hj⟩ | ⟨x, es, j, hx, hj⟩)
    · exact ih _ _ _ hj
    · exact ih _ _ _ hj
    · exact .ret (.failed _ _ _ hx h0)

theorem PLs.concat {qs : List (PSem E α)} {Qs : Nat → List (PSem E α)} (hq : PLs e qs Qs) :
    PL e (qConcat qs) (fun m => qConcat (Qs m)) := by
  intro en i hi
  cases hq with
  | nil => exact .ret (.success _ _ hi)
  | cons h1 h2 =>
    refine (h1 en i hi).bind ?_
    rintro _ _ (⟨o, j, hj⟩ | ⟨o, es, j, hj⟩ | ⟨x, es, j, hx, hj⟩)
    · exact concatRest_lim h2 en hi _ _ _ hj
    · exact concatRest_lim h2 en hi _ _ _ hj
    · exact .ret (.failed _ _ _ hx hj)

theorem concatLast_lim {qb : PSem E β} {Qb : Nat → PSem E β} (hb : PL e qb Qb) (en : Bool) {i0 : Nat}
    (h0 : Valid e i0) (f : β → γ) (r : Option (List E)) {i : Nat} (hi : Valid e i) :
    Lim (RV e) (concatLastSem en i0 f qb r i) (fun m => concatLastSem en i0 f (Qb m) r i) := by
  refine (hb en i hi).bind ?_
  rintro _ _ (⟨o, j, hj⟩ | ⟨o, es, j, hj⟩ | ⟨x, es, j, hx, hj⟩)
  · exact finishSem_lim _ _ _ hj
  · exact finishSem_lim _ _ _ hj
  · exact .ret (.failed _ _ _ hx h0)

theorem PL.concat2 {qb : PSem E β} {Qb : Nat → PSem E β} (ha : PL e q Q) (hb : PL e qb Qb) (f : α × β → γ) :
    PL e (qConcat2 f q qb) (fun m => qConcat2 f (Q m) (Qb m)) := by
  intro en i hi
  refine (ha en i hi).bind ?_
  rintro _ _ (⟨o, j, hj⟩ | ⟨o, es, j, hj⟩ | ⟨x, es, j, hx, hj⟩)
  · exact concatLast_lim hb en hi _ _ hj
  · exact concatLast_lim hb en hi _ _ hj
  · exact .ret (.failed _ _ _ hx hj)

theorem concatMid_lim {qb : PSem E β} {Qb : Nat → PSem E β} {qc : PSem E γ} {Qc : Nat → PSem E γ}
    (hb : PL e qb Qb) (hc : PL e qc Qc) (en : Bool) {i0 : Nat} (h0 : Valid e i0) (f : β × γ → δ)
    (r : Option (List E)) {i : Nat} (hi : Valid e i) :
    Lim (RV e) (concatMidSem en i0 f qb qc r i) (fun m => concatMidSem en i0 f (Qb m) (Qc m) r i) := by
  refine (hb en i hi).bind ?_
  rintro _ _ (⟨o, j, hj⟩ | ⟨o, es, j, hj⟩ | ⟨x, es, j, hx, hj⟩)
  · exact concatLast_lim hc en h0 _ _ hj
  · exact concatLast_lim hc en h0 _ _ hj
  · exact .ret (.failed _ _ _ hx h0)

theorem PL.concat3 {qb : PSem E β} {Qb : Nat → PSem E β} {qc : PSem E γ} {Qc : Nat → PSem E γ}
    (ha : PL e q Q) (hb : PL e qb Qb) (hc : PL e qc Qc) (f : α × β × γ → δ) :
    PL e (qConcat3 f q qb qc) (fun m => qConcat3 f (Q m) (Qb m) (Qc m)) := by
  intro en i hi
  refine (ha en i hi).bind ?_
  rintro _ _ (⟨o, j, hj⟩ | ⟨o, es, j, hj⟩ | ⟨x, es, j, hx, hj⟩)
  · exact concatMid_lim hb hc en hi _ _ hj
  · exact concatMid_lim hb hc en hi _ _ hj
  · exact .ret (.failed _ _ _ hx hj)

/-! ## Repetition -/

theorem repItem_lim (hq : PL e q Q) (cfg : RepCfg) (en : Bool) {i0 : Nat} (h0 : Valid e i0)
    {again : List α → Option (List E) → Nat → Out (Res (List α) E × Nat)}
    {Again : Nat → List α → Option (List E) → Nat → Out (Res (List α) E × Nat)}
    (hag : ∀ out r i, Valid e i → Lim (RV e) (again out r i) (fun m => Again m out r i))
    (out : List α) (r : Option (List E)) (b : Option Nat) (hb : ∀ x, b = some x → Valid e x) {i : Nat}
    (hi : Valid e i) :
    Lim (RV e) (repItemSem cfg q en i0 again out r b i)
      (fun m => repItemSem cfg (Q m) en i0 (Again m) out r b i) := by
  unfold repItemSem
  by_cases h1 : (cfg.allowTrailing && cfg.atMax out.length) = true
  · simp only [if_pos h1]
    exact finishSem_lim _ _ _ hi
  · simp only [if_neg h1]
    refine (hq _ i hi).bind ?_
    rintro _ _ (⟨o, j, hj⟩ | ⟨o, es, j, hj⟩ | ⟨x, es, j, hx, hj⟩)
    · exact hag _ _ _ hj
    · exact hag _ _ _ hj
    · by_cases h2 : cfg.minimum ≤ out.length
      · simp only [if_pos h2]
        cases b with
        | none => exact .ret (.success _ _ hj)
        | some b =>
          by_cases h3 : cfg.allowTrailing = true
          · simp only [if_pos h3]
            exact .ret (.success _ _ hj)
          · simp only [if_neg h3]
            exact .ret (.success _ _ (hb b rfl))
      · simp only [if_neg h2]
        exact .ret (.failed _ _ _ hx h0)

/-- Optional separators. -/
inductive POptL {E β : Type} (e : Env S) : Option (PSem E β) → (Nat → Option (PSem E β)) → Prop
  | none : POptL e .none (fun _ => .none)
  | some {p : PSem E β} {P : Nat → PSem E β} : PL e p P → POptL e (.some p) (fun m => .some (P m))

theorem repLoop_lim (hq : PL e q Q) (cfg : RepCfg) {sep : Option (PSem E β)} {Sep : Nat → Option (PSem E β)}
    (hs : POptL e sep Sep) (en : Bool) {i0 : Nat} (h0 : Valid e i0) : ∀ {n : Nat} {φ : Nat → Nat}, Tends φ →
    ∀ out r i, Valid e i →
    Lim (RV e) (repLoopSem cfg q sep en i0 n out r i)
      (fun m => repLoopSem cfg (Q m) (Sep m) en i0 (φ m) out r i) := by
  intro n
  induction n with
  | zero => intro φ hφ out r i hi; exact .oof
  | succ n ih =>
    intro φ hφ out r i hi
    obtain ⟨m0, hm0⟩ := hφ.succ
    refine Lim.congr (X := fun m => repLoopSem cfg (Q m) (Sep m) en i0 (φ m - 1 + 1) out r i) ?_ m0
      (fun m hm => by rw [← hm0 m hm])
    have hag := fun out r i hi => ih hφ.pred out r i hi
    unfold repLoopSem
    by_cases h1 : (!cfg.allowTrailing && cfg.atMax out.length) = true
    · simp only [if_pos h1]
      exact finishSem_lim _ _ _ hi
    · simp only [if_neg h1]
      cases hs with
      | none => exact repItem_lim hq cfg en h0 hag out r none (fun _ h => by cases h) hi
      | some hs =>
        cases hb : (!out.isEmpty || cfg.allowLeading) with
        | false => exact repItem_lim hq cfg en h0 hag out r none (fun _ h => by cases h) hi
        | true =>
          have hi' : ∀ x, some i = some x → Valid e x := fun x h => by cases h; exact hi
          refine (hs _ i hi).bind ?_
          rintro _ _ (⟨o, j, hj⟩ | ⟨o, es, j, hj⟩ | ⟨x, es, j, hx, hj⟩)
          · exact repItem_lim hq cfg en h0 hag out r (some i) hi' hj
          · exact repItem_lim hq cfg en h0 hag out _ (some i) hi' hj
          · cases out with
            | nil => exact repItem_lim hq cfg en h0 hag _ r (some i) hi' hj
            | cons o out =>
              by_cases h2 : cfg.minimum ≤ (o :: out).length
              · simp only [List.isEmpty_cons, Bool.false_eq_true, if_false, if_pos h2]
                exact .ret (.success _ _ hj)
              · simp only [List.isEmpty_cons, Bool.false_eq_true, if_false, if_neg h2]
                exact .ret (.failed _ _ _ hx h0)

theorem PL.repeat_ (hq : PL e q Q) (cfg : RepCfg) {sep : Option (PSem E β)} {Sep : Nat → Option (PSem E β)}
    (hs : POptL e sep Sep) (n : Nat) :
    PL e (qRepeat n cfg q sep) (fun m => qRepeat m cfg (Q m) (Sep m)) :=
  fun en i hi => repLoop_lim hq cfg hs en hi .id [] none i hi

/-! ## Choice -/

/-- Lists of failures. -/
inductive FL {E α : Type} (e : Env S) : List (FailSem E α) → (Nat → List (FailSem E α)) → Prop
  | nil : FL e [] (fun _ => [])
  | cons {x es q Q fs Fs} : Valid e x → PL e q Q → FL e fs Fs →
      FL e ((x, es, q) :: fs) (fun m => (x, es, Q m) :: Fs m)

theorem FL.append {fs gs : List (FailSem E α)} {Fs Gs : Nat → List (FailSem E α)} (h : FL e fs Fs)
    (h' : FL e gs Gs) : FL e (fs ++ gs) (fun m => Fs m ++ Gs m) := by
  induction h with
  | nil => exact h'
  | cons hx h1 _ ih => exact .cons hx h1 ih

theorem FL.insert {x : Nat} (hx : Valid e x) {es : List E} (hq : PL e q Q) {fs : List (FailSem E α)}
    {Fs : Nat → List (FailSem E α)} (h : FL e fs Fs) :
    FL e (insertDesc (x, es, q) fs) (fun m => insertDesc (x, es, Q m) (Fs m)) := by
  induction h with
  | nil => exact .cons hx hq .nil
  | @cons y es' p p' fs fs' hy h1 h2 ih =>
    unfold insertDesc
    by_cases hlt : y < x
    · simp only [if_pos hlt]
      exact .cons hx hq (.cons hy h1 h2)
    · simp only [if_neg hlt]
      exact .cons hy h1 ih

theorem FL.sort_aux {fs : List (FailSem E α)} {Fs : Nat → List (FailSem E α)} (h : FL e fs Fs) :
    ∀ {acc : List (FailSem E α)} {Acc : Nat → List (FailSem E α)}, FL e acc Acc →
    FL e (fs.foldl (fun acc x => insertDesc x acc) acc)
      (fun m => (Fs m).foldl (fun acc x => insertDesc x acc) (Acc m)) := by
  induction h with
  | nil => intro acc Acc h; exact h
  | cons hx h1 _ ih => intro acc Acc h; exact ih (FL.insert hx h1 h)

theorem FL.sort {fs : List (FailSem E α)} {Fs : Nat → List (FailSem E α)} (h : FL e fs Fs) :
    FL e (sortDesc fs) (fun m => sortDesc (Fs m)) := h.sort_aux .nil

/-- Outcome of the first pass. -/
inductive AL {E α : Type} (e : Env S) :
    (α ⊕ List (FailSem E α)) × Nat → (Nat → (α ⊕ List (FailSem E α)) × Nat) → Prop
  | inl (o : α) (j : Nat) : Valid e j → AL e (.inl o, j) (fun _ => (.inl o, j))
  | inr {fs Fs} (j : Nat) : Valid e j → FL e fs Fs → AL e (.inr fs, j) (fun m => (.inr (Fs m), j))

theorem altFirst_lim {qs : List (PSem E α)} {Qs : Nat → List (PSem E α)} (hq : PLs e qs Qs) :
    ∀ {fs : List (FailSem E α)} {Fs : Nat → List (FailSem E α)}, FL e fs Fs → ∀ i, Valid e i →
    Lim (AL e) (altFirstSem qs fs i) (fun m => altFirstSem (Qs m) (Fs m) i) := by
  induction hq with
  | nil => intro fs Fs h i hi; exact .ret (.inr _ hi h)
  | cons h1 _ ih =>
    intro fs Fs h i hi
    refine (h1 false i hi).bind ?_
    rintro _ _ (⟨o, j, hj⟩ | ⟨o, es, j, hj⟩ | ⟨x, es, j, hx, hj⟩)
    · exact .ret (.inl _ _ hj)
    · exact .fail
    · exact ih (h.append (.cons hx h1 .nil)) _ hj

/-- Outcome of the recovery pass. -/
inductive AL2 {E α : Type} (e : Env S) : Option (Res α E) × Nat → (Nat → Option (Res α E) × Nat) → Prop
  | none (j : Nat) : Valid e j → AL2 e (none, j) (fun _ => (none, j))
  | some (o : α) (es : List E) (j : Nat) : Valid e j →
      AL2 e (some (.recovered o es), j) (fun _ => (some (.recovered o es), j))

theorem altRecover_lim {fs : List (FailSem E α)} {Fs : Nat → List (FailSem E α)} (h : FL e fs Fs) :
    ∀ i, Valid e i → Lim (AL2 e) (altRecoverSem fs i) (fun m => altRecoverSem (Fs m) i) := by
  induction h with
  | nil => intro i hi; exact .ret (.none _ hi)
  | cons _ h1 _ ih =>
    intro i hi
    refine (h1 true i hi).bind ?_
    rintro _ _ (⟨o, j, hj⟩ | ⟨o, es, j, hj⟩ | ⟨x, es, j, hx, hj⟩)
    · exact .fail
    · exact .ret (.some _ _ _ hj)
    · exact ih _ hj

theorem FL.keys {fs : List (FailSem E α)} {Fs : Nat → List (FailSem E α)} (h : FL e fs Fs) (m : Nat) :
    (Fs m).map (fun f => (f.1, f.2.1)) = fs.map fun f => (f.1, f.2.1) := by
  induction h with
  | nil => rfl
  | cons _ h1 _ ih => simp [ih]

theorem FL.valid {fs : List (FailSem E α)} {Fs : Nat → List (FailSem E α)} (h : FL e fs Fs) :
    ∀ f ∈ fs.map (fun f => (f.1, f.2.1)), Valid e f.1 := by
  induction h with
  | nil => intro f hf; cases hf
  | cons hx h1 _ ih =>
    intro f hf
    rcases List.mem_cons.1 hf with rfl | hf
    · exact hx
    · exact ih f hf

theorem altCombine_lim (ε : ErrTy S) (fs : List (Nat × List ε.E)) (hf : ∀ f ∈ fs, Valid e f.1) {i : Nat}
    (hi : Valid e i) :
    Lim (RV e) (altCombineSem (α := α) ε fs i) (fun _ => altCombineSem (α := α) ε fs i) := by
  cases fs with
  | nil => exact .fail
  | cons f rest =>
    obtain ⟨x, es⟩ := f
    have hx : Valid e x := hf _ (List.mem_cons_self ..)
    have hrest : ∀ f ∈ rest, Valid e f.1 := fun f h => hf f (List.mem_cons_of_mem _ h)
    match es with
    | [] =>
      cases rest with
      | nil => exact .fail
      | cons f rest => exact .ret (.failed _ _ _ (hrest f (List.mem_cons_self ..)) hi)
    | [d] =>
      simp only [altCombineSem]
      cases hd : ε.isExpectedFound d with
      | true =>
        simp only [if_true]
        exact .ret (.failed _ _ _ hx hi)
      | false =>
        simp only [Bool.false_eq_true, if_false]
        cases rest with
        | nil => exact .fail
        | cons f rest => exact .ret (.failed _ _ _ (hrest f (List.mem_cons_self ..)) hi)
    | d :: d' :: ds =>
      cases rest with
      | nil => exact .fail
      | cons f rest => exact .ret (.failed _ _ _ (hrest f (List.mem_cons_self ..)) hi)

theorem FL.isEmpty {fs : List (FailSem E α)} {Fs : Nat → List (FailSem E α)} (h : FL e fs Fs) (m : Nat) :
    (Fs m).isEmpty = fs.isEmpty := by
  cases h <;> rfl

theorem PLs.alternate (ε : ErrTy S) {qs : List (PSem ε.E α)} {Qs : Nat → List (PSem ε.E α)}
    (hq : PLs e qs Qs) : PL e (qAlternate ε qs) (fun m => qAlternate ε (Qs m)) := by
  intro en i hi
  refine (altFirst_lim hq .nil i hi).bind ?_
  rintro _ _ (⟨o, j, hj⟩ | ⟨j, hj, hf⟩)
  · exact .ret (.success _ _ hj)
  · simp only [hf.isEmpty, hf.sort.keys]
    rename_i fs Fs
    cases fs with
    | nil => exact .fail
    | cons f fs =>
      simp only [List.isEmpty_cons, Bool.false_eq_true, if_false]
      cases en with
      | false =>
        simp only [Bool.false_eq_true, if_false]
        exact altCombine_lim ε _ hf.sort.valid hj
      | true =>
        simp only [if_true]
        refine (altRecover_lim hf.sort j hj).bind ?_
        rintro _ _ (⟨l, hl⟩ | ⟨o, es, l, hl⟩)
        · exact altCombine_lim ε _ hf.sort.valid hl
        · exact .ret (.recovered _ _ _ hl)

/-! ## Recovery -/

theorem TL.orElse {s t : SSem E α} {s' t' : Nat → SSem E α} (hs : TL e s s') (ht : TL e t t') :
    TL e (s.orElse t) (fun m => (s' m).orElse (t' m)) := by
  intro q Q hq st fa es i hst hfa hi
  refine (hs q Q hq st fa es i hst hfa hi).bind ?_
  rintro _ _ ⟨o, fa', es', j, hfa', hj⟩
  cases o with
  | none => exact ht q Q hq st fa' es' j hst hfa' hj
  | some o => exact .ret (.mk _ _ _ _ hfa' hj)

theorem giveUp_lim {fa : Nat} (hfa : Valid e fa) (es : List E) {j : Nat} (hj : Valid e j) :
    Lim (SV e) (giveUp fa es j : Out ((Option α × Nat × List E) × Nat)) (fun _ => giveUp fa es j) :=
  .ret (.mk _ _ _ _ hfa hj)

theorem findSem_lim (p : S.I → Bool) : ∀ {n : Nat} {φ : Nat → Nat}, Tends φ → ∀ i, Valid e i →
    Lim (NV e) (findSem e p n i) (fun m => findSem e p (φ m) i) := by
  intro n
  induction n with
  | zero => intro φ hφ i hi; exact .oof
  | succ n ih =>
    intro φ hφ i hi
    obtain ⟨m0, hm0⟩ := hφ.succ
    refine Lim.congr (X := fun m => findSem e p (φ m - 1 + 1) i) ?_ m0 (fun m hm => by rw [← hm0 m hm])
    unfold findSem
    by_cases h : e.tokIs p true i = true
    · simp only [if_pos h]
      exact .ret ⟨rfl, hi⟩
    · simp only [if_neg h]
      exact ih hφ.pred _ hi.next

theorem scanSem_lim (sc : Scanner S E) : ∀ {n : Nat} {φ : Nat → Nat}, Tends φ → ∀ st es i, Valid e i →
    Lim (fun (x : List E × Nat) (y : Nat → List E × Nat) => (y = fun _ => x) ∧ Valid e x.2)
      (scanSem e sc n st es i) (fun m => scanSem e sc (φ m) st es i) := by
  intro n
  induction n with
  | zero => intro φ hφ st es i hi; exact .oof
  | succ n ih =>
    intro φ hφ st es i hi
    obtain ⟨m0, hm0⟩ := hφ.succ
    refine Lim.congr (X := fun m => scanSem e sc (φ m - 1 + 1) st es i) ?_ m0
      (fun m hm => by rw [← hm0 m hm])
    unfold scanSem
    cases hs : e.source i with
    | none => exact .ret ⟨rfl, hi⟩
    | some t =>
      simp only
      match hsc : sc.scan t (e.here i) st es with
      | .error m => exact .fail
      | .ok (true, _, es') => exact .ret ⟨rfl, hi⟩
      | .ok (false, st', es') => exact ih hφ.pred _ _ _ (hi.succ (by rw [hs]; rfl))

theorem whileNot_lim (p : S.I → Bool) {s : SSem E α} {s' : Nat → SSem E α} (hs : TL e s s')
    (hq : PL e q Q) {st : Nat} (hst : Valid e st) : ∀ {n : Nat} {φ : Nat → Nat}, Tends φ →
    ∀ fa es i, Valid e fa → Valid e i →
    Lim (SV e) (whileNotSem e p s q st n fa es i) (fun m => whileNotSem e p (s' m) (Q m) st (φ m) fa es i) := by
  intro n
  induction n with
  | zero => intro φ hφ fa es i hfa hi; exact .oof
  | succ n ih =>
    intro φ hφ fa es i hfa hi
    obtain ⟨m0, hm0⟩ := hφ.succ
    refine Lim.congr (X := fun m => whileNotSem e p (s' m) (Q m) st (φ m - 1 + 1) fa es i) ?_ m0
      (fun m hm => by rw [← hm0 m hm])
    unfold whileNotSem
    by_cases h : e.tokIs p true i = true
    · simp only [if_pos h]
      exact giveUp_lim hfa _ hi
    · simp only [if_neg h]
      refine (hs q Q hq st fa es i hst hfa hi).bind ?_
      rintro _ _ ⟨o, fa', es', j, hfa', hj⟩
      cases o with
      | none => exact ih hφ.pred _ _ _ hfa' hj.next
      | some o => exact .ret (.mk _ _ _ _ hfa' hj)

theorem saveAt_lim {x : Nat} (hx : Valid e x) (i : Nat) :
    Lim (NV e) (saveAtSem x i) (fun _ => saveAtSem x i) := by
  unfold saveAtSem
  by_cases hlt : x < i
  · simp only [if_pos hlt]; exact .fail
  · simp only [if_neg hlt]; exact .ret ⟨rfl, hx⟩

theorem runIn_lim (hq : PL e q Q) (exact_ silent : Bool) {fa : Nat} (hfa : Valid e fa) (es : List E) {i : Nat}
    (hi : Valid e i) :
    Lim (SV e) (runInSem q exact_ silent fa es i) (fun m => runInSem (Q m) exact_ silent fa es i) := by
  refine (hq _ i hi).bind ?_
  rintro _ _ (⟨o, j, hj⟩ | ⟨o, es, j, hj⟩ | ⟨x, es, j, hx, hj⟩)
  · exact .ret (.mk _ _ _ _ hfa hj)
  · exact .ret (.mk _ _ _ _ hfa hj)
  · refine (saveAt_lim hx j).bind ?_
    rintro y _ ⟨rfl, hy⟩
    exact giveUp_lim hy _ hj

theorem PL.toRecover (hq : PL e q Q) {s : SSem E α} {s' : Nat → SSem E α} (hs : TL e s s') :
    PL e (qToRecover q s) (fun m => qToRecover (Q m) (s' m)) := by
  intro en i hi
  refine (hq en i hi).bind ?_
  rintro _ _ (⟨o, j, hj⟩ | ⟨o, es, j, hj⟩ | ⟨x, es, j, hx, hj⟩)
  · exact .ret (.success _ _ hj)
  · exact .ret (.recovered _ _ _ hj)
  · cases en with
    | false => exact .ret (.failed _ _ _ hx hj)
    | true =>
      simp only [Bool.not_true, Bool.false_eq_true, if_false]
      refine (saveAt_lim hx j).bind ?_
      rintro fa _ ⟨rfl, hfa⟩
      refine (hs q Q hq j fa es j hj hfa hj).bind ?_
      rintro _ _ ⟨o, fa', es', l, hfa', hl⟩
      cases o with
      | none => exact .ret (.failed _ _ _ hx hj)
      | some o => exact .ret (.recovered _ _ _ hl)

end

end PPC
