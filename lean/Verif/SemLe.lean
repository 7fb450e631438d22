import Verif.SpecDepth
import Verif.SemCost

/-!
# A program that is cut off earlier makes the same calls up to there

`Prog.Le R p q`: `q` is `p`, except that it goes on in some places where `p` is out of fuel; `R` relates what they return.
-/

namespace PPC

open Prog

variable {S : Sig}

inductive Prog.Le {α β : Type} (R : α → β → Prop) : Prog S α → Prog S β → Prop where
  | oof {q : Prog S β} : Prog.Le R .oof q
  | ret {a : α} {b : β} : R a b → Prog.Le R (.ret a) (.ret b)
  | panic {m : String} : Prog.Le R (.panic m) (.panic m)
  | op {o : Op S} {k : o.Resp → Prog S α} {k' : o.Resp → Prog S β} : (∀ x, Prog.Le R (k x) (k' x)) →
      Prog.Le R (.op o k) (.op o k')

namespace Prog.Le

theorem refl {α : Type} : (p : Prog S α) → Prog.Le Eq p p
  | .ret _ => .ret rfl
  | .panic _ => .panic
  | .oof => .oof
  | .op _ k => .op fun x => refl (k x)

theorem bindR {α β γ δ : Type} {R : α → β → Prop} {R' : γ → δ → Prop} {p : Prog S α} {q : Prog S β}
    {f : α → Prog S γ} {g : β → Prog S δ} (h : Prog.Le R p q) (hf : ∀ a b, R a b → Prog.Le R' (f a) (g b)) :
    Prog.Le R' (p.bind f) (q.bind g) := by
  induction h with
  | oof => exact .oof
  | ret h => exact hf _ _ h
  | panic => exact .panic
  | op _ ih => exact .op ih

theorem bind {α γ δ : Type} {R' : γ → δ → Prop} {p q : Prog S α} {f : α → Prog S γ} {g : α → Prog S δ}
    (h : Prog.Le Eq p q) (hf : ∀ a, Prog.Le R' (f a) (g a)) : Prog.Le R' (p.bind f) (q.bind g) :=
  h.bindR fun a _ h => h ▸ hf a

theorem calls_le {α β σ : Type} {R : α → β → Prop} {step : (o : Op S) → σ → Out (o.Resp × σ)} {p : Prog S α}
    {q : Prog S β} (h : Prog.Le R p q) : ∀ s, p.calls step s ≤ q.calls step s := by
  induction h with
  | oof => intro s; exact Nat.zero_le _
  | ret h => intro s; exact Nat.le_refl _
  | panic => intro s; exact Nat.le_refl _
  | @op o k k' _ ih =>
    intro s
    simp only [Prog.calls]
    cases step o s with
    | ok x => exact Nat.add_le_add_left (ih _ _) 1
    | _ => exact Nat.le_refl _

theorem calls_eq {α β σ : Type} {R : α → β → Prop} {step : (o : Op S) → σ → Out (o.Resp × σ)} {p : Prog S α}
    {q : Prog S β} (h : Prog.Le R p q) : ∀ s, p.run step s ≠ .oof → q.calls step s = p.calls step s := by
  induction h with
  | oof => intro s hs; exact (hs rfl).elim
  | ret h => intro s _; rfl
  | panic => intro s _; rfl
  | @op o k k' _ ih =>
    intro s hs
    simp only [Prog.run] at hs
    simp only [Prog.calls]
    cases h : step o s with
    | ok x => rw [h] at hs; exact congrArg _ (ih _ _ hs)
    | _ => rfl

end Prog.Le

/-- For parsers. -/
def PLe {E α : Type} (p q : Parser S E α) : Prop := ∀ en, Prog.Le Eq (p en) (q en)

/-- For strategies. -/
def SLe {E α : Type} (s t : Strat S E α) : Prop :=
  ∀ p q, PLe p q → ∀ st fa es, Prog.Le Eq (s p st fa es) (t q st fa es)

inductive PLes {E α : Type} : List (Parser S E α) → List (Parser S E α) → Prop where
  | nil : PLes [] []
  | cons {p q : Parser S E α} {ps qs : List (Parser S E α)} : PLe p q → PLes ps qs → PLes (p :: ps) (q :: qs)

theorem PLe.refl {E α : Type} (p : Parser S E α) : PLe p p := fun _ => .refl _

section

variable {E α β γ δ : Type}

theorem PLe.post {X : Type} {p q : Parser S E α} (h : PLe p q) (f : Res α E → Res β X) :
    PLe (fun en => (p en).bind fun r => .ret (f r)) (fun en => (q en).bind fun r => .ret (f r)) :=
  fun en => (h en).bind fun _ => .refl _

theorem withSave_le {f g : SavedState → Prog S α} (h : ∀ m, Prog.Le Eq (f m) (g m)) :
    Prog.Le Eq (Prog.withSave f) (Prog.withSave g) :=
  (Prog.Le.refl _).bind fun m => (h m).bind fun _ => .refl _

theorem pMapWithSpan_le {f : α → S.Span → β} {p q : Parser S E α} (h : PLe p q) :
    PLe (pMapWithSpan f p) (pMapWithSpan f q) :=
  fun en => withSave_le fun _ => (h en).bind fun _ => .refl _

theorem pMapErrWithSpan_le {X : Type} {f : X → S.Span → E} {p q : Parser S X α} (h : PLe p q) :
    PLe (pMapErrWithSpan f p) (pMapErrWithSpan f q) :=
  fun en => withSave_le fun _ => (h en).bind fun _ => .refl _

theorem pTryMap_le {f : α → S.Span → TryMapResult β E} {p q : Parser S E α} (h : PLe p q) :
    PLe (pTryMap f p) (pTryMap f q) :=
  fun en => withSave_le fun _ => (h en).bind fun _ => .refl _

theorem concatLast_le {en : Bool} {m : SavedState} {f : β → γ} {p q : Parser S E β} (h : PLe p q)
    {r : Option (List E)} : Prog.Le Eq (concatLast en m f p r) (concatLast en m f q r) :=
  (h en).bind fun _ => .refl _

theorem concat2_le {f : α × β → γ} {p q : Parser S E α} {p' q' : Parser S E β} (h : PLe p q) (h' : PLe p' q') :
    PLe (concat2 f p p') (concat2 f q q') :=
  fun en => withSave_le fun _ => (h en).bind fun
    | .success _ => concatLast_le h'
    | .recovered _ _ => concatLast_le h'
    | .failed _ _ => .refl _

theorem concatMid_le {en : Bool} {m : SavedState} {f : β × γ → δ} {p q : Parser S E β} {p' q' : Parser S E γ}
    (h : PLe p q) (h' : PLe p' q') {r : Option (List E)} :
    Prog.Le Eq (concatMid en m f p p' r) (concatMid en m f q q' r) :=
  (h en).bind fun
    | .success _ => concatLast_le h'
    | .recovered _ _ => concatLast_le h'
    | .failed _ _ => .refl _

theorem concat3_le {f : α × β × γ → δ} {p q : Parser S E α} {p' q' : Parser S E β} {p'' q'' : Parser S E γ}
    (h : PLe p q) (h' : PLe p' q') (h'' : PLe p'' q'') : PLe (concat3 f p p' p'') (concat3 f q q' q'') :=
  fun en => withSave_le fun _ => (h en).bind fun
    | .success _ => concatMid_le h' h''
    | .recovered _ _ => concatMid_le h' h''
    | .failed _ _ => .refl _

theorem concatRest_le {en : Bool} {m : SavedState} {ps qs : List (Parser S E α)} (h : PLes ps qs) :
    ∀ out r, Prog.Le Eq (concatRest en m ps out r) (concatRest en m qs out r) := by
  induction h with
  | nil => exact fun _ _ => .refl _
  | cons h _ ih =>
    exact fun out r => (h en).bind fun
      | .success _ => ih _ _
      | .recovered _ _ => ih _ _
      | .failed _ _ => .refl _

theorem concatList_le {ps qs : List (Parser S E α)} (h : PLes ps qs) : PLe (concatList ps) (concatList qs) :=
  fun en => withSave_le fun _ => by
    cases h with
    | nil => exact .refl _
    | cons h h' =>
      exact (h en).bind fun
        | .success _ => concatRest_le h' _ _
        | .recovered _ _ => concatRest_le h' _ _
        | .failed _ _ => .refl _

theorem repeatItem_le {cfg : RepCfg} {p q : Parser S E α} (h : PLe p q) {en : Bool} {m : SavedState}
    {f g : List α → Option (List E) → Prog S (Res (List α) E)} (hf : ∀ out r, Prog.Le Eq (f out r) (g out r))
    {out : List α} {r : Option (List E)} {before : Option SavedState} :
    Prog.Le Eq (repeatItem cfg p en m f out r before) (repeatItem cfg q en m g out r before) := by
  unfold repeatItem
  dsimp only
  split
  · exact .refl _
  · exact (h _).bind fun
      | .success _ => (Prog.Le.refl _).bind fun _ => hf _ _
      | .recovered _ _ => (Prog.Le.refl _).bind fun _ => hf _ _
      | .failed _ _ => .refl _

inductive OLeP {E β : Type} : Option (Parser S E β) → Option (Parser S E β) → Prop where
  | none : OLeP none none
  | some {p q : Parser S E β} : PLe p q → OLeP (some p) (some q)

theorem repeatLoop_le {cfg : RepCfg} {p q : Parser S E α} (h : PLe p q) {s t : Option (Parser S E β)} (hs : OLeP s t)
    {en : Bool} {m : SavedState} : ∀ {n n' : Nat}, n ≤ n' → ∀ out r,
      Prog.Le Eq (repeatLoop cfg p s en m n out r) (repeatLoop cfg q t en m n' out r) := by
  intro n
  induction n with
  | zero => intro n' _ out r; exact .oof
  | succ n ih =>
    intro n' hn out r
    obtain ⟨n', rfl⟩ : ∃ k, n' = k + 1 := ⟨n' - 1, by omega⟩
    have ih := ih (show n ≤ n' by omega)
    unfold repeatLoop
    split
    · exact .refl _
    · cases hs with
      | none => exact repeatItem_le h ih
      | some hs =>
        cases hl : (!out.isEmpty || cfg.allowLeading) with
        | false => exact repeatItem_le h ih
        | true =>
          refine (Prog.Le.refl _).bind fun before => (hs _).bind fun x => ?_
          cases x with
          | success _ => exact repeatItem_le h ih
          | recovered _ _ => exact repeatItem_le h ih
          | failed _ _ =>
            dsimp only
            split
            · exact repeatItem_le h ih
            · exact .refl _

theorem repeatP_le {cfg : RepCfg} {p q : Parser S E α} (h : PLe p q) {s t : Option (Parser S E β)} (hs : OLeP s t)
    {n n' : Nat} (hn : n ≤ n') : PLe (repeatP n cfg p s) (repeatP n' cfg q t) :=
  fun _ => withSave_le fun _ => repeatLoop_le h hs hn _ _

/-! ## Alternatives -/

/-- The same failures of related parsers. -/
inductive FLe {E α : Type} : List (Failure S E α) → List (Failure S E α) → Prop where
  | nil : FLe [] []
  | cons {i : Nat} {es : List E} {p q : Parser S E α} {fs gs : List (Failure S E α)} : PLe p q → FLe fs gs →
      FLe ((i, es, p) :: fs) ((i, es, q) :: gs)

theorem FLe.snoc {i : Nat} {es : List E} {p q : Parser S E α} (h : PLe p q) {fs gs : List (Failure S E α)}
    (hf : FLe fs gs) : FLe (fs ++ [(i, es, p)]) (gs ++ [(i, es, q)]) := by
  induction hf with
  | nil => exact .cons h .nil
  | cons h' _ ih => exact .cons h' ih

theorem FLe.insert {i : Nat} {es : List E} {p q : Parser S E α} (h : PLe p q) {fs gs : List (Failure S E α)}
    (hf : FLe fs gs) : FLe (insertDesc (i, es, p) fs) (insertDesc (i, es, q) gs) := by
  induction hf with
  | nil => exact .cons h .nil
  | cons h' hf ih =>
    unfold insertDesc
    dsimp only
    split
    · exact .cons h (.cons h' hf)
    · exact .cons h' ih

theorem FLe.sort {fs gs : List (Failure S E α)} (hf : FLe fs gs) : FLe (sortDesc fs) (sortDesc gs) := by
  have : ∀ a b : List (Failure S E α), FLe a b →
      FLe (fs.foldl (fun acc x => insertDesc x acc) a) (gs.foldl (fun acc x => insertDesc x acc) b) := by
    induction hf with
    | nil => exact fun _ _ h => h
    | cons h _ ih => exact fun a b hab => ih _ _ (hab.insert h)
  exact this [] [] .nil

theorem FLe.errors {fs gs : List (Failure S E α)} (hf : FLe fs gs) :
    (fs.flatMap fun f => f.2.1) = gs.flatMap fun f => f.2.1 := by
  induction hf with
  | nil => rfl
  | cons _ _ ih => simp only [List.flatMap_cons, ih]

/-- What the first pass of `alternate` returns. -/
inductive FirstLe {E α : Type} : α ⊕ List (Failure S E α) → α ⊕ List (Failure S E α) → Prop where
  | inl {a : α} : FirstLe (.inl a) (.inl a)
  | inr {fs gs : List (Failure S E α)} : FLe fs gs → FirstLe (.inr fs) (.inr gs)

theorem altFirst_le {ps qs : List (Parser S E α)} (h : PLes ps qs) : ∀ fs gs, FLe fs gs →
    Prog.Le FirstLe (altFirst ps fs) (altFirst qs gs) := by
  induction h with
  | nil => exact fun fs gs hf => .ret (.inr hf)
  | cons h _ ih =>
    exact fun fs gs hf => (h false).bind fun
      | .success _ => .ret .inl
      | .recovered _ _ => .panic
      | .failed _ _ => ih _ _ (hf.snoc h)

theorem altRecover_le {fs gs : List (Failure S E α)} (h : FLe fs gs) :
    Prog.Le Eq (altRecover fs) (altRecover gs) := by
  induction h with
  | nil => exact .refl _
  | cons h _ ih =>
    exact (h true).bind fun
      | .success _ => .refl _
      | .recovered _ _ => .refl _
      | .failed _ _ => ih

theorem altElse_le {ε : ErrTy S} {fs gs : List (Failure S ε.E α)} (h : FLe fs gs) :
    Prog.Le Eq (altElse ε fs) (altElse ε gs) := by
  cases h <;> exact .refl _

theorem altCombine_le {ε : ErrTy S} {fs gs : List (Failure S ε.E α)} (h : FLe fs gs) :
    Prog.Le Eq (altCombine ε fs) (altCombine ε gs) := by
  cases h with
  | nil => exact .refl _
  | @cons i es _ _ _ _ h h' =>
    unfold altCombine
    dsimp only
    split
    · split
      · rw [h'.errors]; exact .refl _
      · exact altElse_le h'
    · exact altElse_le h'

theorem alternate_le {ε : ErrTy S} {ps qs : List (Parser S ε.E α)} (h : PLes ps qs) :
    PLe (alternate ε ps) (alternate ε qs) := by
  intro en
  refine (altFirst_le h [] [] .nil).bindR fun a b hab => ?_
  cases hab with
  | inl => exact .refl _
  | @inr fs gs hf =>
    have he : fs.isEmpty = gs.isEmpty := by cases hf <;> rfl
    dsimp only
    rw [he]
    split
    · exact .refl _
    · split
      · refine (altRecover_le hf.sort).bind fun
          | some _ => .refl _
          | none => altCombine_le hf.sort
      · exact altCombine_le hf.sort

/-! ## Recovery -/

theorem Strat.orElse_le {s t a b : Strat S E α} (h : SLe s t) (h' : SLe a b) : SLe (s.orElse a) (t.orElse b) :=
  fun p q hp st fa es => (h p q hp st fa es).bind fun
    | (some _, _, _) => .refl _
    | (none, _, _) => h' p q hp _ _ _

theorem SLe.const {f : SavedState → SavedState → List E → Prog S (RecRes α E)} : SLe (fun _ => f) (fun _ => f) :=
  fun _ _ _ _ _ _ => .refl _

theorem findLoop_le {p : S.I → Bool} : ∀ {n n' : Nat}, n ≤ n' → Prog.Le Eq (findLoop (S := S) p n) (findLoop p n') := by
  intro n
  induction n with
  | zero => intro n' _; exact .oof
  | succ n ih =>
    intro n' hn
    obtain ⟨n', rfl⟩ : ∃ k, n' = k + 1 := ⟨n' - 1, by omega⟩
    refine (Prog.Le.refl _).bind fun b => ?_
    cases b with
    | true => exact .refl _
    | false => exact (Prog.Le.refl _).bind fun _ => ih (by omega)

theorem scanLoop_le {sc : Scanner S E} : ∀ {n n' : Nat}, n ≤ n' → ∀ st es,
    Prog.Le Eq (scanLoop sc n st es) (scanLoop sc n' st es) := by
  intro n
  induction n with
  | zero => intro n' _ _ _; exact .oof
  | succ n ih =>
    intro n' hn st es
    obtain ⟨n', rfl⟩ : ∃ k, n' = k + 1 := ⟨n' - 1, by omega⟩
    refine (Prog.Le.refl _).bind fun t => ?_
    cases t with
    | none => exact .refl _
    | some t =>
      refine (Prog.Le.refl _).bind fun sp => ?_
      split
      · exact .refl _
      · exact .refl _
      · exact (Prog.Le.refl _).bind fun _ => ih (by omega) _ _

theorem whileNotLoop_le {pr : S.I → Bool} {s t : Strat S E α} (h : SLe s t) {p q : Parser S E α} (hp : PLe p q)
    {st : SavedState} : ∀ {n n' : Nat}, n ≤ n' → ∀ fa es,
      Prog.Le Eq (whileNotLoop pr s p st n fa es) (whileNotLoop pr t q st n' fa es) := by
  intro n
  induction n with
  | zero => intro n' _ _ _; exact .oof
  | succ n ih =>
    intro n' hn fa es
    obtain ⟨n', rfl⟩ : ∃ k, n' = k + 1 := ⟨n' - 1, by omega⟩
    refine (Prog.Le.refl _).bind fun b => ?_
    cases b with
    | true => exact .refl _
    | false =>
      exact (h p q hp _ _ _).bind fun
        | (some _, _, _) => .refl _
        | (none, _, _) => (Prog.Le.refl _).bind fun _ => ih (by omega) _ _

theorem runIn_le {p q : Parser S E α} (h : PLe p q) {exact_ silent : Bool} {fa : SavedState} {es : List E} :
    Prog.Le Eq (runIn p exact_ silent fa es) (runIn q exact_ silent fa es) :=
  (h _).bind fun _ => .refl _

theorem pToRecover_le {p q : Parser S E α} (h : PLe p q) {s t : Strat S E α} (hs : SLe s t) :
    PLe (pToRecover p s) (pToRecover q t) := by
  intro en
  refine (h en).bind fun
    | .success _ => .refl _
    | .recovered _ _ => .refl _
    | .failed _ _ => ?_
  dsimp only
  split
  · exact .refl _
  · exact (Prog.Le.refl _).bind fun _ => (Prog.Le.refl _).bind fun _ => (hs p q h _ _ _).bind fun _ => .refl _

end

/-! ## All parsers -/

section

variable {N : Names S} {ρ ρ' : REnv S N} {n n' : Nat}

mutual

theorem G.le (hρ : ∀ k, PLe (ρ k) (ρ' k)) (hn : n ≤ n') : {ε : ErrTy S} → {α : Type} → (g : G S N ε α) →
    PLe (g.denote ρ n) (g.denote ρ' n')
  | _, _, .empty => .refl _
  | _, _, .none _ => .refl _
  | _, _, .eof => .refl _
  | _, _, .just _ => .refl _
  | _, _, .filter _ => .refl _
  | _, _, .filterMap _ => .refl _
  | _, _, .seq _ _ => .refl _
  | _, _, .oneOf _ => .refl _
  | _, _, .noneOf _ => .refl _
  | _, _, .boxed g => by simp only [G.denote]; exact G.le hρ hn g
  | _, _, .withError g => by simp only [G.denote]; exact G.le hρ hn g
  | _, _, .to g _ => by simp only [G.denote]; exact (G.le hρ hn g).post _
  | _, _, .some g => by simp only [G.denote]; exact (G.le hρ hn g).post _
  | _, _, .map _ g => by simp only [G.denote]; exact (G.le hρ hn g).post _
  | _, _, .mapErr _ g => by simp only [G.denote]; exact (G.le hρ hn g).post _
  | _, _, .mapWithSpan _ g => by simp only [G.denote]; exact pMapWithSpan_le (G.le hρ hn g)
  | _, _, .mapErrWithSpan _ g => by simp only [G.denote]; exact pMapErrWithSpan_le (G.le hρ hn g)
  | _, _, .tryMap _ g => by simp only [G.denote]; exact pTryMap_le (G.le hρ hn g)
  | _, _, .then_ a b => by simp only [G.denote]; exact concat2_le (G.le hρ hn a) (G.le hρ hn b)
  | _, _, .thenIgnore a b => by simp only [G.denote]; exact concat2_le (G.le hρ hn a) (G.le hρ hn b)
  | _, _, .ignoreThen a b => by simp only [G.denote]; exact concat2_le (G.le hρ hn a) (G.le hρ hn b)
  | _, _, .delimitedBy l m r => by
    simp only [G.denote]; exact concat3_le (G.le hρ hn l) (G.le hρ hn m) (G.le hρ hn r)
  | _, _, .paddedBy p m => by simp only [G.denote]; exact concat3_le (G.le hρ hn p) (G.le hρ hn m) (G.le hρ hn p)
  | _, _, .chain gs => by simp only [G.denote]; exact concatList_le (GL.le hρ hn gs)
  | _, _, .or a b => by simp only [G.denote]; exact alternate_le (.cons (G.le hρ hn a) (.cons (G.le hρ hn b) .nil))
  | _, _, .orNot g => by
    simp only [G.denote]; exact alternate_le (.cons ((G.le hρ hn g).post _) (.cons (.refl _) .nil))
  | _, _, .alters gs => by simp only [G.denote]; exact alternate_le (GL.le hρ hn gs)
  | _, _, .repeated _ g => by simp only [G.denote]; exact repeatP_le (G.le hρ hn g) .none hn
  | _, _, .separatedBy _ g s => by simp only [G.denote]; exact repeatP_le (G.le hρ hn g) (.some (G.le hρ hn s)) hn
  | _, _, .toRecover g s => by simp only [G.denote]; exact pToRecover_le (G.le hρ hn g) (CS.le hρ hn s)
  | _, _, .call k => by simp only [G.denote]; exact hρ k

theorem GL.le (hρ : ∀ k, PLe (ρ k) (ρ' k)) (hn : n ≤ n') : {ε : ErrTy S} → {α : Type} → (gs : GL S N ε α) →
    PLes (gs.denote ρ n) (gs.denote ρ' n')
  | _, _, .nil => .nil
  | _, _, .cons g gs => .cons (G.le hρ hn g) (GL.le hρ hn gs)

theorem IS.le (hρ : ∀ k, PLe (ρ k) (ρ' k)) (hn : n ≤ n') : {ε : ErrTy S} → {α : Type} → (s : IS S N ε α) →
    SLe (s.denote ρ n) (s.denote ρ' n')
  | _, _, .attemptTo => .const
  | _, _, .restart s => by simp only [IS.denote]; exact Strat.orElse_le (IS.le hρ hn s) .const
  | _, _, .seekToFailed s => by simp only [IS.denote]; exact Strat.orElse_le (IS.le hρ hn s) .const
  | _, _, .skip s => by simp only [IS.denote]; exact Strat.orElse_le (IS.le hρ hn s) .const
  | _, _, .skipIf s _ => by simp only [IS.denote]; exact Strat.orElse_le (IS.le hρ hn s) .const
  | _, _, .find s _ => by
    simp only [IS.denote]
    exact Strat.orElse_le (IS.le hρ hn s) fun _ _ _ _ _ _ => (findLoop_le hn).bind fun _ => .refl _
  | _, _, .scan s _ => by
    simp only [IS.denote]
    exact Strat.orElse_le (IS.le hρ hn s) fun _ _ _ _ _ _ => (scanLoop_le hn _ _).bind fun _ => .refl _
  | _, _, .maybe s t => by
    simp only [IS.denote]
    exact Strat.orElse_le (IS.le hρ hn s) fun p q hp _ _ _ => withSave_le fun _ =>
      ((IS.le hρ hn t p q hp _ _ _).bind fun _ => .refl _).bind fun _ => .refl _
  | _, _, .whileNot s _ t => by
    simp only [IS.denote]
    exact Strat.orElse_le (IS.le hρ hn s) fun _ _ hp _ _ _ => whileNotLoop_le (IS.le hρ hn t) hp hn _ _
  | _, _, .retry s _ _ => by
    simp only [IS.denote]
    exact Strat.orElse_le (IS.le hρ hn s) fun _ _ hp _ _ _ => runIn_le hp
  | _, _, .tryToParse s g _ _ => by
    simp only [IS.denote]
    exact Strat.orElse_le (IS.le hρ hn s) fun _ _ _ _ _ _ => runIn_le (G.le hρ hn g)
  | _, _, .pushError s _ => by simp only [IS.denote]; exact Strat.orElse_le (IS.le hρ hn s) .const
  | _, _, .pushErrorHere s _ => by simp only [IS.denote]; exact Strat.orElse_le (IS.le hρ hn s) .const
  | _, _, .pushErrorUpToHere s _ => by simp only [IS.denote]; exact Strat.orElse_le (IS.le hρ hn s) .const
  | _, _, .pushErrorForToken s _ => by simp only [IS.denote]; exact Strat.orElse_le (IS.le hρ hn s) .const
  | _, _, .updateErrors s _ => by simp only [IS.denote]; exact Strat.orElse_le (IS.le hρ hn s) .const
  | _, _, .updateErrorsHere s _ => by simp only [IS.denote]; exact Strat.orElse_le (IS.le hρ hn s) .const
  | _, _, .updateErrorsUpToHere s _ => by simp only [IS.denote]; exact Strat.orElse_le (IS.le hρ hn s) .const
  | _, _, .updateErrorsForToken s _ => by simp only [IS.denote]; exact Strat.orElse_le (IS.le hρ hn s) .const
  | _, _, .boxed s => by simp only [IS.denote]; exact IS.le hρ hn s

theorem CS.le (hρ : ∀ k, PLe (ρ k) (ρ' k)) (hn : n ≤ n') : {ε : ErrTy S} → {α : Type} → (s : CS S N ε α) →
    SLe (s.denote ρ n) (s.denote ρ' n')
  | _, _, .ret s _ => by simp only [CS.denote]; exact Strat.orElse_le (IS.le hρ hn s) .const
  | _, _, .retWith s _ => by simp only [CS.denote]; exact Strat.orElse_le (IS.le hρ hn s) .const
  | _, _, .retWithSpan s _ => by simp only [CS.denote]; exact Strat.orElse_le (IS.le hρ hn s) .const
  | _, _, .orFail s => by simp only [CS.denote]; exact IS.le hρ hn s

end

theorem callDepth_le (D : Defs S N) {m m' : Nat} (hm : m ≤ m') : ∀ {d d' : Nat}, d ≤ d' → ∀ k,
    PLe (callDepth D m d k) (callDepth D m' d' k) := by
  intro d
  induction d with
  | zero => intro d' _ k en; exact .oof
  | succ d ih =>
    intro d' hd k en
    obtain ⟨d', rfl⟩ : ∃ k, d' = k + 1 := ⟨d' - 1, by omega⟩
    unfold callDepth
    cases D k with
    | none => exact .panic
    | some g => exact G.le (ih (by omega)) hm g en

theorem callRec_le_callDepth (D : Defs S N) {m : Nat} : ∀ {n d : Nat}, n ≤ m → n ≤ d → ∀ k,
    PLe (callRec D n k) (callDepth D m d k) := by
  intro n
  induction n with
  | zero => intro d _ _ k en; exact .oof
  | succ n ih =>
    intro d hm hd k en
    obtain ⟨d, rfl⟩ : ∃ k, d = k + 1 := ⟨d - 1, by omega⟩
    unfold callDepth callRec
    cases D k with
    | none => exact .panic
    | some g => exact G.le (ih (by omega) (by omega)) (by omega) g en

end

end PPC
