import Verif.SemCongr
import Verif.SpecReplace

/-!
# Replacing parsers: agreement in the limit
-/

namespace PPC

variable {S : Sig} {N : Names S} {B : (ε : ErrTy S) → (α : Type) → G S N ε α → G S N ε α → Prop}

/-! ## Replacing nothing, and replacing back -/

mutual

theorem G.Replaced.refl :
    ∀ {ε : ErrTy S} {α : Type} (a : G S N ε α), G.Replaced B a a
  | _, _, .empty => .empty
  | _, _, .none _ => .none
  | _, _, .eof => .eof
  | _, _, .just _ => .just
  | _, _, .filter _ => .filter
  | _, _, .filterMap _ => .filterMap
  | _, _, .seq _ _ => .seq
  | _, _, .oneOf _ => .oneOf
  | _, _, .noneOf _ => .noneOf
  | _, _, .boxed g => .boxed (G.Replaced.refl g)
  | _, _, .withError g => .withError (G.Replaced.refl g)
  | _, _, .to g _ => .to (G.Replaced.refl g)
  | _, _, .some g => .some (G.Replaced.refl g)
  | _, _, .map _ g => .map (G.Replaced.refl g)
  | _, _, .mapWithSpan _ g => .mapWithSpan (G.Replaced.refl g)
  | _, _, .mapErr _ g => .mapErr (G.Replaced.refl g)
  | _, _, .mapErrWithSpan _ g => .mapErrWithSpan (G.Replaced.refl g)
  | _, _, .tryMap _ g => .tryMap (G.Replaced.refl g)
  | _, _, .then_ a b => .then_ (G.Replaced.refl a) (G.Replaced.refl b)
  | _, _, .thenIgnore a b => .thenIgnore (G.Replaced.refl a) (G.Replaced.refl b)
  | _, _, .ignoreThen a b => .ignoreThen (G.Replaced.refl a) (G.Replaced.refl b)
  | _, _, .delimitedBy l m r => .delimitedBy (G.Replaced.refl l) (G.Replaced.refl m) (G.Replaced.refl r)
  | _, _, .paddedBy p m => .paddedBy (G.Replaced.refl p) (G.Replaced.refl m)
  | _, _, .chain gs => .chain (GL.Replaced.refl gs)
  | _, _, .or a b => .or (G.Replaced.refl a) (G.Replaced.refl b)
  | _, _, .orNot g => .orNot (G.Replaced.refl g)
  | _, _, .alters gs => .alters (GL.Replaced.refl gs)
  | _, _, .repeated _ item => .repeated (G.Replaced.refl item)
  | _, _, .separatedBy _ item sep => .separatedBy (G.Replaced.refl item) (G.Replaced.refl sep)
  | _, _, .toRecover g st => .toRecover (G.Replaced.refl g) (CS.Replaced.refl st)
  | _, _, .call _ => .call

theorem GL.Replaced.refl :
    ∀ {ε : ErrTy S} {α : Type} (a : GL S N ε α), GL.Replaced B a a
  | _, _, .nil => .nil
  | _, _, .cons g gs => .cons (G.Replaced.refl g) (GL.Replaced.refl gs)

theorem IS.Replaced.refl :
    ∀ {ε : ErrTy S} {α : Type} (a : IS S N ε α), IS.Replaced B a a
  | _, _, .attemptTo => .attemptTo
  | _, _, .restart s => .restart (IS.Replaced.refl s)
  | _, _, .seekToFailed s => .seekToFailed (IS.Replaced.refl s)
  | _, _, .skip s => .skip (IS.Replaced.refl s)
  | _, _, .skipIf s _ => .skipIf (IS.Replaced.refl s)
  | _, _, .find s _ => .find (IS.Replaced.refl s)
  | _, _, .scan s _ => .scan (IS.Replaced.refl s)
  | _, _, .maybe s t => .maybe (IS.Replaced.refl s) (IS.Replaced.refl t)
  | _, _, .whileNot s _ t => .whileNot (IS.Replaced.refl s) (IS.Replaced.refl t)
  | _, _, .retry s _ _ => .retry (IS.Replaced.refl s)
  | _, _, .tryToParse s g _ _ => .tryToParse (IS.Replaced.refl s) (G.Replaced.refl g)
  | _, _, .pushError s _ => .pushError (IS.Replaced.refl s)
  | _, _, .pushErrorHere s _ => .pushErrorHere (IS.Replaced.refl s)
  | _, _, .pushErrorUpToHere s _ => .pushErrorUpToHere (IS.Replaced.refl s)
  | _, _, .pushErrorForToken s _ => .pushErrorForToken (IS.Replaced.refl s)
  | _, _, .updateErrors s _ => .updateErrors (IS.Replaced.refl s)
  | _, _, .updateErrorsHere s _ => .updateErrorsHere (IS.Replaced.refl s)
  | _, _, .updateErrorsUpToHere s _ => .updateErrorsUpToHere (IS.Replaced.refl s)
  | _, _, .updateErrorsForToken s _ => .updateErrorsForToken (IS.Replaced.refl s)
  | _, _, .boxed s => .boxed (IS.Replaced.refl s)

theorem CS.Replaced.refl :
    ∀ {ε : ErrTy S} {α : Type} (a : CS S N ε α), CS.Replaced B a a
  | _, _, .ret s _ => .ret (IS.Replaced.refl s)
  | _, _, .retWith s _ => .retWith (IS.Replaced.refl s)
  | _, _, .retWithSpan s _ => .retWithSpan (IS.Replaced.refl s)
  | _, _, .orFail s => .orFail (IS.Replaced.refl s)

end

mutual

theorem G.Replaced.symm (hB : ∀ {ε α a b}, B ε α a b → B ε α b a) :
    ∀ {ε : ErrTy S} {α : Type} {a b : G S N ε α}, G.Replaced B a b → G.Replaced B b a
  | _, _, _, _, .here h => .here (hB h)
  | _, _, _, _, .empty => .empty
  | _, _, _, _, .none => .none
  | _, _, _, _, .eof => .eof
  | _, _, _, _, .just => .just
  | _, _, _, _, .filter => .filter
  | _, _, _, _, .filterMap => .filterMap
  | _, _, _, _, .seq => .seq
  | _, _, _, _, .oneOf => .oneOf
  | _, _, _, _, .noneOf => .noneOf
  | _, _, _, _, .boxed h1 => .boxed (G.Replaced.symm hB h1)
  | _, _, _, _, .withError h1 => .withError (G.Replaced.symm hB h1)
  | _, _, _, _, .to h1 => .to (G.Replaced.symm hB h1)
  | _, _, _, _, .some h1 => .some (G.Replaced.symm hB h1)
  | _, _, _, _, .map h1 => .map (G.Replaced.symm hB h1)
  | _, _, _, _, .mapWithSpan h1 => .mapWithSpan (G.Replaced.symm hB h1)
  | _, _, _, _, .mapErr h1 => .mapErr (G.Replaced.symm hB h1)
  | _, _, _, _, .mapErrWithSpan h1 => .mapErrWithSpan (G.Replaced.symm hB h1)
  | _, _, _, _, .tryMap h1 => .tryMap (G.Replaced.symm hB h1)
  | _, _, _, _, .then_ h1 h2 => .then_ (G.Replaced.symm hB h1) (G.Replaced.symm hB h2)
  | _, _, _, _, .thenIgnore h1 h2 => .thenIgnore (G.Replaced.symm hB h1) (G.Replaced.symm hB h2)
  | _, _, _, _, .ignoreThen h1 h2 => .ignoreThen (G.Replaced.symm hB h1) (G.Replaced.symm hB h2)
  | _, _, _, _, .delimitedBy h1 h2 h3 => .delimitedBy (G.Replaced.symm hB h1) (G.Replaced.symm hB h2) (G.Replaced.symm hB h3)
  | _, _, _, _, .paddedBy h1 h2 => .paddedBy (G.Replaced.symm hB h1) (G.Replaced.symm hB h2)
  | _, _, _, _, .chain h1 => .chain (GL.Replaced.symm hB h1)
  | _, _, _, _, .or h1 h2 => .or (G.Replaced.symm hB h1) (G.Replaced.symm hB h2)
  | _, _, _, _, .orNot h1 => .orNot (G.Replaced.symm hB h1)
  | _, _, _, _, .alters h1 => .alters (GL.Replaced.symm hB h1)
  | _, _, _, _, .repeated h1 => .repeated (G.Replaced.symm hB h1)
  | _, _, _, _, .separatedBy h1 h2 => .separatedBy (G.Replaced.symm hB h1) (G.Replaced.symm hB h2)
  | _, _, _, _, .toRecover h1 h2 => .toRecover (G.Replaced.symm hB h1) (CS.Replaced.symm hB h2)
  | _, _, _, _, .call => .call

theorem GL.Replaced.symm (hB : ∀ {ε α a b}, B ε α a b → B ε α b a) :
    ∀ {ε : ErrTy S} {α : Type} {a b : GL S N ε α}, GL.Replaced B a b → GL.Replaced B b a
  | _, _, _, _, .nil => .nil
  | _, _, _, _, .cons h1 h2 => .cons (G.Replaced.symm hB h1) (GL.Replaced.symm hB h2)

theorem IS.Replaced.symm (hB : ∀ {ε α a b}, B ε α a b → B ε α b a) :
    ∀ {ε : ErrTy S} {α : Type} {a b : IS S N ε α}, IS.Replaced B a b → IS.Replaced B b a
  | _, _, _, _, .attemptTo => .attemptTo
  | _, _, _, _, .restart h1 => .restart (IS.Replaced.symm hB h1)
  | _, _, _, _, .seekToFailed h1 => .seekToFailed (IS.Replaced.symm hB h1)
  | _, _, _, _, .skip h1 => .skip (IS.Replaced.symm hB h1)
  | _, _, _, _, .skipIf h1 => .skipIf (IS.Replaced.symm hB h1)
  | _, _, _, _, .find h1 => .find (IS.Replaced.symm hB h1)
  | _, _, _, _, .scan h1 => .scan (IS.Replaced.symm hB h1)
  | _, _, _, _, .maybe h1 h2 => .maybe (IS.Replaced.symm hB h1) (IS.Replaced.symm hB h2)
  | _, _, _, _, .whileNot h1 h2 => .whileNot (IS.Replaced.symm hB h1) (IS.Replaced.symm hB h2)
  | _, _, _, _, .retry h1 => .retry (IS.Replaced.symm hB h1)
  | _, _, _, _, .tryToParse h1 h2 => .tryToParse (IS.Replaced.symm hB h1) (G.Replaced.symm hB h2)
  | _, _, _, _, .pushError h1 => .pushError (IS.Replaced.symm hB h1)
  | _, _, _, _, .pushErrorHere h1 => .pushErrorHere (IS.Replaced.symm hB h1)
  | _, _, _, _, .pushErrorUpToHere h1 => .pushErrorUpToHere (IS.Replaced.symm hB h1)
  | _, _, _, _, .pushErrorForToken h1 => .pushErrorForToken (IS.Replaced.symm hB h1)
  | _, _, _, _, .updateErrors h1 => .updateErrors (IS.Replaced.symm hB h1)
  | _, _, _, _, .updateErrorsHere h1 => .updateErrorsHere (IS.Replaced.symm hB h1)
  | _, _, _, _, .updateErrorsUpToHere h1 => .updateErrorsUpToHere (IS.Replaced.symm hB h1)
  | _, _, _, _, .updateErrorsForToken h1 => .updateErrorsForToken (IS.Replaced.symm hB h1)
  | _, _, _, _, .boxed h1 => .boxed (IS.Replaced.symm hB h1)

theorem CS.Replaced.symm (hB : ∀ {ε α a b}, B ε α a b → B ε α b a) :
    ∀ {ε : ErrTy S} {α : Type} {a b : CS S N ε α}, CS.Replaced B a b → CS.Replaced B b a
  | _, _, _, _, .ret h1 => .ret (IS.Replaced.symm hB h1)
  | _, _, _, _, .retWith h1 => .retWith (IS.Replaced.symm hB h1)
  | _, _, _, _, .retWithSpan h1 => .retWithSpan (IS.Replaced.symm hB h1)
  | _, _, _, _, .orFail h1 => .orFail (IS.Replaced.symm hB h1)

end

/-! ## Parsers and strategies without children -/

section

variable {e : Env S} {ε : ErrTy S} {E α : Type}

theorem leaf_empty : PL e (qEmpty : PSem ε.E Unit) (fun _ => qEmpty) := fun _ _ hi => .ret (.success _ _ hi)

theorem leaf_none : PL e (qNone : PSem ε.E (Option α)) (fun _ => qNone) := .none_

include N

theorem leaf_eof : PL e (qEnd e ε) (fun _ => qEnd e ε) :=
  PL.leaf (N := N) .eof (by simp only [G.sem, G.den]) fun en i => by
    unfold qEnd; split <;> exact ⟨_, rfl⟩

theorem leaf_just {t : S.I} : PL e (qJust e ε t) (fun _ => qJust e ε t) :=
  PL.leaf (N := N) (.just t) (by simp only [G.sem, G.den]) fun en i => by
    unfold qJust; split <;> exact ⟨_, rfl⟩

theorem leaf_filter {p : S.I → Bool} : PL e (qFilter e ε p) (fun _ => qFilter e ε p) :=
  PL.leaf (N := N) (.filter p) (by simp only [G.sem, G.den]) fun en i => by
    unfold qFilter
    cases e.source i with
    | none => exact ⟨_, rfl⟩
    | some t => dsimp only; split <;> exact ⟨_, rfl⟩

theorem leaf_filterMap {f : S.I → Option α} : PL e (qFilterMap e ε f) (fun _ => qFilterMap e ε f) :=
  PL.leaf (N := N) (.filterMap f) (by simp only [G.sem, G.den]) fun en i => by
    unfold qFilterMap; split <;> exact ⟨_, rfl⟩

theorem leaf_seq {v : α} {items : List S.I} : PL e (qSeq e ε v items) (fun _ => qSeq e ε v items) :=
  PL.leaf (N := N) (.seq v items) (by simp only [G.sem, G.den]) fun en i => by
    unfold qSeq; split <;> exact ⟨_, rfl⟩

theorem leaf_oneOf {items : List S.I} : PL e (qOneOf e ε items) (fun _ => qOneOf e ε items) :=
  PL.leaf (N := N) (.oneOf items) (by simp only [G.sem, G.den]) fun en i => by
    unfold qOneOf
    cases e.source i with
    | none => exact ⟨_, rfl⟩
    | some t => dsimp only; split <;> exact ⟨_, rfl⟩

theorem leaf_noneOf {items : List S.I} : PL e (qNoneOf e ε items) (fun _ => qNoneOf e ε items) :=
  PL.leaf (N := N) (.noneOf items) (by simp only [G.sem, G.den]) fun en i => by
    unfold qNoneOf
    cases e.source i with
    | none => exact ⟨_, rfl⟩
    | some t => dsimp only; split <;> exact ⟨_, rfl⟩

omit N

theorem skipIf_valid (p : S.I → Bool) {i : Nat} (hi : Valid e i) :
    Valid e (if e.tokIs p false i then i + 1 else i) := by
  split
  · rename_i h
    unfold Env.tokIs at h
    cases hs : e.source i with
    | none => rw [hs] at h; cases h
    | some t => exact hi.succ (by rw [hs]; rfl)
  · exact hi

theorem find_lim (p : S.I → Bool) (n : Nat) :
    TL e (α := α) (E := E) (fun _ _ fa es i => do
      let j ← findSem e p n i
      giveUp fa es j) (fun m _ _ fa es i => do
      let j ← findSem e p m i
      giveUp fa es j) := by
  intro q Q hq st fa es i hst hfa hi
  refine (findSem_lim p .id i hi).bind ?_
  rintro j _ ⟨rfl, hj⟩
  exact giveUp_lim hfa _ hj

theorem scan_lim (sc : Scanner S E) (n : Nat) :
    TL e (α := α) (E := E) (fun _ _ fa es i => do
      let (es', j) ← scanSem e sc n sc.fresh es i
      giveUp fa es' j) (fun m _ _ fa es i => do
      let (es', j) ← scanSem e sc m sc.fresh es i
      giveUp fa es' j) := by
  intro q Q hq st fa es i hst hfa hi
  refine (scanSem_lim sc .id _ _ i hi).bind ?_
  rintro ⟨es', j⟩ _ ⟨rfl, hj⟩
  exact giveUp_lim hfa _ hj

theorem maybe_lim {t : SSem E α} {t' : Nat → SSem E α} (ht : TL e t t') :
    TL e (fun q st fa es i => do
      let (r, j) ← t q st fa es i
      .ok (r, if r.1.isSome then j else i)) (fun m q st fa es i => do
      let (r, j) ← t' m q st fa es i
      .ok (r, if r.1.isSome then j else i)) := by
  intro q Q hq st fa es i hst hfa hi
  refine (ht q Q hq st fa es i hst hfa hi).bind ?_
  rintro _ _ ⟨o, fa', es', j, hfa', hj⟩
  cases o with
  | none => exact .ret (.mk _ _ _ _ hfa' hi)
  | some o => exact .ret (.mk _ _ _ _ hfa' hj)

end

/-! ## All parsers -/

section

variable {e : Env S} {n : Nat} {ρ : QEnv S N} {ρ' : Nat → QEnv S N}

mutual

theorem G.Replaced.lim (hρ : ∀ x, PL e (ρ x) (fun m => ρ' m x))
    (hB : ∀ {ε α a b}, B ε α a b → PL e (a.den e ρ n) (fun m => b.den e (ρ' m) m)) :
    ∀ {ε : ErrTy S} {α : Type} {a b : G S N ε α}, G.Replaced B a b →
    PL e (a.den e ρ n) (fun m => b.den e (ρ' m) m)
  | _, _, _, _, .here h => hB h
  | _, _, _, _, .empty => by simp only [G.den]; exact leaf_empty
  | _, _, _, _, .none => by simp only [G.den]; exact leaf_none
  | _, _, _, _, .eof => by simp only [G.den]; exact leaf_eof (N := N)
  | _, _, _, _, .just => by simp only [G.den]; exact leaf_just (N := N)
  | _, _, _, _, .filter => by simp only [G.den]; exact leaf_filter (N := N)
  | _, _, _, _, .filterMap => by simp only [G.den]; exact leaf_filterMap (N := N)
  | _, _, _, _, .seq => by simp only [G.den]; exact leaf_seq (N := N)
  | _, _, _, _, .oneOf => by simp only [G.den]; exact leaf_oneOf (N := N)
  | _, _, _, _, .noneOf => by simp only [G.den]; exact leaf_noneOf (N := N)
  | _, _, _, _, .boxed h1 => by simp only [G.den]; exact G.Replaced.lim hρ hB h1
  | _, _, _, _, .withError h1 => by simp only [G.den]; exact G.Replaced.lim hρ hB h1
  | _, _, _, _, .to h1 => by simp only [G.den]; exact (G.Replaced.lim hρ hB h1).map _
  | _, _, _, _, .some h1 => by simp only [G.den]; exact (G.Replaced.lim hρ hB h1).map _
  | _, _, _, _, .map h1 => by simp only [G.den]; exact (G.Replaced.lim hρ hB h1).map _
  | _, _, _, _, .mapWithSpan h1 => by simp only [G.den]; exact (G.Replaced.lim hρ hB h1).mapWithSpan _
  | _, _, _, _, .mapErr h1 => by simp only [G.den]; exact (G.Replaced.lim hρ hB h1).mapErr _
  | _, _, _, _, .mapErrWithSpan h1 => by simp only [G.den]; exact (G.Replaced.lim hρ hB h1).mapErrWithSpan _
  | _, _, _, _, .tryMap h1 => by simp only [G.den]; exact (G.Replaced.lim hρ hB h1).tryMap _
  | _, _, _, _, .then_ h1 h2 => by
    simp only [G.den]; exact (G.Replaced.lim hρ hB h1).concat2 (G.Replaced.lim hρ hB h2) _
  | _, _, _, _, .thenIgnore h1 h2 => by
    simp only [G.den]; exact (G.Replaced.lim hρ hB h1).concat2 (G.Replaced.lim hρ hB h2) _
  | _, _, _, _, .ignoreThen h1 h2 => by
    simp only [G.den]; exact (G.Replaced.lim hρ hB h1).concat2 (G.Replaced.lim hρ hB h2) _
  | _, _, _, _, .delimitedBy h1 h2 h3 => by
    simp only [G.den]; exact (G.Replaced.lim hρ hB h1).concat3 (G.Replaced.lim hρ hB h2) (G.Replaced.lim hρ hB h3) _
  | _, _, _, _, .paddedBy h1 h2 => by
    simp only [G.den]; exact (G.Replaced.lim hρ hB h1).concat3 (G.Replaced.lim hρ hB h2) (G.Replaced.lim hρ hB h1) _
  | _, _, _, _, .chain h1 => by simp only [G.den]; exact (GL.Replaced.lim hρ hB h1).concat
  | _, _, _, _, .or h1 h2 => by
    simp only [G.den]; exact PLs.alternate _ (.cons (G.Replaced.lim hρ hB h1) (.cons (G.Replaced.lim hρ hB h2) .nil))
  | _, _, _, _, .orNot h1 => by
    simp only [G.den]; exact PLs.alternate _ (.cons ((G.Replaced.lim hρ hB h1).map _) (.cons .none_ .nil))
  | _, _, _, _, .alters h1 => by simp only [G.den]; exact PLs.alternate _ (GL.Replaced.lim hρ hB h1)
  | _, _, _, _, .repeated h1 => by simp only [G.den]; exact (G.Replaced.lim hρ hB h1).repeat_ _ .none n
  | _, _, _, _, .separatedBy h1 h2 => by
    simp only [G.den]; exact (G.Replaced.lim hρ hB h1).repeat_ _ (.some (G.Replaced.lim hρ hB h2)) n
  | _, _, _, _, .toRecover h1 h2 => by
    simp only [G.den]; exact (G.Replaced.lim hρ hB h1).toRecover (CS.Replaced.lim hρ hB h2)
  | _, _, _, _, .call => by simp only [G.den]; exact hρ _

theorem GL.Replaced.lim (hρ : ∀ x, PL e (ρ x) (fun m => ρ' m x))
    (hB : ∀ {ε α a b}, B ε α a b → PL e (a.den e ρ n) (fun m => b.den e (ρ' m) m)) :
    ∀ {ε : ErrTy S} {α : Type} {a b : GL S N ε α}, GL.Replaced B a b →
    PLs e (a.den e ρ n) (fun m => b.den e (ρ' m) m)
  | _, _, _, _, .nil => by simp only [GL.den]; exact .nil
  | _, _, _, _, .cons h1 h2 => by
    simp only [GL.den]; exact .cons (G.Replaced.lim hρ hB h1) (GL.Replaced.lim hρ hB h2)

theorem IS.Replaced.lim (hρ : ∀ x, PL e (ρ x) (fun m => ρ' m x))
    (hB : ∀ {ε α a b}, B ε α a b → PL e (a.den e ρ n) (fun m => b.den e (ρ' m) m)) :
    ∀ {ε : ErrTy S} {α : Type} {a b : IS S N ε α}, IS.Replaced B a b →
    TL e (a.den e ρ n) (fun m => b.den e (ρ' m) m)
  | _, _, _, _, .attemptTo => by simp only [IS.den]; exact fun _ _ _ _ _ _ _ hst hfa hi => giveUp_lim hfa _ hi
  | _, _, _, _, .restart h1 => by
    simp only [IS.den]; exact (IS.Replaced.lim hρ hB h1).orElse (fun _ _ _ _ _ _ _ hst hfa hi => giveUp_lim hfa _ hst)
  | _, _, _, _, .seekToFailed h1 => by
    simp only [IS.den]; exact (IS.Replaced.lim hρ hB h1).orElse (fun _ _ _ _ _ _ _ hst hfa hi => giveUp_lim hfa _ hfa)
  | _, _, _, _, .skip h1 => by
    simp only [IS.den]; exact (IS.Replaced.lim hρ hB h1).orElse (fun _ _ _ _ _ _ _ hst hfa hi => giveUp_lim hfa _ hi.next)
  | _, _, _, _, .skipIf h1 => by
    simp only [IS.den]; exact (IS.Replaced.lim hρ hB h1).orElse (fun _ _ _ _ _ _ _ hst hfa hi => giveUp_lim hfa _ (skipIf_valid _ hi))
  | _, _, _, _, .find h1 => by simp only [IS.den]; exact (IS.Replaced.lim hρ hB h1).orElse (find_lim _ n)
  | _, _, _, _, .scan h1 => by simp only [IS.den]; exact (IS.Replaced.lim hρ hB h1).orElse (scan_lim _ n)
  | _, _, _, _, .maybe h1 h2 => by
    simp only [IS.den]; exact (IS.Replaced.lim hρ hB h1).orElse (maybe_lim (IS.Replaced.lim hρ hB h2))
  | _, _, _, _, .whileNot h1 h2 => by
    simp only [IS.den]; exact (IS.Replaced.lim hρ hB h1).orElse fun q Q hq st fa es i hst hfa hi => whileNot_lim _ (IS.Replaced.lim hρ hB h2) hq hst .id fa es i hfa hi
  | _, _, _, _, .retry h1 => by
    simp only [IS.den]; exact (IS.Replaced.lim hρ hB h1).orElse fun q Q hq st fa es i hst hfa hi => runIn_lim hq _ _ hfa es hi
  | _, _, _, _, .tryToParse h1 h2 => by
    simp only [IS.den]; exact (IS.Replaced.lim hρ hB h1).orElse fun q Q hq st fa es i hst hfa hi => runIn_lim (G.Replaced.lim hρ hB h2) _ _ hfa es hi
  | _, _, _, _, .pushError h1 => by
    simp only [IS.den]; exact (IS.Replaced.lim hρ hB h1).orElse (fun _ _ _ _ _ _ _ hst hfa hi => giveUp_lim hfa _ hi)
  | _, _, _, _, .pushErrorHere h1 => by
    simp only [IS.den]; exact (IS.Replaced.lim hρ hB h1).orElse (fun _ _ _ _ _ _ _ hst hfa hi => giveUp_lim hfa _ hi)
  | _, _, _, _, .pushErrorUpToHere h1 => by
    simp only [IS.den]; exact (IS.Replaced.lim hρ hB h1).orElse (fun _ _ _ _ _ _ _ hst hfa hi => giveUp_lim hfa _ hi)
  | _, _, _, _, .pushErrorForToken h1 => by
    simp only [IS.den]; exact (IS.Replaced.lim hρ hB h1).orElse (fun _ _ _ _ _ _ _ hst hfa hi => giveUp_lim hfa _ hi)
  | _, _, _, _, .updateErrors h1 => by
    simp only [IS.den]; exact (IS.Replaced.lim hρ hB h1).orElse (fun _ _ _ _ _ _ _ hst hfa hi => giveUp_lim hfa _ hi)
  | _, _, _, _, .updateErrorsHere h1 => by
    simp only [IS.den]; exact (IS.Replaced.lim hρ hB h1).orElse (fun _ _ _ _ _ _ _ hst hfa hi => giveUp_lim hfa _ hi)
  | _, _, _, _, .updateErrorsUpToHere h1 => by
    simp only [IS.den]; exact (IS.Replaced.lim hρ hB h1).orElse (fun _ _ _ _ _ _ _ hst hfa hi => giveUp_lim hfa _ hi)
  | _, _, _, _, .updateErrorsForToken h1 => by
    simp only [IS.den]; exact (IS.Replaced.lim hρ hB h1).orElse (fun _ _ _ _ _ _ _ hst hfa hi => giveUp_lim hfa _ hi)
  | _, _, _, _, .boxed h1 => by simp only [IS.den]; exact IS.Replaced.lim hρ hB h1

theorem CS.Replaced.lim (hρ : ∀ x, PL e (ρ x) (fun m => ρ' m x))
    (hB : ∀ {ε α a b}, B ε α a b → PL e (a.den e ρ n) (fun m => b.den e (ρ' m) m)) :
    ∀ {ε : ErrTy S} {α : Type} {a b : CS S N ε α}, CS.Replaced B a b →
    TL e (a.den e ρ n) (fun m => b.den e (ρ' m) m)
  | _, _, _, _, .ret h1 => by
    simp only [CS.den]; exact (IS.Replaced.lim hρ hB h1).orElse (fun _ _ _ _ _ _ _ hst hfa hi => .ret (.mk _ _ _ _ hfa hi))
  | _, _, _, _, .retWith h1 => by
    simp only [CS.den]; exact (IS.Replaced.lim hρ hB h1).orElse (fun _ _ _ _ _ _ _ hst hfa hi => .ret (.mk _ _ _ _ hfa hi))
  | _, _, _, _, .retWithSpan h1 => by
    simp only [CS.den]; exact (IS.Replaced.lim hρ hB h1).orElse (fun _ _ _ _ _ _ _ hst hfa hi => .ret (.mk _ _ _ _ hfa hi))
  | _, _, _, _, .orFail h1 => by simp only [CS.den]; exact IS.Replaced.lim hρ hB h1

end

end

end PPC
