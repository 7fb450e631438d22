import Verif.GAll

/-!
# Grammars that always come to an end (specification of C35)

Which parsers may succeed without consuming a token, which recursive parsers may be called before
a token is consumed, and the two conditions under which parsing a finite input terminates: no left
recursion, and no endless repetition.

`en` is whether recovery is enabled. `ν en k` says whether the recursive parser `k` may succeed, or
recover, without consuming a token; any over-approximation will do (`Nullable`).
-/

namespace PPC

variable {S : Sig} {N : Names S}

mutual

/-- The parser may succeed, or recover, without consuming a token. -/
def G.mayEmpty (ν : Bool → N.K → Bool) (en : Bool) : {ε : ErrTy S} → {α : Type} → G S N ε α → Bool
  | _, _, .empty => true
  | _, _, .none _ => true
  | _, _, .eof => true
  | _, _, .just _ => false
  | _, _, .filter _ => false
  | _, _, .filterMap _ => false
  | _, _, .seq _ items => items.isEmpty
  | _, _, .oneOf _ => false
  | _, _, .noneOf _ => false
  | _, _, .boxed g => g.mayEmpty ν en
  | _, _, .withError g => g.mayEmpty ν en
  | _, _, .to g _ => g.mayEmpty ν en
  | _, _, .some g => g.mayEmpty ν en
  | _, _, .map _ g => g.mayEmpty ν en
  | _, _, .mapWithSpan _ g => g.mayEmpty ν en
  | _, _, .mapErr _ g => g.mayEmpty ν en
  | _, _, .mapErrWithSpan _ g => g.mayEmpty ν en
  | _, _, .tryMap _ g => g.mayEmpty ν en
  | _, _, .then_ a b => a.mayEmpty ν en && b.mayEmpty ν en
  | _, _, .thenIgnore a b => a.mayEmpty ν en && b.mayEmpty ν en
  | _, _, .ignoreThen a b => a.mayEmpty ν en && b.mayEmpty ν en
  | _, _, .delimitedBy l m r => l.mayEmpty ν en && m.mayEmpty ν en && r.mayEmpty ν en
  | _, _, .paddedBy p m => p.mayEmpty ν en && m.mayEmpty ν en
  | _, _, .chain gs => gs.allEmpty ν en
  | _, _, .or a b =>
    a.mayEmpty ν false || b.mayEmpty ν false || (en && (a.mayEmpty ν true || b.mayEmpty ν true))
  | _, _, .orNot _ => true
  | _, _, .alters gs => gs.anyEmpty ν false || (en && gs.anyEmpty ν true)
  | _, _, .repeated c g =>
    c.minimum == 0 || c.maximum == Option.some 0 || g.mayEmpty ν en
  | _, _, .separatedBy c g _ =>
    c.minimum == 0 || c.maximum == Option.some 0 || g.mayEmpty ν en
  | _, _, .toRecover g st => g.mayEmpty ν en || (en && st.mayEmpty ν fun b => g.mayEmpty ν b)
  | _, _, .call k => ν en k

/-- All of the parsers may succeed without consuming. -/
def GL.allEmpty (ν : Bool → N.K → Bool) (en : Bool) : {ε : ErrTy S} → {α : Type} → GL S N ε α → Bool
  | _, _, .nil => true
  | _, _, .cons g gs => g.mayEmpty ν en && gs.allEmpty ν en

/-- One of the parsers may succeed without consuming. -/
def GL.anyEmpty (ν : Bool → N.K → Bool) (en : Bool) : {ε : ErrTy S} → {α : Type} → GL S N ε α → Bool
  | _, _, .nil => false
  | _, _, .cons g gs => g.mayEmpty ν en || gs.anyEmpty ν en

/-- The strategy may find an output without consuming a token, where `me b` says whether the
parser that is recovered may succeed without consuming. -/
def IS.mayEmpty (ν : Bool → N.K → Bool) (me : Bool → Bool) :
    {ε : ErrTy S} → {α : Type} → IS S N ε α → Bool
  | _, _, .attemptTo => false
  | _, _, .restart s => s.mayEmpty ν me
  | _, _, .seekToFailed s => s.mayEmpty ν me
  | _, _, .skip s => s.mayEmpty ν me
  | _, _, .skipIf s _ => s.mayEmpty ν me
  | _, _, .find s _ => s.mayEmpty ν me
  | _, _, .scan s _ => s.mayEmpty ν me
  | _, _, .maybe s t => s.mayEmpty ν me || t.mayEmpty ν me
  | _, _, .whileNot s _ t => s.mayEmpty ν me || t.mayEmpty ν me
  | _, _, .retry s exact _ => s.mayEmpty ν me || me (!exact)
  | _, _, .tryToParse s g exact _ => s.mayEmpty ν me || g.mayEmpty ν (!exact)
  | _, _, .pushError s _ => s.mayEmpty ν me
  | _, _, .pushErrorHere s _ => s.mayEmpty ν me
  | _, _, .pushErrorUpToHere s _ => s.mayEmpty ν me
  | _, _, .pushErrorForToken s _ => s.mayEmpty ν me
  | _, _, .updateErrors s _ => s.mayEmpty ν me
  | _, _, .updateErrorsHere s _ => s.mayEmpty ν me
  | _, _, .updateErrorsUpToHere s _ => s.mayEmpty ν me
  | _, _, .updateErrorsForToken s _ => s.mayEmpty ν me
  | _, _, .boxed s => s.mayEmpty ν me

/-- The same for complete strategies. -/
def CS.mayEmpty (ν : Bool → N.K → Bool) (me : Bool → Bool) :
    {ε : ErrTy S} → {α : Type} → CS S N ε α → Bool
  | _, _, .ret _ _ => true
  | _, _, .retWith _ _ => true
  | _, _, .retWithSpan _ _ => true
  | _, _, .orFail s => s.mayEmpty ν me

end

mutual

/-- The parser may call the recursive parser `k` (with recovery enabled or not: `b`) before it has
consumed a token. -/
def G.MayCall (ν : Bool → N.K → Bool) (b : Bool) (k : N.K) (en : Bool) :
    {ε : ErrTy S} → {α : Type} → G S N ε α → Prop
  | _, _, .empty => False
  | _, _, .none _ => False
  | _, _, .eof => False
  | _, _, .just _ => False
  | _, _, .filter _ => False
  | _, _, .filterMap _ => False
  | _, _, .seq _ _ => False
  | _, _, .oneOf _ => False
  | _, _, .noneOf _ => False
  | _, _, .boxed g => g.MayCall ν b k en
  | _, _, .withError g => g.MayCall ν b k en
  | _, _, .to g _ => g.MayCall ν b k en
  | _, _, .some g => g.MayCall ν b k en
  | _, _, .map _ g => g.MayCall ν b k en
  | _, _, .mapWithSpan _ g => g.MayCall ν b k en
  | _, _, .mapErr _ g => g.MayCall ν b k en
  | _, _, .mapErrWithSpan _ g => g.MayCall ν b k en
  | _, _, .tryMap _ g => g.MayCall ν b k en
  | _, _, .then_ x y => x.MayCall ν b k en ∨ (x.mayEmpty ν en = true ∧ y.MayCall ν b k en)
  | _, _, .thenIgnore x y => x.MayCall ν b k en ∨ (x.mayEmpty ν en = true ∧ y.MayCall ν b k en)
  | _, _, .ignoreThen x y => x.MayCall ν b k en ∨ (x.mayEmpty ν en = true ∧ y.MayCall ν b k en)
  | _, _, .delimitedBy l m r => l.MayCall ν b k en ∨ (l.mayEmpty ν en = true ∧
      (m.MayCall ν b k en ∨ (m.mayEmpty ν en = true ∧ r.MayCall ν b k en)))
  | _, _, .paddedBy p m => p.MayCall ν b k en ∨ (p.mayEmpty ν en = true ∧ m.MayCall ν b k en)
  | _, _, .chain gs => gs.MayCallSeq ν b k en
  | _, _, .or x y => (x.MayCall ν b k false ∨ y.MayCall ν b k false) ∨
      (en = true ∧ (x.MayCall ν b k true ∨ y.MayCall ν b k true))
  | _, _, .orNot g => g.MayCall ν b k false ∨ (en = true ∧ g.MayCall ν b k true)
  | _, _, .alters gs => gs.MayCallAny ν b k false ∨ (en = true ∧ gs.MayCallAny ν b k true)
  | _, _, .repeated _ g => g.MayCall ν b k en ∨ g.MayCall ν b k false
  | _, _, .separatedBy c g sep => (g.MayCall ν b k en ∨ g.MayCall ν b k false) ∨
      ((c.allowLeading = true ∨ g.mayEmpty ν en = true ∨ g.mayEmpty ν false = true) ∧
        (sep.MayCall ν b k en ∨ sep.MayCall ν b k false))
  | _, _, .toRecover g st => g.MayCall ν b k en ∨
      (en = true ∧ st.MayCall ν b k fun en' => g.MayCall ν b k en')
  | _, _, .call k' => b = en ∧ k = k'

/-- Running the parsers one after the other may call `k` before a token is consumed. -/
def GL.MayCallSeq (ν : Bool → N.K → Bool) (b : Bool) (k : N.K) (en : Bool) :
    {ε : ErrTy S} → {α : Type} → GL S N ε α → Prop
  | _, _, .nil => False
  | _, _, .cons g gs => g.MayCall ν b k en ∨ (g.mayEmpty ν en = true ∧ gs.MayCallSeq ν b k en)

/-- One of the parsers may call `k` before it has consumed a token. -/
def GL.MayCallAny (ν : Bool → N.K → Bool) (b : Bool) (k : N.K) (en : Bool) :
    {ε : ErrTy S} → {α : Type} → GL S N ε α → Prop
  | _, _, .nil => False
  | _, _, .cons g gs => g.MayCall ν b k en ∨ gs.MayCallAny ν b k en

/-- The strategy may call `k` before a token is consumed, where `mc` says the same of the parser
that is recovered. Skipped tokens do not count: strategies may go back, and at the end of the input
nothing is skipped. -/
def IS.MayCall (ν : Bool → N.K → Bool) (b : Bool) (k : N.K) (mc : Bool → Prop) :
    {ε : ErrTy S} → {α : Type} → IS S N ε α → Prop
  | _, _, .attemptTo => False
  | _, _, .restart s => s.MayCall ν b k mc
  | _, _, .seekToFailed s => s.MayCall ν b k mc
  | _, _, .skip s => s.MayCall ν b k mc
  | _, _, .skipIf s _ => s.MayCall ν b k mc
  | _, _, .find s _ => s.MayCall ν b k mc
  | _, _, .scan s _ => s.MayCall ν b k mc
  | _, _, .maybe s t => s.MayCall ν b k mc ∨ t.MayCall ν b k mc
  | _, _, .whileNot s _ t => s.MayCall ν b k mc ∨ t.MayCall ν b k mc
  | _, _, .retry s exact _ => s.MayCall ν b k mc ∨ mc (!exact)
  | _, _, .tryToParse s g exact _ => s.MayCall ν b k mc ∨ g.MayCall ν b k (!exact)
  | _, _, .pushError s _ => s.MayCall ν b k mc
  | _, _, .pushErrorHere s _ => s.MayCall ν b k mc
  | _, _, .pushErrorUpToHere s _ => s.MayCall ν b k mc
  | _, _, .pushErrorForToken s _ => s.MayCall ν b k mc
  | _, _, .updateErrors s _ => s.MayCall ν b k mc
  | _, _, .updateErrorsHere s _ => s.MayCall ν b k mc
  | _, _, .updateErrorsUpToHere s _ => s.MayCall ν b k mc
  | _, _, .updateErrorsForToken s _ => s.MayCall ν b k mc
  | _, _, .boxed s => s.MayCall ν b k mc

/-- The same for complete strategies. -/
def CS.MayCall (ν : Bool → N.K → Bool) (b : Bool) (k : N.K) (mc : Bool → Prop) :
    {ε : ErrTy S} → {α : Type} → CS S N ε α → Prop
  | _, _, .ret s _ => s.MayCall ν b k mc
  | _, _, .retWith s _ => s.MayCall ν b k mc
  | _, _, .retWithSpan s _ => s.MayCall ν b k mc
  | _, _, .orFail s => s.MayCall ν b k mc

end

/-- If the strategy does not find an output, it has not moved backwards. What is done inside `maybe`
is undone, and does not matter. -/
def IS.Forward : {ε : ErrTy S} → {α : Type} → IS S N ε α → Prop
  | _, _, .attemptTo => True
  | _, _, .restart _ => False
  | _, _, .seekToFailed _ => False
  | _, _, .skip s => s.Forward
  | _, _, .skipIf s _ => s.Forward
  | _, _, .find s _ => s.Forward
  | _, _, .scan s _ => s.Forward
  | _, _, .maybe s _ => s.Forward
  | _, _, .whileNot s _ _ => s.Forward
  | _, _, .retry s _ _ => s.Forward
  | _, _, .tryToParse s _ _ _ => s.Forward
  | _, _, .pushError s _ => s.Forward
  | _, _, .pushErrorHere s _ => s.Forward
  | _, _, .pushErrorUpToHere s _ => s.Forward
  | _, _, .pushErrorForToken s _ => s.Forward
  | _, _, .updateErrors s _ => s.Forward
  | _, _, .updateErrorsHere s _ => s.Forward
  | _, _, .updateErrorsUpToHere s _ => s.Forward
  | _, _, .updateErrorsForToken s _ => s.Forward
  | _, _, .boxed s => s.Forward

/-- A single parser does not repeat something endlessly without consuming: the item of a repetition
without maximum (or its separator) always consumes a token when it succeeds; recovery does not
matter, as it is disabled once the minimum number of items is there. -/
def G.Progresses (ν : Bool → N.K → Bool) : {ε : ErrTy S} → {α : Type} → G S N ε α → Prop
  | _, _, .repeated c g => c.maximum = Option.none → g.mayEmpty ν false = false
  | _, _, .separatedBy c g sep => c.maximum = Option.none →
      g.mayEmpty ν false = false ∨ sep.mayEmpty ν false = false
  | _, _, _ => True

/-- A single strategy does not repeat something endlessly: what `while_not` does in each step does
not go back. -/
def IS.Progresses : {ε : ErrTy S} → {α : Type} → IS S N ε α → Prop
  | _, _, .whileNot _ _ t => t.Forward
  | _, _, _ => True

/-- No endless repetition. -/
def progressL (S : Sig) (N : Names S) (ν : Bool → N.K → Bool) : Local S N where
  g := G.Progresses ν
  s := IS.Progresses

/-- `ν` holds of all recursive parsers that may succeed without consuming a token. -/
def Nullable (D : Defs S N) (ν : Bool → N.K → Bool) : Prop :=
  ∀ k g en, D k = some g → g.mayEmpty ν en = true → ν en k = true

/-- No left recursion: there is no infinite sequence of recursive parsers (with recovery enabled or
not) in which each may call the next before it has consumed a token. -/
def NoLeftRecursion (D : Defs S N) (ν : Bool → N.K → Bool) : Prop :=
  WellFounded fun x y : Bool × N.K => ∃ g, D y.2 = some g ∧ g.MayCall ν x.1 x.2 y.1

end PPC
