import Verif.PropsPrimitive

/-!
# Specification of recovery strategies

What a strategy does, as a relation between the state before it and the state after it. A
state is the cursor position, the position of the last failure, and the list of errors; besides,
a strategy knows the parser `g` it is attached to and the position `st` where recovery
started. The result is `some o` (recovered with output `o`) or `none` (not yet recovered).
This file mentions the programs of the model only through `ParsesAt` (what a parser does at a
position).
-/

namespace PPC

variable {S : Sig} {N : Names S}

/-- State of a recovery. -/
structure RState (E : Type) where
  /-- position of the last failure -/
  failedAt : Nat
  /-- errors so far -/
  errors : List E
  /-- position of the cursor -/
  pos : Nat

/-- A step of a recovery. -/
abbrev RStep (E α : Type) : Type := RState E → Option α → RState E → Prop

variable {E α : Type}

/-- First `child`; if it did not recover, then `act`. -/
def After (child act : RStep E α) : RStep E α := fun x o y =>
  (∃ v, o = some v ∧ child x (some v) y) ∨ ∃ z, child x none z ∧ act z o y

/-- Not recovered, and the state is `y`. -/
def Becomes (f : RState E → RState E) : RStep E α := fun x o y => o = none ∧ y = f x

/-- The token at `i` is there and satisfies `p`. -/
def Env.Holds (e : Env S) (p : S.I → Bool) (i : Nat) : Prop := ∃ t, e.source i = some t ∧ p t = true

/-- The token at `i` is there and does not satisfy `p`. -/
def Env.HoldsNot (e : Env S) (p : S.I → Bool) (i : Nat) : Prop := ∃ t, e.source i = some t ∧ p t = false

/-- One token on, except at the end of input. -/
def Env.stepOver (e : Env S) (i : Nat) : Nat := if (e.source i).isSome then i + 1 else i

/-- `j` is the first position from `i` on that is the end of input or has a token satisfying
`p`. -/
def FirstHit (e : Env S) (p : S.I → Bool) (i j : Nat) : Prop :=
  i ≤ j ∧ (∀ k, i ≤ k → k < j → e.HoldsNot p k) ∧ (e.source j = none ∨ e.Holds p j)

/-- Feeding tokens to a scanner from position `i` on, until it stops or the input ends. -/
inductive Scans (e : Env S) (sc : Scanner S E) : sc.σ → List E → Nat → List E → Nat → Prop
  | stop {st st' es es' i t} : e.source i = some t →
      sc.scan t (tokenSpan e i) st es = .ok (true, st', es') → Scans e sc st es i es' i
  | more {st st' es es' es'' i j t} : e.source i = some t →
      sc.scan t (tokenSpan e i) st es = .ok (false, st', es') → Scans e sc st' es' (i + 1) es'' j →
      Scans e sc st es i es'' j
  | eof {st es i} : e.source i = none →
      Scans e sc st es i (sc.eof (specLocation e i) st es) i

/-- `while_not(p, inner)`, with `m` unsuccessful rounds: as long as there is a token that does
not satisfy `p`, run `inner`; if it does not recover, step over one token and repeat. -/
inductive WhileNot (e : Env S) (p : S.I → Bool) (inner : RStep E α) : Nat → RStep E α
  | stop {x} : (e.source x.pos = none ∨ e.Holds p x.pos) → WhileNot e p inner 0 x none x
  | done {x v y} : e.HoldsNot p x.pos → inner x (some v) y → WhileNot e p inner 0 x (some v) y
  | next {m x y o z} : e.HoldsNot p x.pos → inner x none y →
      WhileNot e p inner m { y with pos := e.stepOver y.pos } o z →
      WhileNot e p inner (m + 1) x o z

/-- Running a parser during recovery: with its recovery unless `exact`; its errors are added
unless `silent`; if it fails, its failure index is the new position of the last failure. (A
failure index before the cursor, which only a failure that does not rewind could have, would be
a panic.) -/
def TryParser (e : Env S) (D : Defs S N) (n : Nat) {ε : ErrTy S} {α : Type} (g : G S N ε α)
    (exact silent : Bool) : RStep ε.E α := fun x o y =>
  let added (es : List ε.E) : List ε.E := if silent then x.errors else x.errors ++ es
  (∃ v j, ParsesAt e D n g (!exact) x.pos (.success v) j ∧ o = some v ∧ y = { x with pos := j }) ∨
  (∃ v es j, ParsesAt e D n g (!exact) x.pos (.recovered v es) j ∧ o = some v ∧
    y = { x with errors := added es, pos := j }) ∨
  (∃ k es j, ParsesAt e D n g (!exact) x.pos (.failed k es) j ∧ j ≤ k ∧ o = none ∧
    y = { failedAt := k, errors := added es, pos := j })

/-- What an incomplete strategy does, for a parser `g` and a recovery started at `st`. The
bound `n` limits the number of iterations of loops. -/
def Runs (e : Env S) (D : Defs S N) (n : Nat) (st : Nat) :
    {ε : ErrTy S} → {α : Type} → G S N ε α → IS S N ε α → RStep ε.E α
  | _, _, _, .attemptTo => Becomes id
  | _, _, g, .restart s => After (Runs e D n st g s) (Becomes fun x => { x with pos := st })
  | _, _, g, .seekToFailed s => After (Runs e D n st g s) (Becomes fun x => { x with pos := x.failedAt })
  | _, _, g, .skip s => After (Runs e D n st g s) (Becomes fun x => { x with pos := e.stepOver x.pos })
  | _, _, g, .skipIf s p => After (Runs e D n st g s) fun x o y => o = none ∧
      ((e.Holds p x.pos ∧ y = { x with pos := x.pos + 1 }) ∨ (¬e.Holds p x.pos ∧ y = x))
  | _, _, g, .find s p => After (Runs e D n st g s) fun x o y => o = none ∧
      ∃ j, FirstHit e p x.pos j ∧ j < x.pos + n ∧ y = { x with pos := j }
  | _, _, g, .scan s sc => After (Runs e D n st g s) fun x o y => o = none ∧
      ∃ es j, Scans e sc sc.fresh x.errors x.pos es j ∧ j < x.pos + n ∧ y = { x with errors := es, pos := j }
  | _, _, g, .maybe s t => After (Runs e D n st g s) fun x o y =>
      (o.isSome ∧ Runs e D n st g t x o y) ∨
      (o = none ∧ ∃ z, Runs e D n st g t x none z ∧ y = { z with pos := x.pos })
  | _, _, g, .whileNot s p t => After (Runs e D n st g s) fun x o y =>
      ∃ m, m < n ∧ WhileNot e p (Runs e D n st g t) m x o y
  | _, _, g, .retry s exact silent => After (Runs e D n st g s) (TryParser e D n g exact silent)
  | _, _, g, .tryToParse s h exact silent =>
      After (Runs e D n st g s) (TryParser e D n h exact silent)
  | _, _, g, .pushError s f => After (Runs e D n st g s)
      (Becomes fun x => { x with errors := x.errors ++ [f ()] })
  | _, _, g, .pushErrorHere s f => After (Runs e D n st g s)
      (Becomes fun x => { x with errors := x.errors ++ [f (specLocation e x.pos)] })
  | _, _, g, .pushErrorUpToHere s f => After (Runs e D n st g s)
      (Becomes fun x => { x with errors := x.errors ++ [f (specSpan e st x.pos)] })
  | _, _, g, .pushErrorForToken s f => After (Runs e D n st g s)
      (Becomes fun x => { x with errors := x.errors ++ [f (e.source x.pos) (tokenSpan e x.pos)] })
  | _, _, g, .updateErrors s f => After (Runs e D n st g s)
      (Becomes fun x => { x with errors := f x.errors })
  | _, _, g, .updateErrorsHere s f => After (Runs e D n st g s)
      (Becomes fun x => { x with errors := f x.errors (specLocation e x.pos) })
  | _, _, g, .updateErrorsUpToHere s f => After (Runs e D n st g s)
      (Becomes fun x => { x with errors := f x.errors (specSpan e st x.pos) })
  | _, _, g, .updateErrorsForToken s f => After (Runs e D n st g s)
      (Becomes fun x => { x with errors := f x.errors (e.source x.pos) (tokenSpan e x.pos) })
  | _, _, g, .boxed s => Runs e D n st g s

/-- Recovered with output `v`, without moving. -/
def Returns {E α : Type} (f : RState E → α) : RStep E α := fun x o y => o = some (f x) ∧ y = x

/-- What a complete strategy does. -/
def RunsAll (e : Env S) (D : Defs S N) (n : Nat) (st : Nat) {ε : ErrTy S} {α : Type}
    (g : G S N ε α) : CS S N ε α → RStep ε.E α
  | .ret s v => After (Runs e D n st g s) (Returns fun _ => v)
  | .retWith s f => After (Runs e D n st g s) (Returns fun _ => f ())
  | .retWithSpan s f => After (Runs e D n st g s) (Returns fun x => f (specSpan e st x.pos))
  | .orFail s => Runs e D n st g s

end PPC
