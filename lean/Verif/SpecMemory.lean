import Verif.BufferBound
import Verif.Api
import Verif.GAll

/-!
# The memory used by a parse (specification of C53)

The stream keeps tokens in a buffer and weak pointers to saved states in a list of markers. The property bounds both
in every state that the stream goes through, also in the middle of a parse.
-/

namespace PPC

variable {S : Sig}

/-- Every state that the stream goes through while a client runs satisfies `P`: the state at the start and the states
after each API call, until the client returns, panics or runs out of its bound. -/
def Prog.Through {α : Type} (P : Stream S → Prop) : Prog S α → Stream S → Prop
  | .ret _, s => P s
  | .panic _, s => P s
  | .oof, s => P s
  | .op o k, s => P s ∧ ∀ r s', Stream.step o s = .ok (r, s') → (k r).Through P s'

/-- In each of `k` calls of `next`, no token is looked at that lies `W` or more tokens behind the position at which that
call started. -/
def LooksAhead {α : Type} (W : Nat) (next : Prog S α) : Nat → Stream S → Prop
  | 0, _ => True
  | k + 1, s => next.Through (fun s' => s'.pulled ≤ s.index + W) s ∧
      ∀ x s', next.run Stream.step s = .ok (x, s') → LooksAhead W next k s'

/-- At most `k` saved states are owned by the client. -/
def Stream.OwnedAtMost (k : Nat) (s : Stream S) : Prop :=
  ∀ l : List SavedState, l.Nodup → (∀ m ∈ l, s.live m = true) → l.length ≤ k

variable {N : Names S}

/-- If it is a recursive parser, then it is one of those in `F`. -/
def G.CallsIn (F : N.K → Prop) : {ε : ErrTy S} → {α : Type} → G S N ε α → Prop
  | _, _, .call k => F k
  | _, _, _ => True

/-- No recursive parsers besides those in `F` are called. -/
def callsL (F : N.K → Prop) : Local S N where
  g := G.CallsIn F
  s := fun _ => True

mutual

/-- How many saved states a parser owns at the same time, at most, if the recursive parsers own at most `r`: how deep
parsers that have to go back are nested in it. -/
def G.saves (r : Nat) : {ε : ErrTy S} → {α : Type} → G S N ε α → Nat
  | _, _, .empty => 0
  | _, _, .none _ => 0
  | _, _, .eof => 0
  | _, _, .just _ => 0
  | _, _, .filter _ => 1
  | _, _, .filterMap _ => 0
  | _, _, .seq _ _ => 1
  | _, _, .oneOf _ => 0
  | _, _, .noneOf _ => 0
  | _, _, .boxed g => g.saves r
  | _, _, .withError g => g.saves r
  | _, _, .to g _ => g.saves r
  | _, _, .some g => g.saves r
  | _, _, .map _ g => g.saves r
  | _, _, .mapWithSpan _ g => g.saves r + 1
  | _, _, .mapErr _ g => g.saves r
  | _, _, .mapErrWithSpan _ g => g.saves r + 1
  | _, _, .tryMap _ g => g.saves r + 1
  | _, _, .then_ a b => max (a.saves r) (b.saves r) + 1
  | _, _, .thenIgnore a b => max (a.saves r) (b.saves r) + 1
  | _, _, .ignoreThen a b => max (a.saves r) (b.saves r) + 1
  | _, _, .delimitedBy l m x => max (l.saves r) (max (m.saves r) (x.saves r)) + 1
  | _, _, .paddedBy p m => max (p.saves r) (m.saves r) + 1
  | _, _, .chain gs => gs.saves r + 1
  | _, _, .or a b => max (a.saves r) (b.saves r)
  | _, _, .orNot g => g.saves r
  | _, _, .alters gs => gs.saves r
  | _, _, .repeated _ g => g.saves r + 1
  | _, _, .separatedBy _ g s => max (g.saves r) (s.saves r) + 2
  | _, _, .toRecover g st => max (g.saves r) (st.saves r (g.saves r) + 2)
  | _, _, .call _ => r

/-- The same for the parsers in a list, which run one after the other. -/
def GL.saves (r : Nat) : {ε : ErrTy S} → {α : Type} → GL S N ε α → Nat
  | _, _, .nil => 0
  | _, _, .cons g gs => max (g.saves r) (gs.saves r)

/-- The same for a strategy, if the parser it may retry owns at most `d` saved states. -/
def IS.saves (r d : Nat) : {ε : ErrTy S} → {α : Type} → IS S N ε α → Nat
  | _, _, .attemptTo => 0
  | _, _, .skipIf s _ => s.saves r d
  | _, _, .pushError s _ => s.saves r d
  | _, _, .pushErrorHere s _ => s.saves r d
  | _, _, .pushErrorUpToHere s _ => s.saves r d
  | _, _, .pushErrorForToken s _ => s.saves r d
  | _, _, .updateErrors s _ => s.saves r d
  | _, _, .updateErrorsHere s _ => s.saves r d
  | _, _, .updateErrorsUpToHere s _ => s.saves r d
  | _, _, .updateErrorsForToken s _ => s.saves r d
  | _, _, .restart s => s.saves r d
  | _, _, .seekToFailed s => s.saves r d
  | _, _, .skip s => s.saves r d
  | _, _, .boxed s => s.saves r d
  | _, _, .find s _ => s.saves r d
  | _, _, .scan s _ => s.saves r d
  | _, _, .maybe s t => max (s.saves r d) (t.saves r d + 1)
  | _, _, .whileNot s _ t => max (s.saves r d) (t.saves r d)
  | _, _, .retry s _ _ => max (s.saves r d) (max d 1)
  | _, _, .tryToParse s g _ _ => max (s.saves r d) (max (g.saves r) 1)

/-- The same for a complete strategy. -/
def CS.saves (r d : Nat) : {ε : ErrTy S} → {α : Type} → CS S N ε α → Nat
  | _, _, .ret s _ => s.saves r d
  | _, _, .retWith s _ => s.saves r d
  | _, _, .retWithSpan s _ => s.saves r d
  | _, _, .orFail s => s.saves r d

end

/-- A parser that runs other parsers a fixed number of times: not a repetition without maximum, not a recursive parser.
A function given to `try_map` does not answer `Recovered` (see C11). -/
def G.Finite : {ε : ErrTy S} → {α : Type} → G S N ε α → Prop
  | _, _, .tryMap f _ => ∀ a sp o es, f a sp ≠ .recovered o es
  | _, _, .repeated c _ => c.maximum ≠ Option.none
  | _, _, .separatedBy c _ _ => c.maximum ≠ Option.none
  | _, _, .call _ => False
  | _, _, _ => True

/-- A strategy that does not search. -/
def IS.Finite : {ε : ErrTy S} → {α : Type} → IS S N ε α → Prop
  | _, _, .find _ _ => False
  | _, _, .scan _ _ => False
  | _, _, .whileNot _ _ _ => False
  | _, _, _ => True

/-- Parsers and strategies that do not run parsers or look at tokens an unlimited number of times. -/
def finiteL (S : Sig) (N : Names S) : Local S N where
  g := G.Finite
  s := IS.Finite

mutual

/-- How many tokens such a parser looks at, at most. -/
def G.ahead : {ε : ErrTy S} → {α : Type} → G S N ε α → Nat
  | _, _, .empty => 0
  | _, _, .none _ => 0
  | _, _, .eof => 1
  | _, _, .just _ => 1
  | _, _, .filter _ => 1
  | _, _, .filterMap _ => 1
  | _, _, .seq _ items => items.length
  | _, _, .oneOf _ => 1
  | _, _, .noneOf _ => 1
  | _, _, .boxed g => g.ahead
  | _, _, .withError g => g.ahead
  | _, _, .to g _ => g.ahead
  | _, _, .some g => g.ahead
  | _, _, .map _ g => g.ahead
  | _, _, .mapWithSpan _ g => g.ahead
  | _, _, .mapErr _ g => g.ahead
  | _, _, .mapErrWithSpan _ g => g.ahead
  | _, _, .tryMap _ g => g.ahead
  | _, _, .then_ a b => a.ahead + b.ahead
  | _, _, .thenIgnore a b => a.ahead + b.ahead
  | _, _, .ignoreThen a b => a.ahead + b.ahead
  | _, _, .delimitedBy l m r => l.ahead + m.ahead + r.ahead
  | _, _, .paddedBy p m => p.ahead + m.ahead + p.ahead
  | _, _, .chain gs => gs.aheadSum
  | _, _, .or a b => max a.ahead b.ahead
  | _, _, .orNot g => g.ahead
  | _, _, .alters gs => gs.aheadMax
  | _, _, .repeated c g => (c.maximum.getD 0 + 1) * g.ahead
  | _, _, .separatedBy c g s => (c.maximum.getD 0 + 1) * (s.ahead + g.ahead)
  | _, _, .toRecover g st => g.ahead + st.ahead g.ahead
  | _, _, .call _ => 0

/-- The same for parsers one after the other. -/
def GL.aheadSum : {ε : ErrTy S} → {α : Type} → GL S N ε α → Nat
  | _, _, .nil => 0
  | _, _, .cons g gs => g.ahead + gs.aheadSum

/-- The same for a choice between parsers. -/
def GL.aheadMax : {ε : ErrTy S} → {α : Type} → GL S N ε α → Nat
  | _, _, .nil => 0
  | _, _, .cons g gs => max g.ahead gs.aheadMax

/-- The same for a strategy, if the parser it may retry looks at most `w` tokens ahead. -/
def IS.ahead (w : Nat) : {ε : ErrTy S} → {α : Type} → IS S N ε α → Nat
  | _, _, .attemptTo => 0
  | _, _, .skipIf s _ => s.ahead w + 1
  | _, _, .pushError s _ => s.ahead w
  | _, _, .pushErrorHere s _ => s.ahead w
  | _, _, .pushErrorUpToHere s _ => s.ahead w
  | _, _, .pushErrorForToken s _ => s.ahead w + 1
  | _, _, .updateErrors s _ => s.ahead w
  | _, _, .updateErrorsHere s _ => s.ahead w
  | _, _, .updateErrorsUpToHere s _ => s.ahead w
  | _, _, .updateErrorsForToken s _ => s.ahead w + 1
  | _, _, .restart s => s.ahead w
  | _, _, .seekToFailed s => s.ahead w
  | _, _, .skip s => s.ahead w + 1
  | _, _, .boxed s => s.ahead w
  | _, _, .find _ _ => 0
  | _, _, .scan _ _ => 0
  | _, _, .maybe s t => s.ahead w + t.ahead w
  | _, _, .whileNot _ _ _ => 0
  | _, _, .retry s _ _ => s.ahead w + w
  | _, _, .tryToParse s g _ _ => s.ahead w + g.ahead

/-- The same for a complete strategy. -/
def CS.ahead (w : Nat) : {ε : ErrTy S} → {α : Type} → CS S N ε α → Nat
  | _, _, .ret s _ => s.ahead w
  | _, _, .retWith s _ => s.ahead w
  | _, _, .retWithSpan s _ => s.ahead w
  | _, _, .orFail s => s.ahead w

end

end PPC
