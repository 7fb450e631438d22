import Verif.Cursor
import Verif.Pangram
import Verif.Api
import Verif.GAll

/-!
# The work done by a parser (specification of C51)

The work is measured by the number of calls that a client makes on the stream: every token that is
looked at, every saved state, every step forward or back.
-/

namespace PPC

variable {S : Sig}

/-- The number of API calls of a client until it returns, panics or runs out of its bound. -/
def Prog.calls {α σ : Type} (step : (o : Op S) → σ → Out (o.Resp × σ)) : Prog S α → σ → Nat
  | .ret _, _ => 0
  | .panic _, _ => 0
  | .oof, _ => 0
  | .op o k, s =>
    match step o s with
    | .ok x => 1 + (k x.1).calls step x.2
    | _ => 1

/-- The number of API calls that `parse` and `parse_with_recovery` (src/parser.rs:137-215) make on their stream. -/
def parseCalls {α E : Type} (p : Parser S E α) (al : Alloc) (source : Nat → Option S.I) (start : S.L) : Nat :=
  (p true).calls Stream.step (Stream.newWithLocation al source start)

/-! ## Parsers whose work is bounded by a polynomial -/

variable {N : Names S}

mutual

/-- How deep loops over the input are nested in a parser: repetitions without maximum, and the loops of recovery
strategies. -/
def G.loops : {ε : ErrTy S} → {α : Type} → G S N ε α → Nat
  | _, _, .empty => 0
  | _, _, .none _ => 0
  | _, _, .eof => 0
  | _, _, .just _ => 0
  | _, _, .filter _ => 0
  | _, _, .filterMap _ => 0
  | _, _, .seq _ _ => 0
  | _, _, .oneOf _ => 0
  | _, _, .noneOf _ => 0
  | _, _, .boxed g => g.loops
  | _, _, .withError g => g.loops
  | _, _, .to g _ => g.loops
  | _, _, .some g => g.loops
  | _, _, .map _ g => g.loops
  | _, _, .mapWithSpan _ g => g.loops
  | _, _, .mapErr _ g => g.loops
  | _, _, .mapErrWithSpan _ g => g.loops
  | _, _, .tryMap _ g => g.loops
  | _, _, .then_ a b => max a.loops b.loops
  | _, _, .thenIgnore a b => max a.loops b.loops
  | _, _, .ignoreThen a b => max a.loops b.loops
  | _, _, .delimitedBy l m r => max l.loops (max m.loops r.loops)
  | _, _, .paddedBy p m => max p.loops m.loops
  | _, _, .chain gs => gs.loops
  | _, _, .or a b => max a.loops b.loops
  | _, _, .orNot g => g.loops
  | _, _, .alters gs => gs.loops
  | _, _, .repeated c g => if c.maximum.isSome then g.loops else g.loops + 1
  | _, _, .separatedBy c g s => if c.maximum.isSome then max g.loops s.loops else max g.loops s.loops + 1
  | _, _, .toRecover g st => max g.loops (st.loops g.loops)
  | _, _, .call _ => 0

/-- The greatest depth in a list of parsers. -/
def GL.loops : {ε : ErrTy S} → {α : Type} → GL S N ε α → Nat
  | _, _, .nil => 0
  | _, _, .cons g gs => max g.loops gs.loops

/-- The depth of a strategy, for a parser of depth `d`. -/
def IS.loops (d : Nat) : {ε : ErrTy S} → {α : Type} → IS S N ε α → Nat
  | _, _, .attemptTo => 0
  | _, _, .skipIf s _ => s.loops d
  | _, _, .pushError s _ => s.loops d
  | _, _, .pushErrorHere s _ => s.loops d
  | _, _, .pushErrorUpToHere s _ => s.loops d
  | _, _, .pushErrorForToken s _ => s.loops d
  | _, _, .updateErrors s _ => s.loops d
  | _, _, .updateErrorsHere s _ => s.loops d
  | _, _, .updateErrorsUpToHere s _ => s.loops d
  | _, _, .updateErrorsForToken s _ => s.loops d
  | _, _, .restart s => s.loops d
  | _, _, .seekToFailed s => s.loops d
  | _, _, .skip s => s.loops d
  | _, _, .boxed s => s.loops d
  | _, _, .find s _ => max (s.loops d) 1
  | _, _, .scan s _ => max (s.loops d) 1
  | _, _, .maybe s t => max (s.loops d) (t.loops d)
  | _, _, .whileNot s _ t => max (s.loops d) (t.loops d + 1)
  | _, _, .retry s _ _ => max (s.loops d) d
  | _, _, .tryToParse s g _ _ => max (s.loops d) g.loops

/-- The depth of a complete strategy. -/
def CS.loops (d : Nat) : {ε : ErrTy S} → {α : Type} → CS S N ε α → Nat
  | _, _, .ret s _ => s.loops d
  | _, _, .retWith s _ => s.loops d
  | _, _, .retWithSpan s _ => s.loops d
  | _, _, .orFail s => s.loops d

end

/-- Neither a recursive parser nor `map_err_with_span`. -/
def G.Direct : {ε : ErrTy S} → {α : Type} → G S N ε α → Prop
  | _, _, .call _ => False
  | _, _, .mapErrWithSpan _ _ => False
  | _, _, _ => True

/-- No parser in it is recursive or calls `map_err_with_span`. -/
def directL (S : Sig) (N : Names S) : Local S N where
  g := G.Direct
  s := fun _ => True

/-- Not `map_err_with_span`. -/
def G.NoErrSpan : {ε : ErrTy S} → {α : Type} → G S N ε α → Prop
  | _, _, .mapErrWithSpan _ _ => False
  | _, _, _ => True

/-- No parser in it calls `map_err_with_span`. -/
def noErrSpanL (S : Sig) (N : Names S) : Local S N where
  g := G.NoErrSpan
  s := fun _ => True

namespace Pangram

variable {Sp : Type}

/-- `a :== ( … ( b ) … ) ;` with `n` pairs of parentheses, as the types of its tokens. -/
def nestedTypes (n : Nat) : List TokenType :=
  [.symbol, .colEqEq] ++ List.replicate n .lp ++ [.symbol] ++ List.replicate n .rp ++ [.sem]

end Pangram

end PPC
