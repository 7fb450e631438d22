import Verif.Prog
import Verif.Error

/-!
# Parse results and the parser interface (src/parser.rs)
-/

namespace PPC

/-- `parser::Result` (src/parser.rs:12-25). -/
inductive Res (α E : Type) : Type where
  | success (o : α)
  | recovered (o : α) (es : List E)
  | failed (i : Nat) (es : List E)
deriving DecidableEq, Repr

namespace Res

/-- `is_ok` (src/parser.rs:48-50) -/
def isOk {α E : Type} : Res α E → Bool
  | success _ => true
  | _ => false

/-- `tree` (src/parser.rs:53-59) -/
def tree {α E : Type} : Res α E → Option α
  | success o => some o
  | recovered o _ => some o
  | failed _ _ => none

/-- The errors iterated over by `errors()` (src/parser.rs:62-68). -/
def errorList {α E : Type} : Res α E → List E
  | success _ => []
  | recovered _ es => es
  | failed _ es => es

/-- `Result::map` (src/parser.rs:71-77) -/
def map {α β E : Type} (f : α → β) : Res α E → Res β E
  | success o => success (f o)
  | recovered o es => recovered (f o) es
  | failed i es => failed i es

/-- `Result::map_err` (src/parser.rs:80-86) -/
def mapErr {α E X : Type} (f : E → X) : Res α E → Res α X
  | success o => success o
  | recovered o es => recovered o (es.map f)
  | failed i es => failed i (es.map f)

/-- `Result::try_map` (src/parser.rs:89-105), where the mapping function may use
the stream (as in `combinator::TryMap`). -/
def tryMapM {α β E : Type} {S : Sig} (r : Res α E) (f : α → Prog S (Res β E)) :
    Prog S (Res β E) :=
  match r with
  | success o => f o
  | recovered o es => do
    match ← f o with
    | success x => return success x
    | recovered x es2 => return recovered x (es ++ es2)
    | failed i es2 => return failed i (es ++ es2)
  | failed i es => return failed i es

/-- `From<Result<O, E>> for std::result::Result<O, E>` (src/parser.rs:27-44). -/
def toExcept {α : Type} {S : Sig} (ε : ErrTy S) : Res α ε.E → Except ε.E α
  | success o => .ok o
  | recovered _ es => .error (es.head?.getD (ε.simple "unknown error"))
  | failed _ es => .error (es.head?.getD (ε.simple "unknown error"))

end Res

/-- `ErrorIter` (src/parser.rs:109-112). -/
inductive ErrorIter (E : Type) : Type where
  | none
  | many (es : List E) (i : Nat)

/-- `Result::errors` (src/parser.rs:62-68). -/
def Res.errors {α E : Type} : Res α E → ErrorIter E
  | .success _ => .none
  | .recovered _ es => .many es 0
  | .failed _ es => .many es 0

/-- `ErrorIter::next` (src/parser.rs:117-130). -/
def ErrorIter.next {E : Type} : ErrorIter E → Option E × ErrorIter E
  | .none => (Option.none, .none)
  | .many es i =>
    if h : es.length ≤ i then (Option.none, .many es i)
    else (some (es[i]'(Nat.lt_of_not_le h)), .many es (i + 1))

/-- A parser: its `parse_internal` (src/parser.rs:154-158), given
`enable_recovery`, as a client of the stream. -/
abbrev Parser (S : Sig) (E α : Type) : Type := Bool → Prog S (Res α E)

end PPC
