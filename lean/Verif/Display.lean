import Verif.Error
import Verif.Location

/-!
# Rendering of errors and locations (the `Display` implementations)

Formatting a token, a location or a span is a parameter (its own `Display`). The hash set of
expected tokens is iterated in an unspecified order, which is a parameter too. Writing to the
formatter is modelled as appending to a string; errors of the underlying writer are not modelled.
-/

namespace PPC

/-- `impl Display for At` (src/error.rs:16-37). `alt` is the alternate flag (`{:#}`). -/
def At.display {Loc Span : Type} (showLoc : Loc → String) (showSpan : Span → String) (alt : Bool) :
    At Loc Span → String
  | .none => if alt then "<unknown>" else ""
  | .location l => if alt then showLoc l else " at " ++ showLoc l
  | .span s => if alt then showSpan s else " at " ++ showSpan s

/-- The strings of the expected tokens (src/error.rs:322-328). -/
def showExpected {I : Type} (showI : I → String) : Option I → String
  | some x => showI x
  | none => "EOF"

/-- The loop over the middle expected tokens (src/error.rs:335-337): appends to what was written. -/
def writeMiddle (out : String) : List String → String
  | [] => out
  | x :: xs => writeMiddle (out ++ (", " ++ x)) xs

/-- The match on the number of expected tokens (src/error.rs:329-340). -/
def writeExpected : List String → String
  | [] => "found unexpected"
  | [a] => "expected " ++ a ++ " but found"
  | [a, b] => "expected " ++ a ++ " or " ++ b ++ " but found"
  | a :: b :: c :: xs =>
    writeMiddle ("expected " ++ a) ((b :: c :: xs).dropLast) ++ ", or " ++
      (b :: c :: xs).getLast (by simp) ++ " but found"

/-- The token that was found (src/error.rs:341-344). -/
def writeFound {I : Type} (showI : I → String) : Option I → String
  | some x => " " ++ showI x
  | none => " EOF"

/-- The hint of delimiter errors, if its location is known (src/error.rs:349-351, 356-358). -/
def writeHint {Loc Span : Type} (showLoc : Loc → String) (showSpan : Span → String) (hint : String)
    (a : At Loc Span) : String :=
  if a.isKnown then hint ++ a.display showLoc showSpan false else ""

/-- `impl Display for Simple` (src/error.rs:313-370). `iter` is the order in which the hash set is
iterated. The nested `{at}`, `{before}`, `{after}` are formatted without the alternate flag,
whatever the flag of the outer formatter, so that there is no such parameter here. -/
def SimpleError.display {I Loc Span : Type} (showI : I → String) (showLoc : Loc → String)
    (showSpan : Span → String) (iter : List (Option I) → List (Option I)) :
    SimpleError I Loc Span → String
  | .expectedFound expected found at_ =>
    writeExpected ((iter expected).map (showExpected showI)) ++
      writeFound showI found ++
      at_.display showLoc showSpan false
  | .unmatchedLeft lt ls before =>
    "unmatched left " ++ showI lt ++ " (" ++ showSpan ls ++ ")" ++
      writeHint showLoc showSpan "; must be closed before " before
  | .unmatchedRight rt rs after =>
    "unmatched right " ++ showI rt ++ " (" ++ showSpan rs ++ ")" ++
      writeHint showLoc showSpan "; must be opened after " after
  | .unmatchedType lt ls rt rs =>
    "left " ++ showI lt ++ " (" ++ showSpan ls ++ ") does not match right " ++ showI rt ++ " (" ++
      showSpan rs ++ ")"
  | .custom msg at_ => msg ++ at_.display showLoc showSpan false

/-- `impl Display for RichOffset` (src/location.rs:146-150). -/
def RichOffset.display (o : RichOffset) : String := toString o.row ++ ":" ++ toString o.column

/-- `impl Display for RichLocation` (src/location.rs:160-164). -/
def RichLocation.display (l : RichLocation) : String := l.filename ++ " " ++ l.offset.display

/-- `impl Display for RichSpan` (src/location.rs:176-180). -/
def RichSpan.display (s : RichSpan) : String :=
  s.filename ++ " " ++ s.from_.display ++ ".." ++ s.to.display

end PPC
