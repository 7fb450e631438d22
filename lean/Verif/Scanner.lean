import Verif.Error

/-!
# Token scanners for recovery (src/scanner.rs)
-/

namespace PPC

/-- The `Scanner` trait (src/scanner.rs:7-31) together with the factory passed to
`scan()`: a fresh state and the two methods. A panic inside `scan` is `.error`. -/
structure Scanner (S : Sig) (E : Type) where
  /-- scanner state -/
  σ : Type
  /-- the factory -/
  fresh : σ
  scan : S.I → S.Span → σ → List E → Except String (Bool × σ × List E)
  eof : S.Loc → σ → List E → List E

/-- An entry of the stack of `NestedDelimiters` (src/scanner.rs:36). -/
structure Delim (S : Sig) where
  ty : Nat
  left : S.I
  span : S.Span

/-- First position whose element satisfies `p` (the `for` loops with early return,
src/scanner.rs:69-74, 79-80). -/
def firstIdx {α : Type} (p : α → Bool) : List α → Nat → Option Nat
  | [], _ => none
  | x :: xs, i => if p x then some i else firstIdx p xs (i + 1)

/-- Option 3 (src/scanner.rs:104-116): pop until the matching left delimiter.
Returns the remaining stack, the errors, and whether the matching one was popped.
The head of the list is the top of the stack. -/
def popUntil {S : Sig} (ε : ErrTy S) (rightIndex : Nat) (span : S.Span) :
    List (Delim S) → List ε.E → Bool × List (Delim S) × List ε.E
  | [], errors => (false, [], errors)
  | d :: ds, errors =>
    if d.ty = rightIndex then (true, ds, errors)
    else popUntil ε rightIndex span ds (errors ++ [ε.unmatchedLeft d.left d.span (.span span)])

/-- Options 1 and 2 (src/scanner.rs:119-132). -/
def popOne {S : Sig} (ε : ErrTy S) (rightIndex : Nat) (token : S.I) (span : S.Span)
    (stack : List (Delim S)) (errors : List ε.E) :
    Except String (List (Delim S) × List ε.E) :=
  match stack with
  | d :: ds =>
    if d.ty = rightIndex then .error "assertion failed: left_index != right_index"
    else .ok (ds, errors ++ [ε.unmatchedType d.left d.span token span])
  | [] => .ok ([], errors ++ [ε.unmatchedRight token span .none])

/-- The part of `handle_token` after the check of the top of the stack
(src/scanner.rs:68-137). -/
def handleRest {S : Sig} (ε : ErrTy S) (types : List (S.I × S.I)) (token : S.I) (span : S.Span)
    (stack : List (Delim S)) (errors : List ε.E) :
    Except String (List (Delim S) × List ε.E) :=
  match firstIdx (fun t => S.eqI token t.1) types 0 with
  | some i => .ok (⟨i, token, span⟩ :: stack, errors)
  | none =>
    match firstIdx (fun t => S.eqI token t.2) types 0 with
    | some r =>
      if stack.any (fun d => d.ty = r) then
        match popUntil ε r span stack errors with
        | (true, stack', errors') => .ok (stack', errors')
        | (false, stack', errors') => popOne ε r token span stack' errors'
      else popOne ε r token span stack errors
    | none => .ok (stack, errors)

/-- `NestedDelimiters::handle_token` (src/scanner.rs:53-138). Indexing
`self.types[*index]` out of bounds (impossible, as indices come from
`enumerate()`) is a panic. -/
def handleToken {S : Sig} (ε : ErrTy S) (types : List (S.I × S.I)) (token : S.I) (span : S.Span)
    (stack : List (Delim S)) (errors : List ε.E) :
    Except String (List (Delim S) × List ε.E) :=
  match stack with
  | d :: ds =>
    match types[d.ty]? with
    | some t =>
      if S.eqI token t.2 then .ok (ds, errors)
      else handleRest ε types token span stack errors
    | none => .error "index out of bounds"
  | [] => handleRest ε types token span stack errors

/-- `impl Scanner for NestedDelimiters` (src/scanner.rs:149-172) with the factory
`nested_delimiters` (src/scanner.rs:184-194). -/
@[reducible] def nestedDelimiters {S : Sig} (ε : ErrTy S) (types : List (S.I × S.I)) :
    Scanner S ε.E where
  σ := List (Delim S)
  fresh := []
  scan token span stack errors :=
    match handleToken ε types token span stack errors with
    | .ok (stack', errors') => .ok (stack'.isEmpty, stack', errors')
    | .error m => .error m
  eof loc stack errors :=
    errors ++ stack.map fun d => ε.unmatchedLeft d.left d.span (.location loc)

end PPC
