import Verif.Parser

/-!
# Primitive parsers (src/primitive.rs)

`container::Container<I>` values (src/container.rs) are modelled by the list of
items their `get_iter()` yields.
-/

namespace PPC
open Prog

variable {S : Sig}

/-- `found == Some(&expected)` -/
def isTok (S : Sig) (found : Option S.I) (expected : S.I) : Bool :=
  match found with
  | some t => S.eqI t expected
  | none => false

/-- `Empty::parse_internal` (src/primitive.rs:29-35). -/
def pEmpty {E : Type} : Parser S E Unit := fun _ => return .success ()

/-- `None::parse_internal` (src/primitive.rs:70-76). -/
def pNone {E α : Type} : Parser S E (Option α) := fun _ => return .success none

/-- `End::parse_internal` (src/primitive.rs:112-129). -/
def pEnd (ε : ErrTy S) : Parser S ε.E Unit := fun _ => do
  if ← eof then
    return .success ()
  else
    let i ← index
    let t ← token
    let l ← location
    return .failed i [ε.expectedFound [none] t (.location l)]

/-- `Just::parse_internal` (src/primitive.rs:166-189). Note that the *expected*
token is returned, not the one found. -/
def pJust (ε : ErrTy S) (expected : S.I) : Parser S ε.E S.I := fun _ => do
  let found ← token
  if isTok S found expected then
    let _ ← advance
    return .success expected
  else
    let i ← index
    let sp ← span
    return .failed i [ε.expectedFound [some expected] found (.span sp)]

/-- `Filter::parse_internal` (src/primitive.rs:228-252). -/
def pFilter (ε : ErrTy S) (filter : S.I → Bool) : Parser S ε.E S.I := fun _ =>
  attempt do
    let found ← token
    match found with
    | some t =>
      if filter t then
        let _ ← advance
        return (true, .success t)
      else
        let i ← index
        let sp ← span
        return (false, .failed i [ε.expectedFound [] found (.span sp)])
    | none =>
      let i ← index
      let sp ← span
      return (false, .failed i [ε.expectedFound [] found (.span sp)])

/-- `FilterMap::parse_internal` (src/primitive.rs:293-314). -/
def pFilterMap {α : Type} (ε : ErrTy S) (filter : S.I → Option α) : Parser S ε.E α := fun _ => do
  let found ← token
  match found.bind filter with
  | some o =>
    let _ ← advance
    return .success o
  | none =>
    let i ← index
    let sp ← span
    return .failed i [ε.expectedFound [] found (.span sp)]

/-- The loop of `Seq::parse_internal` (src/primitive.rs:361-378); `none` when all
items matched, otherwise the failure. -/
def seqLoop {α : Type} (ε : ErrTy S) : List S.I → Prog S (Option (Res α ε.E))
  | [] => return none
  | expected :: rest => do
    let found ← token
    if isTok S found expected then
      let _ ← advance
      seqLoop ε rest
    else
      let i ← index
      let sp ← span
      return some (.failed i [ε.expectedFound [some expected] found (.span sp)])

/-- `Seq::parse_internal` (src/primitive.rs:354-383). -/
def pSeq {α : Type} (ε : ErrTy S) (expected : α) (items : List S.I) : Parser S ε.E α := fun _ =>
  attempt do
    match ← seqLoop ε items with
    | some failure => return (false, failure)
    | none => return (true, .success expected)

/-- `OneOf::parse_internal` (src/primitive.rs:427-456). -/
def pOneOf (ε : ErrTy S) (items : List S.I) : Parser S ε.E S.I := fun _ => do
  let found ← token
  match found with
  | some t =>
    if items.any (fun x => S.eqI t x) then
      let _ ← advance
      return .success t
    else
      let i ← index
      let sp ← span
      return .failed i [ε.expectedFound (items.map some) found (.span sp)]
  | none =>
    let i ← index
    let sp ← span
    return .failed i [ε.expectedFound (items.map some) found (.span sp)]

/-- `NoneOf::parse_internal` (src/primitive.rs:496-536). -/
def pNoneOf (ε : ErrTy S) (items : List S.I) : Parser S ε.E S.I := fun _ => do
  let found ← token
  match found with
  | some t =>
    if items.any (fun x => S.eqI t x) then
      let i ← index
      let sp ← span
      return .failed i [ε.expectedFound [] (some t) (.span sp)]
    else
      let _ ← advance
      return .success t
  | none =>
    let i ← index
    let l ← location
    return .failed i [ε.expectedFound [] none (.location l)]

end PPC
