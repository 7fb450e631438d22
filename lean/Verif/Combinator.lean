import Verif.Primitive
import Verif.Algorithm

/-!
# Combinators (src/combinator.rs)
-/

namespace PPC
open Prog

variable {S : Sig}

/-- `Boxed::parse_internal` (src/combinator.rs:33-40). -/
def pBoxed {E α : Type} (child : Parser S E α) : Parser S E α := fun en => child en

/-- `WithError::parse_internal` (src/combinator.rs:57-72). -/
def pWithError {E α : Type} (child : Parser S E α) : Parser S E α := fun en => child en

/-- `To::parse_internal` (src/combinator.rs:81-99). -/
def pTo {E α β : Type} (child : Parser S E α) (v : β) : Parser S E β := fun en => do
  let r ← child en
  return r.map fun _ => v

/-- `Some::parse_internal` (src/combinator.rs:110-125). -/
def pSome {E α : Type} (child : Parser S E α) : Parser S E (Option α) := fun en => do
  let r ← child en
  return r.map some

/-- `Map::parse_internal` (src/combinator.rs:134-152). -/
def pMap {E α β : Type} (f : α → β) (child : Parser S E α) : Parser S E β := fun en => do
  let r ← child en
  return r.map f

/-- `MapWithSpan::parse_internal` (src/combinator.rs:161-183): the span is computed
only if there is an output to map. -/
def pMapWithSpan {E α β : Type} (f : α → S.Span → β) (child : Parser S E α) : Parser S E β :=
  fun en =>
  withSave fun from_ => do
    match ← child en with
    | .success a =>
      let sp ← spanningBackTo from_
      return .success (f a sp)
    | .recovered a es =>
      let sp ← spanningBackTo from_
      return .recovered (f a sp) es
    | .failed i es => return .failed i es

/-- `MapErr::parse_internal` (src/combinator.rs:192-211). -/
def pMapErr {E X α : Type} (f : X → E) (child : Parser S X α) : Parser S E α := fun en => do
  let r ← child en
  return r.mapErr f

/-- The mapped errors of `MapErrWithSpan` (src/combinator.rs:241): the closure (and
hence `spanning_back_to`) is called for each error. -/
def mapErrsWithSpan {E X : Type} (f : X → S.Span → E) (from_ : SavedState) :
    List X → Prog S (List E)
  | [] => return []
  | e :: es => do
    let sp ← spanningBackTo from_
    let es' ← mapErrsWithSpan f from_ es
    return f e sp :: es'

/-- `MapErrWithSpan::parse_internal` (src/combinator.rs:220-243). -/
def pMapErrWithSpan {E X α : Type} (f : X → S.Span → E) (child : Parser S X α) : Parser S E α :=
  fun en =>
  withSave fun from_ => do
    match ← child en with
    | .success a => return .success a
    | .recovered a es =>
      let es' ← mapErrsWithSpan f from_ es
      return .recovered a es'
    | .failed i es =>
      let es' ← mapErrsWithSpan f from_ es
      return .failed i es'

/-- `TryMapResult` (src/combinator.rs:249-253). -/
inductive TryMapResult (α E : Type) : Type where
  | ok (o : α)
  | err (es : List E)
  | recovered (o : α) (es : List E)

/-- The closure passed to `Result::try_map` (src/combinator.rs:281-296). -/
def tryMapBody {E α β : Type} (f : α → S.Span → TryMapResult β E) (en : Bool)
    (initial : SavedState) (a : α) : Prog S (Res β E) := do
  let sp ← spanningBackTo initial
  match f a sp with
  | .ok o => return .success o
  | .err es =>
    if es.isEmpty then .panic "assertion failed: !es.is_empty()"
    else
      restore initial
      return .failed initial.index es
  | .recovered o es =>
    if es.isEmpty then .panic "assertion failed: !es.is_empty()"
    else if en then return .recovered o es
    else return .failed initial.index es

/-- `TryMap::parse_internal` (src/combinator.rs:273-297). -/
def pTryMap {E α β : Type} (f : α → S.Span → TryMapResult β E) (child : Parser S E α) :
    Parser S E β := fun en =>
  withSave fun initial => do
    let r ← child en
    r.tryMapM (tryMapBody f en initial)

/-- `Then::parse_internal` (src/combinator.rs:307-323). -/
def pThen {E α β : Type} (a : Parser S E α) (b : Parser S E β) : Parser S E (α × β) :=
  concat2 id a b

/-- `ThenIgnore::parse_internal` (src/combinator.rs:332-348). -/
def pThenIgnore {E α β : Type} (a : Parser S E α) (b : Parser S E β) : Parser S E α :=
  concat2 Prod.fst a b

/-- `IgnoreThen::parse_internal` (src/combinator.rs:357-373). -/
def pIgnoreThen {E α β : Type} (a : Parser S E α) (b : Parser S E β) : Parser S E β :=
  concat2 Prod.snd a b

/-- `DelimitedBy::parse_internal` (src/combinator.rs:383-407). -/
def pDelimitedBy {E α β γ : Type} (left : Parser S E α) (middle : Parser S E β)
    (right : Parser S E γ) : Parser S E β :=
  concat3 (fun x => x.2.1) left middle right

/-- `PaddedBy::parse_internal` (src/combinator.rs:416-439). -/
def pPaddedBy {E α β : Type} (padding : Parser S E α) (middle : Parser S E β) : Parser S E β :=
  concat3 (fun x => x.2.1) padding middle padding

/-- `Chain::parse_internal` (src/combinator.rs:463-469). -/
def pChain {E α : Type} (ps : List (Parser S E α)) : Parser S E (List α) := concatList ps

/-- `Or::parse_internal` (src/combinator.rs:504-510). -/
def pOr {α : Type} (ε : ErrTy S) (a b : Parser S ε.E α) : Parser S ε.E α := alternate ε [a, b]

/-- `OrNot::parse_internal` (src/combinator.rs:527-538). -/
def pOrNot {α : Type} (ε : ErrTy S) (child : Parser S ε.E α) : Parser S ε.E (Option α) :=
  alternate ε [pSome child, pNone]

/-- `Alters::parse_internal` (src/combinator.rs:563-569). -/
def pAlters {α : Type} (ε : ErrTy S) (ps : List (Parser S ε.E α)) : Parser S ε.E α :=
  alternate ε ps

/-- `SeparatedBy::parse_internal` (src/combinator.rs:608-623), with a separator. -/
def pSeparatedBy {E α β : Type} (fuel : Nat) (cfg : RepCfg) (item : Parser S E α)
    (sep : Parser S E β) : Parser S E (List α) :=
  repeatP fuel cfg item (some sep)

/-- `Repeated` (src/combinator.rs:669) before `with_separator`: no separator. -/
def pRepeated {E α : Type} (fuel : Nat) (cfg : RepCfg) (item : Parser S E α) :
    Parser S E (List α) :=
  repeatP fuel cfg item (none : Option (Parser S E α))

namespace RepCfg
/-- `at_least` (src/combinator.rs:628-631) -/
def atLeast (c : RepCfg) (n : Nat) : RepCfg := { c with minimum := n }
/-- `at_most` (src/combinator.rs:634-637) -/
def atMost (c : RepCfg) (n : Nat) : RepCfg := { c with maximum := some n }
/-- `exactly` (src/combinator.rs:640-644) -/
def exactly (c : RepCfg) (n : Nat) : RepCfg := { c with minimum := n, maximum := some n }
/-- `allow_leading` (src/combinator.rs:655-658) -/
def leading (c : RepCfg) : RepCfg := { c with allowLeading := true }
/-- `allow_trailing` (src/combinator.rs:662-665) -/
def trailing (c : RepCfg) : RepCfg := { c with allowTrailing := true }
end RepCfg

end PPC
