import Verif.Basic

/-!
# Errors (src/error.rs)
-/

namespace PPC

/-- `error::At` (src/error.rs:10-14). -/
inductive At (Loc Span : Type) : Type where
  | none
  | location (l : Loc)
  | span (s : Span)
deriving DecidableEq, Repr

/-- Derived `PartialEq` of `At` (src/error.rs:9), over the signature's relations. -/
def At.beq (S : Sig) : At S.Loc S.Span → At S.Loc S.Span → Bool
  | .none, .none => true
  | .location a, .location b => S.eqLoc a b
  | .span a, .span b => S.eqSpan a b
  | _, _ => false

/-- `At::is_known` (src/error.rs:47-49). -/
def At.isKnown {Loc Span : Type} : At Loc Span → Bool
  | .none => false
  | _ => true

/-- The `error::Error` and `error::Fallback` traits (src/error.rs:53-136) as a
dictionary. `merge` models `merge_expected_found(&mut self, other)` by returning
the new value of `self`. `custom`/`simple` take the rendered message. -/
structure ErrTy (S : Sig) where
  /-- the implementing type -/
  E : Type
  expectedFound : List (Option S.I) → Option S.I → At S.Loc S.Span → E
  merge : E → E → E
  isExpectedFound : E → Bool
  location : E → At S.Loc S.Span
  unmatchedLeft : S.I → S.Span → At S.Loc S.Span → E
  unmatchedRight : S.I → S.Span → At S.Loc S.Span → E
  unmatchedType : S.I → S.Span → S.I → S.Span → E
  custom : String → At S.Loc S.Span → E
  simple : String → E

/-- `error::Void` (src/error.rs:140-214): carries no information. (In Rust its
tracker is fixed to `location::Simple`; the model leaves the tracker open.) -/
@[reducible] def voidErr (S : Sig) : ErrTy S where
  E := Unit
  expectedFound _ _ _ := ()
  merge _ _ := ()
  isExpectedFound _ := false
  location _ := .none
  unmatchedLeft _ _ _ := ()
  unmatchedRight _ _ _ := ()
  unmatchedType _ _ _ _ := ()
  custom _ _ := ()
  simple _ := ()

/-- `error::Simple` (src/error.rs:218-237). The `HashSet<Option<I>>` of expected
tokens is a list without duplicates (in the sense of `Eq`); only membership is
meaningful. -/
inductive SimpleError (I Loc Span : Type) : Type where
  | expectedFound (expected : List (Option I)) (found : Option I) (at_ : At Loc Span)
  | unmatchedLeft (left : I) (leftSpan : Span) (closeBefore : At Loc Span)
  | unmatchedRight (right : I) (rightSpan : Span) (openBefore : At Loc Span)
  | unmatchedType (left : I) (leftSpan : Span) (right : I) (rightSpan : Span)
  | custom (msg : String) (at_ : At Loc Span)
deriving DecidableEq, Repr

/-- Equality of `Option<I>` used by the hash set. -/
def eqOpt {I : Type} (eq : I → I → Bool) : Option I → Option I → Bool
  | none, none => true
  | some a, some b => eq a b
  | _, _ => false

/-- `HashSet::insert`: keeps the old element if an equal one is present. -/
def setInsert {I : Type} (eq : I → I → Bool) (s : List (Option I)) (x : Option I) :
    List (Option I) :=
  if s.any (eqOpt eq x) then s else s ++ [x]

/-- `HashSet::extend` / `collect`. -/
def setExtend {I : Type} (eq : I → I → Bool) (s : List (Option I)) (xs : List (Option I)) :
    List (Option I) :=
  xs.foldl (setInsert eq) s

/-- `impl Error for Simple` (src/error.rs:239-311). -/
@[reducible] def simpleErr (S : Sig) : ErrTy S where
  E := SimpleError S.I S.Loc S.Span
  expectedFound expected found at_ := .expectedFound (setExtend S.eqI [] expected) found at_
  merge
    | .expectedFound dest f a, .expectedFound src _ _ => .expectedFound (setExtend S.eqI dest src) f a
    | e, _ => e
  isExpectedFound
    | .expectedFound _ _ _ => true
    | _ => false
  location
    | .expectedFound _ _ l => l
    | .unmatchedLeft _ _ l => l
    | .unmatchedRight _ _ l => l
    | .unmatchedType _ _ _ s => .span s
    | .custom _ l => l
  unmatchedLeft := .unmatchedLeft
  unmatchedRight := .unmatchedRight
  unmatchedType := .unmatchedType
  custom := .custom
  simple m := .custom m .none

end PPC
