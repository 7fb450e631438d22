import Verif.Conditions
import Verif.ParserBase

/-!
# Truthful error reports: specification

When an error says "expected …, found *t* at *p*", there really is a *t* at *p*: the error was built
from the token and the span (or location) of one position of the input, where nothing that was expected
is found, or it is such an error into which the expectations of others were merged, or it is one the user made.
-/

namespace PPC

variable {S : Sig} {N : Names S}

/-- Nothing that was expected was found: the token found is none of the tokens expected, and if the end of the input was
expected, there is a token. -/
def Unmet (expected : List (Option S.I)) (found : Option S.I) : Prop :=
  (∀ x t, some x ∈ expected → found = some t → S.eqI t x = false) ∧ (none ∈ expected → found ≠ none)

/-- An error that is truthful about the input `e`. `U` is what counts as an error made by the user's own
functions. -/
inductive Honest (e : Env S) (U : (ε : ErrTy S) → ε.E → Prop) (ε : ErrTy S) : ε.E → Prop
  /-- "Found the token at position `k`", with the span of that token. -/
  | span {k : Nat} (expected : List (Option S.I)) (hk : Valid e k) (h : Unmet expected (e.source k)) :
      Honest e U ε (ε.expectedFound expected (e.source k) (.span (e.here k)))
  /-- "Found the token at position `k`", with the location of that position. -/
  | location {k : Nat} (expected : List (Option S.I)) (hk : Valid e k) (h : Unmet expected (e.source k)) :
      Honest e U ε (ε.expectedFound expected (e.source k) (.location (e.locationAt k)))
  /-- Merged from two truthful errors about the same place. -/
  | merge {x y : ε.E} (hx : Honest e U ε x) (hy : Honest e U ε y)
      (h : At.beq S (ε.location y) (ε.location x) = true) : Honest e U ε (ε.merge x y)
  /-- Made by the user. -/
  | user {x : ε.E} (h : U ε x) : Honest e U ε x

/-- An error whose "found" part is about position `k`. The expectations of errors about other positions
with the same location may be merged into it. -/
inductive HonestAt (e : Env S) (ε : ErrTy S) : Nat → ε.E → Prop
  | span (k : Nat) (expected : List (Option S.I)) (h : Unmet expected (e.source k)) :
      HonestAt e ε k (ε.expectedFound expected (e.source k) (.span (e.here k)))
  | location (k : Nat) (expected : List (Option S.I)) (h : Unmet expected (e.source k)) :
      HonestAt e ε k (ε.expectedFound expected (e.source k) (.location (e.locationAt k)))
  | merge {x y : ε.E} {k l : Nat} (hx : HonestAt e ε k x) (hy : HonestAt e ε l y)
      (h : At.beq S (ε.location y) (ε.location x) = true) : HonestAt e ε k (ε.merge x y)

/-- All errors that a result carries satisfy `T`. -/
def Res.AllErrors {α E : Type} (T : E → Prop) : Res α E → Prop
  | .success _ => True
  | .recovered _ es => ∀ x ∈ es, T x
  | .failed _ es => ∀ x ∈ es, T x

/-- A scanner that keeps the property `T` of all errors. -/
def Scanner.Keeps {E : Type} (T : E → Prop) (sc : Scanner S E) : Prop :=
  (∀ t sp st es b st' es', sc.scan t sp st es = .ok (b, st', es') → (∀ x ∈ es, T x) → ∀ x ∈ es', T x) ∧
  ∀ l st es, (∀ x ∈ es, T x) → ∀ x ∈ sc.eof l st es, T x

/-- The functions that turn errors into errors keep `T`; those that make errors make such errors. -/
def G.KeepsErr (T : (ε : ErrTy S) → ε.E → Prop) : {ε : ErrTy S} → {α : Type} → G S N ε α → Prop
  | ε, _, .mapErr (ε' := ε') f _ => ∀ x, T ε' x → T ε (f x)
  | ε, _, .mapErrWithSpan (ε' := ε') f _ => ∀ x sp, T ε' x → T ε (f x sp)
  | ε, _, .tryMap f _ => (∀ a sp es, f a sp = .err es → ∀ x ∈ es, T ε x) ∧
      ∀ a sp o es, f a sp = .recovered o es → ∀ x ∈ es, T ε x
  | _, _, _ => True

/-- The same, for the steps of strategies. -/
def IS.KeepsErr (T : (ε : ErrTy S) → ε.E → Prop) : {ε : ErrTy S} → {α : Type} → IS S N ε α → Prop
  | ε, _, .scan _ sc => sc.Keeps (T ε)
  | ε, _, .pushError _ f => T ε (f ())
  | ε, _, .pushErrorHere _ f => ∀ l, T ε (f l)
  | ε, _, .pushErrorUpToHere _ f => ∀ sp, T ε (f sp)
  | ε, _, .pushErrorForToken _ f => ∀ t sp, T ε (f t sp)
  | ε, _, .updateErrors _ f => ∀ es, (∀ x ∈ es, T ε x) → ∀ x ∈ f es, T ε x
  | ε, _, .updateErrorsHere _ f => ∀ es l, (∀ x ∈ es, T ε x) → ∀ x ∈ f es l, T ε x
  | ε, _, .updateErrorsUpToHere _ f => ∀ es sp, (∀ x ∈ es, T ε x) → ∀ x ∈ f es sp, T ε x
  | ε, _, .updateErrorsForToken _ f => ∀ es t sp, (∀ x ∈ es, T ε x) → ∀ x ∈ f es t sp, T ε x
  | _, _, _ => True

/-- All functions that make or change errors keep `T`. -/
def keepsErrL (N : Names S) (T : (ε : ErrTy S) → ε.E → Prop) : Local S N where
  g := G.KeepsErr T
  s := IS.KeepsErr T

/-- No user function makes or changes errors, with recovery disabled: no `map_err`, and functions given
to `try_map` return `Ok`. -/
def G.NoUserErr : {ε : ErrTy S} → {α : Type} → G S N ε α → Prop
  | _, _, .mapErr _ _ => False
  | _, _, .mapErrWithSpan _ _ => False
  | _, _, .tryMap f _ => ∀ a sp, ∃ o, f a sp = .ok o
  | _, _, _ => True

/-- No user function makes or changes errors, except in strategies (which do not run with recovery
disabled). -/
def noUserErrL (S : Sig) (N : Names S) : Local S N where
  g := G.NoUserErr
  s := fun _ => True

end PPC
