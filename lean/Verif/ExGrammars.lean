import Verif.Conditions
import Verif.Examples
import Verif.ParserBase

/-!
# Concrete grammars used in the non-vacuity examples and counterexamples
-/

namespace PPC

/-- No recursive parsers. -/
@[reducible] def exNames : Names exSig := ⟨Empty, fun k => k.elim, fun k => k.elim⟩

/-- No definitions. -/
def exNoDefs : Defs exSig exNames := fun k => k.elim

/-- Parsers over numbers without recursive parsers. -/
abbrev ExG (α : Type) : Type 1 := G exSig exNames (simpleErr exSig) α

/-- Strategies for such parsers. -/
abbrev ExIS (α : Type) : Type 1 := IS exSig exNames (simpleErr exSig) α

/-- One recursive parser, returning a number. -/
@[reducible] def exRecNames : Names exSig := ⟨Unit, fun _ => Nat, fun _ => simpleErr exSig⟩

/-- Nesting depth of brackets `1 … 2` around a `0`, where a bracket that is not closed
properly is skipped with `nested_delimiters`:
`just(1).ignore_then(rec).then_ignore(just(2)).map(|d| d + 1)
  .to_recover(attempt_to().restart().scan(nested_delimiters([(1, 2)])).skip().and_return(100))
  .or(just(0))`. -/
def exNested : Defs exSig exRecNames := fun _ => some
  (.or
    (.toRecover
      (.map (fun d => d + 1) (.thenIgnore (.ignoreThen (.just 1) (.call ())) (.just 2)))
      (.ret (.skip (.scan (.restart .attemptTo) (nestedDelimiters (simpleErr exSig) [(1, 2)]))) 100))
    (.just 0))

/-- The recursive parser itself. -/
abbrev exNestedG : G exSig exRecNames (simpleErr exSig) Nat := .call ()

/-- `any().try_map(|x, _| Recovered(x, [simple("odd")]))`. -/
def exTryRecovered : ExG Nat :=
  .tryMap (fun x _ => .recovered x [(simpleErr exSig).simple "odd"]) (.filter fun _ => true)

/-- `just(1).to_recover(just_return(1))`. -/
def exRecovering : ExG Nat := .toRecover (.just 1) (.ret .attemptTo 1)

/-- `just(1).to_recover(just_return(1)).repeated().at_least(1).at_most(2)`. -/
def exRepeatRecovering : ExG (List Nat) := .repeated ⟨1, some 2, false, false⟩ exRecovering

/-- `just(1).to_recover(just_return(1)).try_map(|x, _| Ok(x))`. -/
def exTryMapRecovering : ExG Nat := .tryMap (fun x _ => .ok x) exRecovering

/-- The stream over `xs` when it is created. -/
abbrev exStart (xs : List Nat) : Stream exSig :=
  Stream.newWithLocation rustAlloc (exEnv xs).source (exEnv xs).start

/-- The result and final index of a parse from the start, if there is one. -/
def exRun {N : Names exSig} {ε : ErrTy exSig} {α : Type} (D : Defs exSig N) (g : G exSig N ε α)
    (en : Bool) (xs : List Nat) : Option (Res α ε.E × Nat) :=
  match (g.prog D 20 en).run Stream.step (exStart xs) with
  | .ok (r, s) => some (r, s.index)
  | _ => none

/-- The panic message of a parse from the start, if it panics. -/
def exPanic {N : Names exSig} {ε : ErrTy exSig} {α : Type} (D : Defs exSig N) (g : G exSig N ε α)
    (en : Bool) (xs : List Nat) : Option String :=
  match (g.prog D 20 en).run Stream.step (exStart xs) with
  | .panic m => some m
  | _ => none

theorem exRun_some {N : Names exSig} {ε : ErrTy exSig} {α : Type} {D : Defs exSig N} {g : G exSig N ε α}
    {en : Bool} {xs : List Nat} {r : Res α ε.E} {j : Nat} (h : exRun D g en xs = some (r, j)) :
    ∃ s', (g.prog D 20 en).run Stream.step (exStart xs) = .ok (r, s') ∧ s'.index = j := by
  unfold exRun at h
  split at h
  · rename_i r' s' h1
    cases h
    exact ⟨s', h1, rfl⟩
  · cases h

theorem exPanic_some {N : Names exSig} {ε : ErrTy exSig} {α : Type} {D : Defs exSig N}
    {g : G exSig N ε α} {en : Bool} {xs : List Nat} {m : String} (h : exPanic D g en xs = some m) :
    (g.prog D 20 en).run Stream.step (exStart xs) = .panic m := by
  unfold exPanic at h
  split at h
  · rename_i h1; cases h; exact h1
  · cases h

end PPC
