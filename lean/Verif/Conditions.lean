import Verif.GAll

/-!
# Conditions on grammars

The hypotheses of the parser properties: conditions on the parts of a grammar (`Local`,
`G.All`, `Defs.All` in GAll.lean) that a user can check by reading it.
-/

namespace PPC

variable {S : Sig} {N : Names S}

/-- A function given to `try_map` does not return `Recovered`. -/
def G.TryMapNotRecovered : {ε : ErrTy S} → {α : Type} → G S N ε α → Prop
  | _, _, .tryMap f _ => ∀ a sp o es, f a sp ≠ .recovered o es
  | _, _, _ => True

/-- No function given to `try_map` returns `Recovered`. -/
def cleanL (S : Sig) (N : Names S) : Local S N where
  g := G.TryMapNotRecovered
  s := fun _ => True

/-- A scanner that keeps a nonempty error list nonempty. -/
def Scanner.KeepsErrors {E : Type} (sc : Scanner S E) : Prop :=
  (∀ t sp st es b st' es', sc.scan t sp st es = .ok (b, st', es') → es ≠ [] → es' ≠ []) ∧
  ∀ l st es, es ≠ [] → sc.eof l st es ≠ []

/-- A strategy step that keeps a nonempty error list nonempty. -/
def IS.KeepsErrors : {ε : ErrTy S} → {α : Type} → IS S N ε α → Prop
  | _, _, .scan _ sc => sc.KeepsErrors
  | _, _, .updateErrors _ f => ∀ es, es ≠ [] → f es ≠ []
  | _, _, .updateErrorsHere _ f => ∀ es l, es ≠ [] → f es l ≠ []
  | _, _, .updateErrorsUpToHere _ f => ∀ es sp, es ≠ [] → f es sp ≠ []
  | _, _, .updateErrorsForToken _ f => ∀ es t sp, es ≠ [] → f es t sp ≠ []
  | _, _, _ => True

/-- All user functions and scanners keep nonempty error lists nonempty. -/
def keepErrL (S : Sig) (N : Names S) : Local S N where
  g := fun _ => True
  s := IS.KeepsErrors

/-- A parser that is not `to_recover`, calls only recursive parsers in `F`, and is not a
`try_map` with a function that returns `Recovered`. -/
def G.NoRecovery (F : N.K → Prop) : {ε : ErrTy S} → {α : Type} → G S N ε α → Prop
  | _, _, .tryMap f _ => ∀ a sp o es, f a sp ≠ .recovered o es
  | _, _, .toRecover _ _ => False
  | _, _, .call k => F k
  | _, _, _ => True

/-- No recovery anywhere; only recursive parsers in `F` are called. -/
def noRecL (F : N.K → Prop) : Local S N where
  g := G.NoRecovery F
  s := fun _ => True

/-- The recursive parsers in `F` are defined without recovery, in terms of each other. -/
def RecFreeNames (F : N.K → Prop) (D : Defs S N) : Prop :=
  ∀ k g, F k → D k = some g → g.All (noRecL F)

/-- The repetition stops as soon as the minimum is reached. -/
def RepCfg.Exact (c : RepCfg) : Prop :=
  ∃ m, c.maximum = some m ∧ m ≤ c.minimum ∧ c.allowTrailing = false

/-- Recovering parsers are not used where the library loses their errors: under `try_map`,
and as items or separators of a repetition that has a minimum and may go on after it. -/
def G.Coherent (F : N.K → Prop) : {ε : ErrTy S} → {α : Type} → G S N ε α → Prop
  | _, _, .tryMap _ g => g.All (noRecL F)
  | _, _, .repeated c g => c.minimum = 0 ∨ c.Exact ∨ g.All (noRecL F)
  | _, _, .separatedBy c g s => c.minimum = 0 ∨ c.Exact ∨ (g.All (noRecL F) ∧ s.All (noRecL F))
  | _, _, _ => True

/-- Recovering parsers are only used where their errors are kept. -/
def coherentL (F : N.K → Prop) : Local S N where
  g := G.Coherent F
  s := fun _ => True

/-- The messages of the two panics (src/algorithm.rs: the assertion `enable_recovery` of
sequences and repetitions, the first `unreachable!` of `alternate`). -/
def RecoveredWhileDisabled (m : String) : Prop :=
  m = "assertion failed: enable_recovery" ∨
  m = "internal error: entered unreachable code: parser recovered from an error with recovery disabled"

/-- Scanners given to strategies do not themselves panic with message `m`. -/
def IS.Quiet (m : String) : {ε : ErrTy S} → {α : Type} → IS S N ε α → Prop
  | _, _, .scan _ sc => ∀ t sp st es, sc.scan t sp st es ≠ .error m
  | _, _, _ => True

/-- No scanner panics with message `m`. -/
def quietL (m : String) : Local S N where
  g := fun _ => True
  s := IS.Quiet m

/-- A scanner that does not panic in any state it can get into. -/
def Scanner.NeverPanics {E : Type} (sc : Scanner S E) : Prop :=
  ∃ Inv : sc.σ → Prop, Inv sc.fresh ∧ ∀ t sp st es, Inv st →
    ∃ b st' es', sc.scan t sp st es = .ok (b, st', es') ∧ Inv st'

/-- The number of parsers in a list. -/
def GL.length : {ε : ErrTy S} → {α : Type} → GL S N ε α → Nat
  | _, _, .nil => 0
  | _, _, .cons _ gs => gs.length + 1

/-- The conditions on a single parser under which it does not panic:

* functions given to `try_map` return a value or at least one error, and are not applied
  to recovering parsers;
* repetitions with a minimum that may go on after it do not contain recovering parsers;
* a choice between a list of parsers has at least two.

`F` is a set of recursive parsers that do not use recovery. -/
def G.Safe (F : N.K → Prop) : {ε : ErrTy S} → {α : Type} → G S N ε α → Prop
  | _, _, .tryMap f g => g.All (noRecL F) ∧ (∀ a sp, f a sp ≠ .err []) ∧
      ∀ a sp o es, f a sp ≠ .recovered o es
  | _, _, .repeated c g => c.minimum = 0 ∨ c.Exact ∨ g.All (noRecL F)
  | _, _, .separatedBy c g s => c.minimum = 0 ∨ c.Exact ∨ (g.All (noRecL F) ∧ s.All (noRecL F))
  | _, _, .alters gs => 2 ≤ gs.length
  | _, _, _ => True

/-- Scanners given to strategies do not panic. -/
def IS.Safe : {ε : ErrTy S} → {α : Type} → IS S N ε α → Prop
  | _, _, .scan _ sc => sc.NeverPanics
  | _, _, _ => True

/-- Safe parsers and strategies. -/
def safeL (F : N.K → Prop) : Local S N where
  g := G.Safe F
  s := IS.Safe

/-- The conditions on a single parser under which it does not panic with recovery disabled: functions
given to `try_map` return at least one error when they do not return `Ok`, and a choice between a list
of parsers has at least two. -/
def G.CalmOff : {ε : ErrTy S} → {α : Type} → G S N ε α → Prop
  | _, _, .tryMap f _ => ∀ a sp, f a sp ≠ .err [] ∧ ∀ o, f a sp ≠ .recovered o []
  | _, _, .alters gs => 2 ≤ gs.length
  | _, _, _ => True

/-- Parsers that do not panic with recovery disabled; strategies do not matter. -/
def calmOffL (S : Sig) (N : Names S) : Local S N where
  g := G.CalmOff
  s := fun _ => True

end PPC
