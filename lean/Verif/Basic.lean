/-!
# Outcomes and signatures

Shared vocabulary of the model: outcomes of running Rust code, and the bundle of
types a stream is parameterised by.
-/

namespace PPC

/-- Outcome of running (a model of) Rust code.

* `ok a`: returned normally;
* `panic m`: an `assert!`, `unreachable!`, `unwrap()` on `None`, out-of-bounds
  index or integer underflow was hit (unwinding afterwards is not modelled);
* `oof`: did not finish within the evaluation bound ("out of fuel");
* `stuck`: only produced by the *specification* semantics: the client left the
  territory for which the specification says anything (for instance by using a
  saved state it no longer owns). Never produced by the concrete semantics. -/
inductive Out (α : Type) : Type where
  | ok (a : α)
  | panic (m : String)
  | oof
  | stuck
deriving DecidableEq

namespace Out

/-- Sequencing: everything but `ok` ends the run. -/
def bind {α β : Type} : Out α → (α → Out β) → Out β
  | ok a, f => f a
  | panic m, _ => panic m
  | oof, _ => oof
  | stuck, _ => stuck

instance : Monad Out where
  pure := ok
  bind := bind

@[simp] theorem pure_eq {α : Type} (a : α) : (pure a : Out α) = ok a := rfl
@[simp] theorem ok_bind {α β : Type} (a : α) (f : α → Out β) : (ok a >>= f) = f a := rfl
@[simp] theorem panic_bind {α β : Type} (m : String) (f : α → Out β) :
    (panic m >>= f) = panic m := rfl
@[simp] theorem oof_bind {α β : Type} (f : α → Out β) : (oof >>= f) = oof := rfl
@[simp] theorem stuck_bind {α β : Type} (f : α → Out β) : (stuck >>= f) = stuck := rfl

theorem bind_assoc' {α β γ : Type} (x : Out α) (f : α → Out β) (g : β → Out γ) :
    ((x >>= f) >>= g) = (x >>= fun a => f a >>= g) := by
  cases x <;> rfl

/-- Did the run panic? -/
def isPanic {α : Type} : Out α → Bool
  | panic _ => true
  | _ => false

/-- Did the run return normally? -/
def isOk {α : Type} : Out α → Bool
  | ok _ => true
  | _ => false

/-- Apply a function to the value of a normal outcome. -/
def map {α β : Type} (f : α → β) : Out α → Out β
  | ok a => ok (f a)
  | panic m => panic m
  | oof => oof
  | stuck => stuck

end Out

/-- The types a stream is parameterised by: token type `I`, location tracker
state `L` with its `Location`/`Span` types, and the trait methods used.

* `location::Tracker` : src/location.rs:8-24;
* `I: PartialEq`, `Location: PartialEq`, `Span: PartialEq`: arbitrary Boolean
  relations, no laws assumed (the bundled pangram grammar compares tokens by
  type only, src/test_pangram.rs:306-310).

Simplification: trackers are mutated in Rust (`&mut self`); here `advance`
returns the new state. -/
structure Sig where
  /-- token type -/
  I : Type
  /-- location tracker state -/
  L : Type
  /-- `Tracker::Location` -/
  Loc : Type
  /-- `Tracker::Span` -/
  Span : Type
  /-- `Tracker::advance` (src/location.rs:13) -/
  advance : L → I → L
  /-- `Tracker::location` (src/location.rs:16) -/
  location : L → Nat → Loc
  /-- `Tracker::spanning_to` (src/location.rs:20-23) -/
  spanningTo : L → Nat → L → Nat → Span
  /-- `I: PartialEq` -/
  eqI : I → I → Bool
  /-- `Location: PartialEq` -/
  eqLoc : Loc → Loc → Bool
  /-- `Span: PartialEq` -/
  eqSpan : Span → Span → Bool

end PPC
