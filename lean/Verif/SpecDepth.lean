import Verif.PropsTerm

/-!
# How deeply recursive parsers are nested (specification of C56)

A recursive parser runs its definition, which may call recursive parsers again, and so on: each such call stays on the
call stack until it returns. `G.progDepth D d m g` is the parser `g` on a stack that has room for `d` nested calls.
-/

namespace PPC

variable {S : Sig} {N : Names S}

/-- `Recursive::parse_internal` (src/recursive.rs:56-66), with room for `d` nested calls: the parse does not get to an
end if more are needed. `m` bounds the number of iterations of each loop, as in `G.denote`. -/
def callDepth (D : Defs S N) (m : Nat) : Nat → REnv S N
  | 0, _, _ => .oof
  | d + 1, k, en =>
    match D k with
    | some g => g.denote (callDepth D m d) m en
    | none => .panic "recursive parser is not defined"

/-- `parse_internal` of a parser, with room for `d` nested calls of recursive parsers. -/
def G.progDepth (D : Defs S N) (d m : Nat) {ε : ErrTy S} {α : Type} (g : G S N ε α) : Parser S ε.E α :=
  g.denote (callDepth D m d) m

variable {ε : ErrTy S} {α : Type}

/-- The parse returns `r` and leaves the stream at `j`, and never more than `d` calls of recursive parsers are nested. -/
def FinishesIn (d : Nat) (e : Env S) (D : Defs S N) (g : G S N ε α) (en : Bool) (i : Nat) (r : Res α ε.E) (j : Nat) :
    Prop :=
  ∃ m, ∀ (al : Alloc) (s : Stream S), Reach al e s → s.index = i →
    ∃ s', (g.progDepth D d m en).run Stream.step s = .ok (r, s') ∧ s'.index = j

/-- The parse panics, and never more than `d` calls of recursive parsers are nested. -/
def CrashesIn (d : Nat) (e : Env S) (D : Defs S N) (g : G S N ε α) (en : Bool) (i : Nat) (msg : String) : Prop :=
  ∃ m, ∀ (al : Alloc) (s : Stream S), Reach al e s → s.index = i →
    (g.progDepth D d m en).run Stream.step s = .panic msg

/-- More than `d` calls are nested: the parse does not finish with room for `d`, whatever the bound on loops. -/
def NeedsMore (d : Nat) (e : Env S) (D : Defs S N) (g : G S N ε α) (en : Bool) (i : Nat) : Prop :=
  (∀ r j, ¬ FinishesIn d e D g en i r j) ∧ ∀ msg, ¬ CrashesIn d e D g en i msg

/-- A rank below `R` for every recursive parser (with recovery enabled or not) that goes down whenever one may call
another before it has consumed a token. -/
structure Ranked (D : Defs S N) (ν : Bool → N.K → Bool) (rank : Bool → N.K → Nat) (R : Nat) : Prop where
  below : ∀ b k, rank b k < R
  down : ∀ b k b' k' g, D k = some g → g.MayCall ν b' k' b → rank b' k' < rank b k

end PPC
