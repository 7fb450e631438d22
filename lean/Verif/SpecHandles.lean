import Verif.Handles

/-!
# Which recursive and boxed parsers are needed (specification of C54)
-/

namespace PPC.Own

/-- A recursive or boxed parser that the user can still get at: one that is part of a parser that the user owns, or part of
the contents of another one that the user can get at. -/
inductive Reachable (s : State) : Nat → Prop
  | owned {v : List Nat} {i : Nat} : v ∈ s.owned → i ∈ v → Reachable s i
  | inside {k i : Nat} {c : Cell} : Reachable s k → s.heap[k]? = some c → i ∈ c.refs → Reachable s i

/-- Its memory has not been freed. -/
def Alive (s : State) (i : Nat) : Prop := ∃ c, s.heap[i]? = some c ∧ 0 < c.strong

/-- From the handles in `v` one gets to `i`. -/
inductive LeadsTo (h : List Cell) : List Nat → Nat → Prop
  | here {v : List Nat} {i : Nat} : i ∈ v → LeadsTo h v i
  | inside {v : List Nat} {k i : Nat} {c : Cell} : k ∈ v → h[k]? = some c → LeadsTo h c.refs i → LeadsTo h v i

/-- The step does not define a recursive parser in terms of itself. -/
def NotRecursive (s : State) : Op → Prop
  | .define k l => ∀ i v, s.owned[k]? = some [i] → s.owned[l]? = some v → ¬LeadsTo s.heap v i
  | _ => True

/-- No step of a history does. -/
def NeverRecursive : State → List Op → Prop
  | _, [] => True
  | s, o :: os => NotRecursive s o ∧ ∀ p s', step s o = some (p, s') → NeverRecursive s' os

/-- No step of a history panics. -/
def NeverPanics : State → List Op → Prop
  | _, [] => True
  | s, o :: os => ∀ p s', step s o = some (p, s') → p = none ∧ NeverPanics s' os

/-- How many handles of an allocation there are, in parsers that the user owns and inside of other allocations. -/
def handles (s : State) (i : Nat) : Nat :=
  (s.owned.map (List.count i)).sum + (s.heap.map fun c => c.refs.count i).sum

end PPC.Own
