import Verif.Basic

/-!
# Ownership of recursive and boxed parsers

`Recursive`, `Boxed` and boxed strategies are reference-counted (`Rc`). This file models which of these allocations are
alive, for every history of what a user can do with parsers: declare, define, clone, box, combine and drop them.

A parser (or strategy) is represented by the list of the handles that it owns, in any number and order: combinators own
the parsers that they were made of, and functions given to combinators own what they have captured. What the parsers do
is the subject of the other files.
-/

namespace PPC.Own

/-- An allocation: the `RcBox` of `Rc<RefCell<Option<Boxed>>>` (src/recursive.rs:11), of `Rc<dyn Parser>`
(src/combinator.rs:14) or of `Rc<dyn IncompleteStrategy>` (src/recovery.rs:1529). `strong` is the reference count, `refs`
are the handles that the contents own; an allocation is freed when `strong` gets to 0. There are no weak references to
these. Simplification: allocations are numbered in the order in which they are made, and the numbers are not used again. -/
structure Cell where
  isRec : Bool
  strong : Nat
  refs : List Nat
deriving DecidableEq, Repr

/-- All allocations, and the parsers that the user owns. -/
structure State where
  heap : List Cell
  owned : List (List Nat)
deriving DecidableEq, Repr

/-- How many handles there are. -/
def total (h : List Cell) : Nat := (h.map Cell.strong).sum

theorem total_set {h : List Cell} {i : Nat} {c c' : Cell} (hi : h[i]? = some c) :
    total (h.set i c') + c.strong = total h + c'.strong := by
  induction h generalizing i with
  | nil => simp at hi
  | cons d h ih =>
    cases i with
    | zero => simp at hi; subst hi; simp [total]; omega
    | succ i =>
      simp at hi
      have := ih hi
      simp [total] at this ⊢
      omega

/-- Dropping handles one after the other (`Drop` of `Rc`, standard library): the reference count is decremented, and the
last one frees the allocation and drops what it owns. -/
def release (h : List Cell) : List Nat → List Cell
  | [] => h
  | i :: w =>
    match _hc : h[i]? with
    | none => release h w
    | some c =>
      match _hs : c.strong with
      | 0 => release h w
      | 1 => release (h.set i { c with strong := 0, refs := [] }) (c.refs ++ w)
      | n + 2 => release (h.set i { c with strong := n + 1 }) w
termination_by w => (total h, w.length)
decreasing_by
  · exact Prod.Lex.right _ (by simp)
  · exact Prod.Lex.right _ (by simp)
  · refine Prod.Lex.left _ _ ?_
    have := total_set (c' := { c with strong := 0, refs := [] }) _hc
    simp at this; omega
  · refine Prod.Lex.left _ _ ?_
    have := total_set (c' := { c with strong := n + 1 }) _hc
    simp at this; omega

/-- Cloning handles (`Clone` of `Rc`): the reference counts are incremented. -/
def retain (h : List Cell) : List Nat → List Cell
  | [] => h
  | i :: w =>
    match h[i]? with
    | none => retain h w
    | some c => retain (h.set i { c with strong := c.strong + 1 }) w

/-- What a user can do. Parsers that are owned are given by their place in `owned`. -/
inductive Op
  /-- `Recursive::declare()` -/
  | declare
  /-- `parser.clone()` -/
  | clone (k : Nat)
  /-- Any combinator, or a closure that captures parsers: the parts are moved into a new parser. Without parts: `just`,
  `end` and so on. -/
  | combine (ks : List Nat)
  /-- `parser.boxed()` -/
  | boxed (k : Nat)
  /-- `recursive.define(parser)`: the `k`-th is the recursive parser, which stays owned, the `l`-th is moved into it. -/
  | define (k l : Nat)
  /-- The end of the scope of a parser. -/
  | drop (k : Nat)
deriving DecidableEq, Repr

/-- Moving values out of `owned`: these are emptied, and dropped later without effect (a moved-out variable). -/
def moveOut : List (List Nat) → List Nat → List Nat × List (List Nat)
  | owned, [] => ([], owned)
  | owned, k :: ks =>
    let (v, owned) := moveOut owned ks
    ((owned[k]?).getD [] ++ v, owned.set k [])

/-- One step. `none` if Rust does not allow it (the parser to be defined must be a recursive parser). The message is that of
the panic, if there is one; the state is the one after unwinding. -/
def step (s : State) : Op → Option (Option String × State)
  /- src/recursive.rs:29-33 -/
  | .declare => some (none, ⟨s.heap ++ [⟨true, 1, []⟩], s.owned ++ [[s.heap.length]]⟩)
  /- src/recursive.rs:14-20, src/combinator.rs:17-23 and the derived implementations -/
  | .clone k => match s.owned[k]? with
    | some v => some (none, ⟨retain s.heap v, s.owned ++ [v]⟩)
    | none => none
  /- src/combinator.rs, src/recovery.rs: the constructors -/
  | .combine ks =>
    let (v, owned) := moveOut s.owned ks
    some (none, ⟨s.heap, owned ++ [v]⟩)
  /- src/parser.rs:253-261, src/recovery.rs:345-352 -/
  | .boxed k => match s.owned[k]? with
    | some v => some (none, ⟨s.heap ++ [⟨false, 1, v⟩], s.owned.set k [] ++ [[s.heap.length]]⟩)
    | none => none
  /- src/recursive.rs:37-45: the parser is boxed, put in place, and the one that it replaces is dropped -/
  | .define k l => match s.owned[k]?, s.owned[l]? with
    | some [i], some v => match s.heap[i]? with
      | some c =>
        if c.isRec && k ≠ l then
          let heap := s.heap.set i { c with refs := [s.heap.length] } ++ [⟨false, 1, v⟩]
          some (if c.refs = [] then none else some "multiple definitions for recursive parser",
            ⟨release heap c.refs, s.owned.set l []⟩)
        else none
      | none => none
    | _, _ => none
  | .drop k => match s.owned[k]? with
    | some v => some (none, ⟨release s.heap v, s.owned.set k []⟩)
    | none => none

/-- A history. -/
def run : State → List Op → Option State
  | s, [] => some s
  | s, o :: os => match step s o with
    | some (_, s') => run s' os
    | none => none

/-- No parsers. -/
def init : State := ⟨[], []⟩

end PPC.Own
