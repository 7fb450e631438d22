import Verif.Reach
import Verif.Location

/-!
# Concrete streams used in the non-vacuity examples and counterexamples
-/

namespace PPC

/-- Numbers as tokens, compared by equality, with `location::Simple`. -/
@[reducible] def exSig : Sig := simpleSig Nat (fun a b => a == b)

/-- A stream environment over a list of tokens. -/
@[reducible] def exEnv (xs : List Nat) : Env exSig := ⟨fun i => xs[i]?, ()⟩

/-- Characters as tokens, with `location::Rich` rendering each as itself. -/
@[reducible] def exTextSig : Sig :=
  richSig Char (fun a b => a == b) (fun c => String.singleton c)

/-- A stream environment over a text. -/
@[reducible] def exText (xs : List Char) : Env exTextSig := ⟨fun i => xs[i]?, Rich.new "f"⟩

/-- An allocator that starts with capacity 1 and doubles. -/
def exAlloc : Alloc := ⟨1, 1, fun k => 2 * k, fun k => 2 * k⟩

/-- An allocator whose buffers have a large capacity. -/
def exAllocBig : Alloc := ⟨1000, 1000, fun k => 2 * k, fun k => 2 * k⟩

/-- The growth policy of the current Rust standard library for small elements: empty at
first, then at least 4, then doubling (`alloc::raw_vec`; not part of the crate). -/
def rustAlloc : Alloc := ⟨0, 0, fun k => max (2 * k) 4, fun k => max (2 * k) 4⟩

/-- The stream a program leaves behind, if it returns. -/
def streamAfter {S : Sig} {α : Type} (p : Prog S α) (al : Alloc) (e : Env S) : Option (Stream S) :=
  match p.run Stream.step (Stream.newWithLocation al e.source e.start) with
  | .ok (_, s) => some s
  | _ => none

/-- A program whose ideal run returns leads to a reachable stream. -/
theorem Reach.of_run {S : Sig} {α : Type} (al : Alloc) {e : Env S} (p : Prog S α) {x : α} {c : Cursor}
    (h : p.run (Cursor.step e) Cursor.init = .ok (x, c)) :
    ∃ s, streamAfter p al e = some s ∧ Reach al e s ∧ s.index = c.pos ∧ s.pulled = c.hi ∧
      s.live = c.live := by
  obtain ⟨st, s, h1, h2, h3⟩ := Reach.run p (al := al) Reach.new (Sim.init e al) h
  exact ⟨s, by simp [streamAfter, h1], h3, h2.pos, h2.pulled, h2.live⟩

end PPC
