import Verif.PropsParser

/-!
# Running a parser at a position: C41

Specification vocabulary of the combinator properties. `ParsesAt e D n g en i r j`: whenever
a stream over the input `e` stands at token index `i`, whatever its history, running the
parser `g` returns `r` and leaves the stream at token index `j`.
-/

namespace PPC

variable {S : Sig} {N : Names S} {al al' : Alloc} {e : Env S} {s s' t : Stream S} {D : Defs S N} {n : Nat}
  {ε : ErrTy S} {α : Type} {g : G S N ε α} {en : Bool} {r : Res α ε.E} {i j : Nat}

/-- On every reachable stream at position `i`, `g` returns `r` and ends at position `j`. -/
def ParsesAt (e : Env S) (D : Defs S N) (n : Nat) (g : G S N ε α) (en : Bool) (i : Nat)
    (r : Res α ε.E) (j : Nat) : Prop :=
  ∀ (al : Alloc) (s : Stream S), Reach al e s → s.index = i →
    ∃ s', Parses D n g en s r s' ∧ s'.index = j

/-- On every reachable stream at position `i`, `g` panics with message `m`. -/
def PanicsAt (e : Env S) (D : Defs S N) (n : Nat) (g : G S N ε α) (en : Bool) (i : Nat)
    (m : String) : Prop :=
  ∀ (al : Alloc) (s : Stream S), Reach al e s → s.index = i → Panics D n g en s m

/-- `g` returns an output `o` at `i`, ending at `j`: a success (`rec = false`, no errors), or
a recovery (`rec = true`) reporting the errors `es`. -/
def Gives (e : Env S) (D : Defs S N) (n : Nat) (g : G S N ε α) (en : Bool) (i : Nat) (o : α)
    (es : List ε.E) (rec : Bool) (j : Nat) : Prop :=
  (rec = false ∧ es = [] ∧ ParsesAt e D n g en i (.success o) j) ∨
  (rec = true ∧ ParsesAt e D n g en i (.recovered o es) j)

/-! ## Auxiliary lemmas -/

/-- Every existing position is the position of some reachable stream. -/
theorem Valid.exists_stream (al : Alloc) (h : Valid e i) : ∃ s, Reach al e s ∧ s.index = i := by
  induction i with
  | zero => exact ⟨_, .new, rfl⟩
  | succ i ih =>
    obtain ⟨s, h1, h2⟩ := ih (h.mono (Nat.le_succ i))
    obtain ⟨st, c, hs⟩ := h1.sim
    have hp : c.pos = i := by rw [← hs.pos, h2]
    have hc : Cursor.step e .advance c = .ok (true, { c.look with pos := c.pos + 1 }) := by
      simp only [Cursor.step]
      rw [hp, if_pos (h i (Nat.lt_succ_self i))]
    obtain ⟨st', s', h3, h4⟩ := hs.step_ok hc
    exact ⟨s', .step .advance h1 trivial h3, by rw [h4.pos]; simp [hp]⟩

/-- Running at a position is the positional semantics. -/
theorem parsesAt_iff (hi : Valid e i) :
    ParsesAt e D n g en i r j ↔ g.sem e D n en i = .ok (r, j) := by
  constructor
  · intro h
    obtain ⟨s, h1, h2⟩ := hi.exists_stream rustAlloc
    obtain ⟨s', h3, h4⟩ := h _ s h1 h2
    have := (G.run_sem D n g en h1 h3).1
    rw [h2, h4] at this
    exact this
  · intro h al s h1 h2
    subst h2
    exact G.sem_run D n g en h1 h

theorem panicsAt_iff (hi : Valid e i) {m : String} :
    PanicsAt e D n g en i m ↔ g.sem e D n en i = .panic m := by
  constructor
  · intro h
    obtain ⟨s, h1, h2⟩ := hi.exists_stream rustAlloc
    have := (G.run_panic D n g en h1 m).1 (h _ s h1 h2)
    rw [h2] at this
    exact this
  · intro h al s h1 h2
    subst h2
    exact (G.run_panic D n g en h1 m).2 h

/-- Wherever a parser ends, is a position. -/
theorem ParsesAt.valid (hi : Valid e i) (h : ParsesAt e D n g en i r j) : Valid e j :=
  (G.sem_valid D n g en hi ((parsesAt_iff hi).1 h)).2.1

theorem Gives.valid (hi : Valid e i) {o : α} {es : List ε.E} {rec : Bool}
    (h : Gives e D n g en i o es rec j) : Valid e j := by
  rcases h with ⟨-, -, h⟩ | ⟨-, h⟩ <;> exact h.valid hi

/-! ## C41: only the position matters -/

/-- C41: what a parser does is determined by the input and the position of the cursor: two
streams over the same input at the same position, whatever was read, buffered, saved or
restored before and however their buffers are allocated, give the same result and the same end
position. -/
theorem C41_position_determines_result (hs : Reach al e s) (ht : Reach al' e t)
    (hp : s.index = t.index) (h : Parses D n g en s r s') :
    ∃ t', Parses D n g en t r t' ∧ t'.index = s'.index := by
  have h1 := (G.run_sem D n g en hs h).1
  rw [hp] at h1
  exact G.sem_run D n g en ht h1

/-- C41, for panics. -/
theorem C41_position_determines_panic (hs : Reach al e s) (ht : Reach al' e t)
    (hp : s.index = t.index) {m : String} (h : Panics D n g en s m) : Panics D n g en t m := by
  have h1 := (G.run_panic D n g en hs m).1 h
  rw [hp] at h1
  exact (G.run_panic D n g en ht m).2 h1

/-- C41: so one run on one stream tells what happens on all streams at that position. -/
theorem C41_one_run_is_all_runs (hs : Reach al e s) (h : Parses D n g en s r s') :
    ParsesAt e D n g en s.index r s'.index := by
  intro al' t ht hp
  exact C41_position_determines_result hs ht hp.symm h

/-- An existing position is the position of a reachable stream, so a statement about
`ParsesAt` at an existing position is not vacuous. -/
theorem C41_positions_exist (al : Alloc) (hi : Valid e i) : ∃ s, Reach al e s ∧ s.index = i :=
  hi.exists_stream al

/-- A concrete case: the stream that was just created, and one that went ahead three tokens
and was restored to a saved state, with different allocators. -/
example : ∃ (s t : Stream exSig), s = exStart [1, 0, 2] ∧ t ≠ exStart [1, 0, 2] ∧
    Reach rustAlloc (exEnv [1, 0, 2]) s ∧ Reach exAlloc (exEnv [1, 0, 2]) t ∧ s.index = t.index ∧
    t.pulled = 3 ∧ ∃ s', Parses exNested 20 exNestedG true s (.success 1) s' := by
  obtain ⟨t, h1, h2, h3, h4, -⟩ := Reach.of_run exAlloc (e := exEnv [1, 0, 2])
    (p := (do
      let m ← Prog.save
      let _ ← Prog.advance
      let _ ← Prog.advance
      let _ ← Prog.advance
      Prog.restore m : Prog exSig Unit)) (x := ()) rfl
  obtain ⟨s', h5, -⟩ := exParses (en := true) (D := exNested) (g := exNestedG) (xs := [1, 0, 2])
    (r := .success 1) (j := 3) (by decide +kernel)
  have h6 : t.pulled = 3 := h4
  refine ⟨_, t, rfl, ?_, .new, h2, h3.symm, h6, s', h5⟩
  intro hh
  rw [hh] at h6
  exact absurd h6 (by decide +kernel)

/-- From one run at the start of an input to `ParsesAt`. -/
theorem exParsesAt {N : Names exSig} {ε : ErrTy exSig} {D : Defs exSig N} {g : G exSig N ε α}
    {xs : List Nat} {r : Res α ε.E} {j : Nat} (h : exRun D g en xs = some (r, j)) :
    ParsesAt (exEnv xs) D 20 g en 0 r j := by
  obtain ⟨s', h1, h2⟩ := exParses h
  have := C41_one_run_is_all_runs (.new : Reach rustAlloc (exEnv xs) (exStart xs)) h1
  rw [h2] at this
  exact this

end PPC
