import Verif.SemHandles2

/-!
# C54: the memory of recursive and boxed parsers

For every history of declaring, defining, cloning, boxing, combining and dropping parsers. That a recursive or boxed
parser is freed when nothing can get at it any more is only true without recursion (finding 28 in DESIGN.md).
-/

namespace PPC.Own

/-- **C54.** A recursive or boxed parser that the user can still get at has not been freed, also after a panic of `define`. -/
theorem C54_never_freed_early {os : List Op} {s : State} (h : run init os = some s) {i : Nat} (hi : Reachable s i) :
    Alive s i :=
  reachable_alive (run_ok init_ok h) hi

/-- **C54.** The reference count of an allocation is the number of its handles. -/
theorem C54_counts {os : List Op} {s : State} (h : run init os = some s) {i : Nat} {c : Cell} (hc : s.heap[i]? = some c) :
    c.strong = handles s i := by
  have h1 := (run_ok init_ok h).count i
  rw [strongAt_some hc] at h1
  rw [h1, List.count_flatten, List.count_flatMap]
  unfold handles
  rw [Nat.add_comm]
  rfl

/-- **C54**, without recursion: what the user cannot get at any more has been freed, also after a panic of `define`. Missing:
recursive parsers that are defined in terms of themselves, see `C54_recursive_never_freed`. -/
theorem C54_freed_partial {os : List Op} {s : State} (h : run init os = some s) (hn : NeverRecursive init os) {i : Nat}
    (hi : ¬Reachable s i) : ¬Alive s i := by
  intro ha
  obtain ⟨r, hr⟩ := run_ordered init_ok hn ⟨fun _ => 0, fun i c hc => by simp [init] at hc⟩ h
  exact hi (alive_reachable (run_ok init_ok h) hr ha)

/-- **C54**, without recursion: when all parsers have been dropped, all memory has been freed. Missing: as above. -/
theorem C54_all_freed_partial {os : List Op} {s : State} (h : run init os = some s) (hn : NeverRecursive init os)
    (ho : ∀ v ∈ s.owned, v = []) (i : Nat) : ¬Alive s i := by
  refine C54_freed_partial h hn fun hr => ?_
  induction hr with
  | owned hv hi => rw [ho _ hv] at hi; cases hi
  | inside _ _ _ ih => exact ih

/-- **C54**, what the code does instead: a recursive parser that is defined in terms of itself is never freed, nor is anything
that its definition is made of, whatever the user does with it, as long as nothing panics. -/
theorem C54_recursive_never_freed {os os' : List Op} {s s' s'' : State} {k l i : Nat} {v : List Nat}
    (h : run init os = some s) (hk : s.owned[k]? = some [i]) (hl : s.owned[l]? = some v) (hv : LeadsTo s.heap v i)
    (hd : step s (.define k l) = some (none, s')) (hn : NeverPanics s' os') (h' : run s' os' = some s'') :
    ∀ y, LeadsTo s'.heap [i] y → Alive s'' y := by
  intro y hy
  have hs := step_ok (run_ok init_ok h) hd
  obtain ⟨c, hc, hi⟩ := define_cycle hk hl hv hd
  have h1 := run_held hs (held_cycle hc hi) hn h'
  refine h1.alive (run_ok hs h') ?_
  cases hy with
  | here h2 => rw [List.mem_singleton.1 h2]; exact hi
  | inside h2 h3 h4 =>
    rw [List.mem_singleton.1 h2, hc] at h3
    cases h3
    exact h4

/-- `recursive(|p| just('(').ignore_then(p.clone()).or(just('x')))`: the clone is part of the definition. -/
def exLoop : List Op := [.declare, .clone 0, .combine [1], .define 0 2]

/-- The same, with a boxed parser that is used twice instead of a recursive one. -/
def exShared : List Op := [.combine [], .boxed 0, .clone 1, .combine [1, 2], .declare, .define 4 3, .clone 4]

theorem exLoop_run : run init exLoop = some ⟨[⟨true, 2, [1]⟩, ⟨false, 1, [0]⟩], [[0], [], []]⟩ := by
  simp [exLoop, run, step, init, moveOut, release_cons, release_nil, retain]

theorem exLoop_drop : run init (exLoop ++ [.drop 0]) = some ⟨[⟨true, 1, [1]⟩, ⟨false, 1, [0]⟩], [[], [], []]⟩ := by
  simp [exLoop, run, step, init, moveOut, release_cons, release_nil, retain]

/-- **C54**, finding 28: the memory of a parser that was made by `recursive` is lost when it is dropped: there is no
handle to it, and it is not freed. -/
theorem C54_freed_fails : ∃ os s, run init os = some s ∧ (∀ v ∈ s.owned, v = []) ∧ Alive s 0 ∧ ¬Reachable s 0 := by
  refine ⟨_, _, exLoop_drop, by simp, ⟨_, rfl, by simp⟩, fun h => ?_⟩
  have h1 : ∀ j, ¬Reachable ⟨[⟨true, 1, [1]⟩, ⟨false, 1, [0]⟩], [[], [], []]⟩ j := by
    intro j hj
    induction hj with
    | owned hv hi => simp at hv; subst hv; cases hi
    | inside _ _ _ ih => exact ih
  exact h1 0 h

theorem exShared_run : run init exShared =
    some ⟨[⟨false, 2, []⟩, ⟨true, 2, [2]⟩, ⟨false, 1, [0, 0]⟩], [[], [], [], [], [1], [1]]⟩ := by
  simp [exShared, run, step, init, moveOut, release_cons, release_nil, retain]

/-- What the parser that is used twice is part of can be reached, and it is alive. -/
example : ∃ s, run init exShared = some s ∧ Reachable s 0 ∧ Alive s 0 ∧ handles s 0 = 2 := by
  refine ⟨_, exShared_run, ?_, ⟨_, rfl, by simp⟩, by simp [handles]⟩
  exact .inside (k := 2) (.inside (k := 1) (.owned (v := [1]) (by simp) (by simp)) rfl (by simp)) rfl (by simp)

theorem exShared_never (os : List Op) (h : ∀ s, NeverRecursive s os) : NeverRecursive init (exShared ++ os) := by
  simp [exShared, NeverRecursive, step, init, moveOut, retain, NotRecursive, release_nil, h]
  intro hl
  cases hl with
  | here h => simp at h
  | inside h1 h2 h3 =>
    simp at h1; subst h1; simp at h2; subst h2
    cases h3 with
    | here h => simp at h
    | inside h => simp at h

/-- When one of the two clones is dropped, nothing is freed, when the other is dropped, everything is. -/
example : ∃ s, run init (exShared ++ [.drop 4, .drop 5]) = some s ∧
    NeverRecursive init (exShared ++ [.drop 4, .drop 5]) ∧ (∀ v ∈ s.owned, v = []) ∧
    ∀ i, ¬Alive s i := by
  have h : run init (exShared ++ [.drop 4, .drop 5]) =
      some ⟨[⟨false, 0, []⟩, ⟨true, 0, []⟩, ⟨false, 0, []⟩], [[], [], [], [], [], []]⟩ := by
    simp [exShared, run, step, init, moveOut, release_cons, release_nil, retain]
  have hn : NeverRecursive init (exShared ++ [.drop 4, .drop 5]) :=
    exShared_never _ fun s => by simp [NeverRecursive, NotRecursive]
  exact ⟨_, h, hn, by simp, C54_all_freed_partial h hn (by simp)⟩

/-- A second definition panics, and the first is freed. -/
example : ∃ s s' m, run init (exShared ++ [.combine []]) = some s ∧ step s (.define 4 6) = some (some m, s') ∧
    NeverRecursive init (exShared ++ [.combine [], .define 4 6]) ∧ Alive s 0 ∧ ¬Alive s' 0 := by
  refine ⟨⟨[⟨false, 2, []⟩, ⟨true, 2, [2]⟩, ⟨false, 1, [0, 0]⟩], [[], [], [], [], [1], [1], []]⟩,
    ⟨[⟨false, 0, []⟩, ⟨true, 2, [3]⟩, ⟨false, 0, []⟩, ⟨false, 1, []⟩], [[], [], [], [], [1], [1], []]⟩,
    "multiple definitions for recursive parser", ?_, ?_, ?_, ⟨_, rfl, by simp⟩, ?_⟩
  · simp [exShared, run, step, init, moveOut, release_cons, release_nil, retain]
  · simp [step, release_cons, release_nil]
  · simp [exShared, NeverRecursive, step, init, moveOut, retain, NotRecursive, release_nil]
    refine ⟨fun hl => ?_, fun hl => ?_⟩
    · cases hl with
      | here h => simp at h
      | inside h1 h2 h3 =>
        simp at h1; subst h1; simp at h2; subst h2
        cases h3 with
        | here h => simp at h
        | inside h => simp at h
    · cases hl with
      | here h => simp at h
      | inside h => simp at h
  · rintro ⟨c, h1, h2⟩
    simp at h1; subst h1; simp at h2

/-- The hypotheses of `C54_recursive_never_freed`, for the parser made by `recursive`, which is then dropped. -/
example : ∃ s s' s'', run init (exLoop.take 3) = some s ∧ s.owned[0]? = some [0] ∧ s.owned[2]? = some [0] ∧
    LeadsTo s.heap [0] 0 ∧ step s (.define 0 2) = some (none, s') ∧ NeverPanics s' [.drop 0] ∧
    run s' [.drop 0] = some s'' ∧ LeadsTo s'.heap [0] 1 := by
  refine ⟨⟨[⟨true, 2, []⟩], [[0], [], [0]]⟩, ⟨[⟨true, 2, [1]⟩, ⟨false, 1, [0]⟩], [[0], [], []]⟩,
    ⟨[⟨true, 1, [1]⟩, ⟨false, 1, [0]⟩], [[], [], []]⟩, ?_, rfl, rfl, .here (by simp), ?_, ?_, ?_, ?_⟩
  · simp [exLoop, run, step, init, moveOut, retain]
  · simp [step, release_cons, release_nil]
  · simp [NeverPanics, step]
  · simp [run, step, release_cons, release_nil]
  · exact .inside (List.mem_singleton.2 rfl) rfl (.here (by simp))

end PPC.Own
