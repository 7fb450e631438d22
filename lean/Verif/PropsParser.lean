import Verif.SemAssert
import Verif.SemPanicOff
import Verif.ExGrammars
import Verif.PropsStream

/-!
# Properties of every parser: C11 to C17

`Reach al e s`: the stream `s` over the input `e` is in a state that a legal history leads
to. `Parses D n g en s r s'`: running the parser `g` (with recursive parsers defined by `D`,
recovery enabled if `en`) on `s` returns `r` and leaves the stream in state `s'`; `n` bounds
recursion depth and loop iterations, and all theorems hold for every `n`. `Panics D n g en s m`:
it panics with message `m`.
-/

namespace PPC

variable {S : Sig} {N : Names S} {al : Alloc} {e : Env S} {s s' : Stream S} {D : Defs S N} {n : Nat}
  {ε : ErrTy S} {α : Type} {g : G S N ε α} {en : Bool} {r : Res α ε.E}

/-- `parse_internal(stream, en)` returns `r`. -/
def Parses (D : Defs S N) (n : Nat) (g : G S N ε α) (en : Bool) (s : Stream S) (r : Res α ε.E)
    (s' : Stream S) : Prop :=
  (g.prog D n en).run Stream.step s = .ok (r, s')

/-- `parse_internal(stream, en)` panics. -/
def Panics (D : Defs S N) (n : Nat) (g : G S N ε α) (en : Bool) (s : Stream S) (m : String) : Prop :=
  (g.prog D n en).run Stream.step s = .panic m

theorem exParses {N : Names exSig} {ε : ErrTy exSig} {D : Defs exSig N} {g : G exSig N ε α}
    {xs : List Nat} {r : Res α ε.E} {j : Nat} (h : exRun D g en xs = some (r, j)) :
    ∃ s', Parses D 20 g en (exStart xs) r s' ∧ s'.index = j := exRun_some h

theorem exPanics {N : Names exSig} {ε : ErrTy exSig} {D : Defs exSig N} {g : G exSig N ε α}
    {xs : List Nat} {m : String} (h : exPanic D g en xs = some m) :
    Panics D 20 g en (exStart xs) m := exPanic_some h

/-! ## C11: a failed parse does not move the cursor -/

/-- C11, for grammars in which no function given to `try_map` returns `Recovered`: when a
parser fails, the cursor is where it was when the parser was started, with recovery enabled
or disabled. -/
theorem C11_failure_rewinds_partial (hs : Reach al e s) (hD : D.All (cleanL S N))
    (hg : g.All (cleanL S N)) {x : Nat} {es : List ε.E} (h : Parses D n g en s (.failed x es) s') :
    s'.index = s.index := by
  obtain ⟨h1, -⟩ := G.run_sem D n g en hs h
  exact ((G.sem_fr hD n g hg _ _ _ _ h1).1 _ _ rfl).1

/-- The restriction on `try_map` is needed: with recovery disabled,
`any().try_map(|x, _| Recovered(x, [error]))` fails after consuming a token. -/
theorem C11_failure_rewinds_fails : ∃ (xs : List Nat) (g : ExG Nat) (x : Nat)
    (es : List (simpleErr exSig).E) (s' : Stream exSig),
    Parses exNoDefs 20 g false (exStart xs) (.failed x es) s' ∧ s'.index ≠ (exStart xs).index := by
  obtain ⟨s', h1, h2⟩ := exParses (en := false) (D := exNoDefs) (g := exTryRecovered) (xs := [7])
    (r := .failed 0 [.custom "odd" .none]) (j := 1) (by decide +kernel)
  exact ⟨[7], _, _, _, s', h1, by rw [h2]; exact Nat.one_ne_zero⟩

/-- The recursive grammar `exNested` (with recovery) meets the condition of `C11`. -/
theorem exNested_clean : exNested.All (cleanL exSig exRecNames) := by
  intro k g h
  cases h
  simp [G.All, CS.All, IS.All, cleanL, G.TryMapNotRecovered]

/-- Its parse of `[1, 1, 3, 2, 2]` without recovery fails at index 2 and rewinds to 0. -/
example : ∃ (x : Nat) (es : List (simpleErr exSig).E) (s' : Stream exSig),
    Reach rustAlloc (exEnv [1, 1, 3, 2, 2]) (exStart [1, 1, 3, 2, 2]) ∧
    exNested.All (cleanL exSig exRecNames) ∧ exNestedG.All (cleanL exSig exRecNames) ∧
    Parses exNested 20 exNestedG false (exStart [1, 1, 3, 2, 2]) (.failed x es) s' ∧ x = 2 ∧
    s'.index = 0 := by
  obtain ⟨s', h1, h2⟩ := exParses (en := false) (D := exNested) (g := exNestedG)
    (xs := [1, 1, 3, 2, 2])
    (r := .failed 2 [.expectedFound [some 1, some 0] (some 3) (.span (2, 3))]) (j := 0) (by decide +kernel)
  exact ⟨_, _, s', .new, exNested_clean, by simp [G.All, cleanL, G.TryMapNotRecovered], h1, rfl, h2⟩

/-! ## C12: recovery disabled means no recovered result -/

/-- C12: with recovery disabled no parser returns `Recovered`. -/
theorem C12_disabled_never_recovers (hs : Reach al e s) (a : α) (es : List ε.E) :
    ¬Parses D n g false s (.recovered a es) s' := by
  intro h
  obtain ⟨h1, -⟩ := G.run_sem D n g false hs h
  exact G.sem_nr D n g _ _ _ _ h1

/-- C12: so the assertion `enable_recovery` of sequences and repetitions and the
`unreachable!("parser recovered from an error with recovery disabled")` of choices never
fire, in either mode, unless a scanner passed by the user panics with that very message. -/
theorem C12_checks_never_fire (hs : Reach al e s) {m : String} (hm : RecoveredWhileDisabled m)
    (hD : D.All (quietL m)) (hg : g.All (quietL m)) : ¬Panics D n g en s m := by
  intro h
  exact G.sem_na hm hD n g hg _ _ ((G.run_panic D n g en hs m).1 h)

/-- A parser that recovers when it may, and fails when it may not. -/
example : (∃ s', Parses exNested 20 exNestedG true (exStart [1, 1, 3, 2])
      (.recovered 100 [.expectedFound [some 2] none (.span (4, 4)), .unmatchedLeft 1 (0, 1) (.location 4)])
      s') ∧
    ∃ x es s', Parses exNested 20 exNestedG false (exStart [1, 1, 3, 2]) (.failed x es) s' := by
  obtain ⟨s', h1, -⟩ := exParses (en := true) (D := exNested) (g := exNestedG) (xs := [1, 1, 3, 2])
    (r := .recovered 100 [.expectedFound [some 2] none (.span (4, 4)),
      .unmatchedLeft 1 (0, 1) (.location 4)]) (j := 4) (by decide +kernel)
  obtain ⟨s'', h2, -⟩ := exParses (en := false) (D := exNested) (g := exNestedG) (xs := [1, 1, 3, 2])
    (r := .failed 2 [.expectedFound [some 1, some 0] (some 3) (.span (2, 3))]) (j := 0) (by decide +kernel)
  exact ⟨⟨s', h1⟩, _, _, s'', h2⟩

/-- `exNested` meets the condition of `C12_checks_never_fire`. -/
example {m : String} (hm : RecoveredWhileDisabled m) : exNested.All (quietL m) := by
  intro k g h
  cases h
  simp only [G.All, CS.All, IS.All, quietL, IS.Quiet, and_true, true_and]
  intro t sp st es h
  have h' : handleToken (simpleErr exSig) [(1, 2)] t sp st es = .error m := by
    revert h
    simp only
    split
    · intro h; cases h
    · rename_i h1; intro h; cases h; exact h1
  have hp : ∀ r (st : List (Delim exSig)) es, popOne (simpleErr exSig) r t sp st es ≠ .error m := by
    intro r st es h
    unfold popOne at h
    split at h
    · split at h <;> cases h
      simp [RecoveredWhileDisabled] at hm
    · cases h
  have hr : ∀ st es, handleRest (simpleErr exSig) [(1, 2)] t sp st es ≠ .error m := by
    intro st es h
    unfold handleRest at h
    repeat' split at h
    all_goals first | (cases h; done) | exact hp _ _ _ h
  unfold handleToken at h'
  split at h'
  · split at h'
    · split at h'
      · cases h'
      · exact hr _ _ h'
    · cases h'; simp [RecoveredWhileDisabled] at hm
  · exact hr _ _ h'

/-! ## C13: errors are never empty -/

/-- C13: if the error-updating functions and scanners given to strategies keep nonempty
error lists nonempty, every result that is not a success carries at least one error. -/
theorem C13_errors_nonempty (hs : Reach al e s) (hD : D.All (keepErrL S N)) (hg : g.All (keepErrL S N)) :
    (∀ x es, Parses D n g en s (.failed x es) s' → es ≠ []) ∧
    (∀ a es, Parses D n g en s (.recovered a es) s' → es ≠ []) := by
  constructor
  · intro x es h
    obtain ⟨h1, -⟩ := G.run_sem D n g en hs h
    exact G.sem_ne hD n g hg _ _ _ _ h1
  · intro x es h
    obtain ⟨h1, -⟩ := G.run_sem D n g en hs h
    exact G.sem_ne hD n g hg _ _ _ _ h1

/-- The scanner of the crate meets the condition of C13, for all delimiters. -/
theorem C13_nested_delimiters_keep_errors (ε : ErrTy S) (types : List (S.I × S.I)) :
    (nestedDelimiters ε types).KeepsErrors := nestedDelimiters_keepsErrors ε types

/-- `exNested` meets the condition of C13 (its parse of `[1, 1, 3, 2]`, above, recovers with
two errors). -/
example : exNested.All (keepErrL exSig exRecNames) := by
  intro k g h
  cases h
  simp only [G.All, CS.All, IS.All, keepErrL, IS.KeepsErrors, and_true, true_and]
  exact nestedDelimiters_keepsErrors _ _

/-- The condition is needed: `just(1).to_recover(attempt_to().update_errors(clear).and_return(1))`
recovers without an error, and `parse` then reports `unknown error`. -/
theorem C13_condition_needed : ∃ s',
    Parses exNoDefs 20 (.toRecover (.just 1) (.ret (.updateErrors .attemptTo fun _ => []) 1) : ExG Nat)
      true (exStart [2]) (.recovered 1 []) s' := by
  obtain ⟨s', h1, -⟩ := exParses (en := true) (D := exNoDefs)
    (g := (.toRecover (.just 1) (.ret (.updateErrors .attemptTo fun _ => []) 1) : ExG Nat)) (xs := [2])
    (r := .recovered 1 []) (j := 0) (by decide +kernel)
  exact ⟨s', h1⟩

/-! ## C14: the failure index is within the examined input -/

/-- C14: the index reported by a failure is at least the index at which the parser was
started, at most the number of tokens read from the source so far, and all the tokens before
it exist. -/
theorem C14_failure_index (hs : Reach al e s) {x : Nat} {es : List ε.E}
    (h : Parses D n g en s (.failed x es) s') :
    s.index ≤ x ∧ x ≤ s'.tokensRead ∧ ∀ i < x, (e.source i).isSome = true := by
  obtain ⟨h1, h2, -, -, -, h3⟩ := G.run_sem D n g en hs h
  obtain ⟨h4, h5⟩ := h3 x es rfl
  exact ⟨h4, h5, ((G.sem_valid D n g en hs.valid h1).2.2 x es rfl).2⟩

/-- C14: so if the failing parser rewound, the `save_at` that recovery performs with the
reported index succeeds, leaves the cursor, and reads nothing from the source. -/
theorem C14_save_at_failure (hs : Reach al e s) {x : Nat} {es : List ε.E}
    (h : Parses D n g en s (.failed x es) s') (hr : s'.index = s.index) :
    ∃ m s'', Stream.step (.saveAt x) s' = .ok (m, s'') ∧ m.index = x ∧ s''.index = s'.index ∧
      s''.pulled = s'.pulled := by
  obtain ⟨-, h2, -, -, -, h3⟩ := G.run_sem D n g en hs h
  obtain ⟨h4, h5⟩ := h3 x es rfl
  obtain ⟨st, c, hc⟩ := h2.sim
  have h6 : Cursor.step e (.saveAt x) c = .ok (c.saveIdx x) := by
    simp only [Cursor.step]
    rw [if_neg (by rw [← hc.pos]; omega), if_pos (by rw [← hc.tokensRead]; exact h5)]
  obtain ⟨st', s'', h7, h8⟩ := hc.step_ok h6
  exact ⟨_, s'', h7, rfl, by rw [h8.pos, hc.pos], by rw [h8.pulled, hc.pulled]⟩

/-- Failure at index 2 of a parse started at 0 that read three tokens; see C11. -/
example : ∃ (x : Nat) (es : List (simpleErr exSig).E) (s' : Stream exSig),
    Reach rustAlloc (exEnv [1, 1, 3, 2, 2]) (exStart [1, 1, 3, 2, 2]) ∧
    Parses exNested 20 exNestedG false (exStart [1, 1, 3, 2, 2]) (.failed x es) s' ∧ x = 2 ∧
    s'.index = (exStart [1, 1, 3, 2, 2]).index := by
  obtain ⟨s', h1, h2⟩ := exParses (en := false) (D := exNested) (g := exNestedG)
    (xs := [1, 1, 3, 2, 2])
    (r := .failed 2 [.expectedFound [some 1, some 0] (some 3) (.span (2, 3))]) (j := 0) (by decide +kernel)
  exact ⟨_, _, s', .new, h1, rfl, h2⟩

/-- Without rewinding `save_at` panics:
`just(1).to_recover(attempt_to().try_to_parse(p).exactly().silently().and_return(1))` with
`p = any().try_map(|x, _| Recovered(x, [error]))`, as `p` fails at an index before the cursor. -/
theorem C14_save_at_needs_rewind : Panics exNoDefs 20
    (.toRecover (.just 1) (.ret (.tryToParse .attemptTo exTryRecovered true true) 1) : ExG Nat)
    true (exStart [7, 7]) "assertion failed: index == self.index" := exPanics (by decide +kernel)

/-! ## C15: enabling recovery does not change valid input -/

/-- C15: a parser that succeeds with recovery disabled succeeds with recovery enabled, with
the same output and the same end position. -/
theorem C15_recovery_keeps_success (hs : Reach al e s) {a : α}
    (h : Parses D n g false s (.success a) s') :
    ∃ s'', Parses D n g true s (.success a) s'' ∧ s''.index = s'.index := by
  obtain ⟨h1, -⟩ := G.run_sem D n g false hs h
  exact G.sem_run D n g true hs (G.sem_sm D n g _ _ _ h1)

example : ∃ s', Parses exNested 20 exNestedG false (exStart [1, 1, 0, 2, 2]) (.success 2) s' := by
  obtain ⟨s', h1, -⟩ := exParses (en := false) (D := exNested) (g := exNestedG)
    (xs := [1, 1, 0, 2, 2]) (r := .success 2) (j := 5) (by decide +kernel)
  exact ⟨s', h1⟩

/-! ## C16: recovery never hides errors -/

/-- C16, for coherent grammars (recovering parsers are not used under `try_map`, nor as items
or separators of a repetition that has a minimum and can go on after reaching it): a parser
that fails with recovery disabled does not succeed with recovery enabled. -/
theorem C16_recovery_never_hides_partial {F : N.K → Prop} (hs : Reach al e s) (hF : RecFreeNames F D)
    (hD : D.All (coherentL F)) (hg : g.All (coherentL F)) {x : Nat} {es : List ε.E}
    (h : Parses D n g false s (.failed x es) s') (a : α) (s'' : Stream S) :
    ¬Parses D n g true s (.success a) s'' := by
  intro h'
  obtain ⟨h1, -⟩ := G.run_sem D n g false hs h
  obtain ⟨h2, -⟩ := G.run_sem D n g true hs h'
  exact G.sem_fn hF hD n g hg _ _ _ _ h1 _ _ h2

/-- The recursive grammar `exNested` is coherent, and fails on `[1, 1, 3, 2, 2]` without
recovery (see C11). -/
example : RecFreeNames (fun _ => False) exNested ∧
    exNested.All (coherentL fun _ => False) ∧ exNestedG.All (coherentL fun _ => False) := by
  refine ⟨fun k g h => h.elim, ?_, by simp [G.All, coherentL, G.Coherent]⟩
  intro k g h
  cases h
  simp [G.All, CS.All, IS.All, coherentL, G.Coherent]

/-- C16 is false in general. `just(1).to_recover(just_return(1)).repeated().at_least(1).at_most(2)`
on `[2]` fails without recovery and succeeds with it: the error is lost. -/
theorem C16_recovery_never_hides_fails :
    (∃ x es s', Parses exNoDefs 20 exRepeatRecovering false (exStart [2]) (.failed x es) s') ∧
    ∃ s'', Parses exNoDefs 20 exRepeatRecovering true (exStart [2]) (.success [1]) s'' := by
  obtain ⟨s', h1, -⟩ := exParses (en := false) (D := exNoDefs) (g := exRepeatRecovering) (xs := [2])
    (r := .failed 0 [.expectedFound [some 1] (some 2) (.span (0, 1))]) (j := 0) (by decide +kernel)
  obtain ⟨s'', h2, -⟩ := exParses (en := true) (D := exNoDefs) (g := exRepeatRecovering) (xs := [2])
    (r := .success [1]) (j := 0) (by decide +kernel)
  exact ⟨⟨_, _, s', h1⟩, s'', h2⟩

/-- Neither does it hold under `try_map`:
`just(1).to_recover(just_return(1)).try_map(|x, _| Ok(x))` on `[2]`. -/
theorem C16_try_map_hides :
    (∃ x es s', Parses exNoDefs 20 exTryMapRecovering false (exStart [2]) (.failed x es) s') ∧
    ∃ s'', Parses exNoDefs 20 exTryMapRecovering true (exStart [2]) (.success 1) s'' := by
  obtain ⟨s', h1, -⟩ := exParses (en := false) (D := exNoDefs) (g := exTryMapRecovering) (xs := [2])
    (r := .failed 0 [.expectedFound [some 1] (some 2) (.span (0, 1))]) (j := 0) (by decide +kernel)
  obtain ⟨s'', h2, -⟩ := exParses (en := true) (D := exNoDefs) (g := exTryMapRecovering) (xs := [2])
    (r := .success 1) (j := 0) (by decide +kernel)
  exact ⟨⟨_, _, s', h1⟩, s'', h2⟩

/-! ## C17: parsing never panics -/

/-- C17, for safe grammars (see `G.Safe`) in which every recursive parser is defined: a parse
does not panic, on any stream in any reachable state. It returns a result, unless the
evaluation bound `n` is too small. -/
theorem C17_never_panics_partial {F : N.K → Prop} (hs : Reach al e s) (hF : RecFreeNames F D)
    (hD : D.All (safeL F)) (hd : ∀ k, (D k).isSome) (hg : g.All (safeL F)) (m : String) :
    ¬Panics D n g en s m := by
  intro h
  exact G.sem_np hF hD hd n g hg _ _ _ ((G.run_panic D n g en hs m).1 h)

/-- C17: the only outcomes are a result and exhaustion of the bound. -/
theorem C17_outcomes_partial {F : N.K → Prop} (hs : Reach al e s) (hF : RecFreeNames F D)
    (hD : D.All (safeL F)) (hd : ∀ k, (D k).isSome) (hg : g.All (safeL F)) :
    (∃ r s', Parses D n g en s r s') ∨ (g.prog D n en).run Stream.step s = .oof := by
  cases h : g.sem e D n en s.index with
  | ok x =>
    obtain ⟨s', h1, -⟩ := G.sem_run D n g en hs (r := x.1) (j := x.2) h
    exact .inl ⟨_, s', h1⟩
  | panic m => exact (G.sem_np hF hD hd n g hg _ _ _ h).elim
  | oof => exact .inr ((G.run_oof D n g en hs).2 h)
  | stuck => exact (G.sem_not_stuck D n g en hs.valid h).elim

/-- The scanner of the crate meets the condition of C17, for all delimiters. -/
theorem C17_nested_delimiters_never_panic (ε : ErrTy S) (types : List (S.I × S.I)) :
    (nestedDelimiters ε types).NeverPanics := nestedDelimiters_neverPanics ε types

/-- The recursive grammar `exNested` is safe. -/
example : RecFreeNames (fun _ => False) exNested ∧ exNested.All (safeL fun _ => False) ∧
    (∀ k, (exNested k).isSome) ∧ exNestedG.All (safeL fun _ => False) := by
  refine ⟨fun k g h => h.elim, ?_, fun _ => rfl, by simp [G.All, safeL, G.Safe]⟩
  intro k g h
  cases h
  simp only [G.All, CS.All, IS.All, safeL, G.Safe, IS.Safe, and_true, true_and]
  exact nestedDelimiters_neverPanics _ _

/-- C17, with recovery disabled: no parser panics, if every choice between a list of parsers has at least
two of them, the functions given to `try_map` return at least one error when they do not return `Ok`,
and every recursive parser is defined. Strategies may be anything. -/
theorem C17_disabled_never_panics (hs : Reach al e s) (hD : D.All (calmOffL S N)) (hd : ∀ k, (D k).isSome)
    (hg : g.All (calmOffL S N)) (m : String) : ¬Panics D n g false s m := by
  intro h
  exact G.sem_npf hD hd n g hg _ _ ((G.run_panic D n g false hs m).1 h)

/-- The grammar of `C17_never_panics_fails`, which panics with recovery enabled, meets the conditions. -/
example : exNoDefs.All (calmOffL _ _) ∧ (G.or exTryMapRecovering (.just 3) : ExG Nat).All (calmOffL _ _) := by
  refine ⟨fun k => (nomatch k), ?_⟩
  simp [exTryMapRecovering, exRecovering, G.All, CS.All, IS.All, calmOffL, G.CalmOff]

/-- C17 is false in general: a choice whose alternative is
`just(1).to_recover(just_return(1)).try_map(|x, _| Ok(x))` hits an `unreachable!`. -/
theorem C17_never_panics_fails : Panics exNoDefs 20 (.or exTryMapRecovering (.just 3)) true (exStart [2])
    "internal error: entered unreachable code: parser that previously failed now magically succeeded" :=
  exPanics (by decide +kernel)

/-- The same with a repetition of a recovering parser. -/
theorem C17_repeat_panics :
    Panics exNoDefs 20 (.or exRepeatRecovering (.thenIgnore (.chain .nil) (.just 3))) true (exStart [2])
    "internal error: entered unreachable code: parser that previously failed now magically succeeded" :=
  exPanics (by decide +kernel)

/-- A function given to `try_map` that returns `Recovered`. -/
theorem C17_try_map_recovered_panics : Panics exNoDefs 20
    (.toRecover (.just 1) (.ret (.tryToParse .attemptTo exTryRecovered true true) 1) : ExG Nat)
    true (exStart [7, 7]) "assertion failed: index == self.index" := exPanics (by decide +kernel)

/-- `alters` with no alternative. -/
theorem C17_alters_none_panics : Panics exNoDefs 20 (.alters .nil : ExG Nat) false (exStart [2])
    "cannot have zero alternatives for alternate()" := exPanics (by decide +kernel)

/-- `alters` with a single alternative that fails with two errors, or with another kind of
error than expected/found. -/
theorem C17_alters_one_panics : Panics exNoDefs 20
    (.alters (.cons (.tryMap (fun _ _ => .err [(simpleErr exSig).simple "bad"]) (.just 2)) .nil) : ExG Nat)
    false (exStart [2]) "called `Option::unwrap()` on a `None` value" := exPanics (by decide +kernel)

/-- A recursive parser that was never defined. -/
theorem C17_undefined_panics : Panics (fun _ => none) 20 exNestedG false (exStart [2])
    "recursive parser is not defined" := exPanics (by decide +kernel)

end PPC
