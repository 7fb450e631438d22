import Verif.SemWithout
import Verif.PropsApi

/-!
# Adding recovery to a grammar (C67)

Recovery is added to a grammar that works, by attaching strategies to parsers in it. `g.withoutRecovery`
(SpecWithout) is the grammar as it was before.
-/

namespace PPC

variable {S : Sig} {N : Names S} {e : Env S} {D : Defs S N} {ε : ErrTy S} {α : Type} {g : G S N ε α}
  {i j : Nat} {o : α} {R F : N.K → Prop}

/-! ## Theorems -/

/-- **C67.** With recovery disabled, strategies make no difference: the results are the same, with the same
values, errors and positions, and so are the panics. -/
theorem C67_disabled (hi : Valid e i) :
    (∀ r j, Finishes e D g false i r j ↔ Finishes e D.withoutRecovery g.withoutRecovery false i r j) ∧
      ∀ msg, Crashes e D g false i msg ↔ Crashes e D.withoutRecovery g.withoutRecovery false i msg := by
  refine ⟨fun r j => ⟨?_, ?_⟩, fun msg => ⟨?_, ?_⟩⟩ <;> rintro ⟨n, h⟩ <;> refine ⟨n, ?_⟩
  · exact (parsesAt_iff hi).2 ((G.sem_without e D n g i).symm.trans ((parsesAt_iff hi).1 h))
  · exact (parsesAt_iff hi).2 ((G.sem_without e D n g i).trans ((parsesAt_iff hi).1 h))
  · exact (panicsAt_iff hi).2 ((G.sem_without e D n g i).symm.trans ((panicsAt_iff hi).1 h))
  · exact (panicsAt_iff hi).2 ((G.sem_without e D n g i).trans ((panicsAt_iff hi).1 h))

/-- **C67.** What the grammar accepts without the strategies, it accepts with them, with the same value and
up to the same position, whether recovery is enabled or not. -/
theorem C67_valid (hi : Valid e i) (h : Finishes e D.withoutRecovery g.withoutRecovery false i (.success o) j)
    (en : Bool) : Finishes e D g en i (.success o) j := by
  have h1 := ((C67_disabled hi).1 _ _).2 h
  cases en with
  | false => exact h1
  | true =>
    obtain ⟨n, h1⟩ := h1
    exact ⟨n, (parsesAt_iff hi).2 (G.sem_sm D n g _ _ _ ((parsesAt_iff hi).1 h1))⟩

/-- **C67.** At the entry point: if `parse` returns `Ok` without the strategies, it returns the same with
them. -/
theorem C67_parse (hR : RecFreeNames R D.withoutRecovery) (hr : g.withoutRecovery.All (noRecL R)) {al al' : Alloc}
    {source : Nat → Option S.I} {start : S.L} {n : Nat}
    (h : parse ε (g.withoutRecovery.prog D.withoutRecovery n) al source start = .ok (.ok o)) :
    ∃ n, ∀ m, n ≤ m → parse ε (g.prog D m) al' source start = .ok (.ok o) := by
  obtain ⟨j, h1⟩ := (C32_parse_with_recovery al _ start).1 ((C32_parse_ok _ al _ start o).1 h)
  have h2 := (C15_no_recovery_same hR hr .zero).1.1 ⟨n, h1⟩
  obtain ⟨n', h3⟩ := C67_valid .zero h2 true
  exact ⟨n', fun m hm => (C32_parse_ok _ al' _ start o).2
    ((C32_parse_with_recovery al' _ start).2 ⟨j, C33_bound_irrelevant .zero hm h3⟩)⟩

/-- **C67.** If the strategies are not used where their errors are lost (C16), `parse` returns `Ok` for no
other input: when it returns, with and without the strategies, it returns `Ok` in both cases, with the same
value, or `Err` in both. -/
theorem C67_invalid (hR : RecFreeNames R D.withoutRecovery) (hr : g.withoutRecovery.All (noRecL R))
    (hF : RecFreeNames F D) (hD : D.All (coherentL F)) (hg : g.All (coherentL F)) {al al' : Alloc}
    {source : Nat → Option S.I} {start : S.L} {n m : Nat} {r r' : Except ε.E α}
    (h : parse ε (g.withoutRecovery.prog D.withoutRecovery n) al source start = .ok r)
    (h' : parse ε (g.prog D m) al' source start = .ok r') (o : α) : r' = .ok o ↔ r = .ok o := by
  constructor
  · rintro rfl
    obtain ⟨j, h1⟩ := (C32_parse_with_recovery al' _ start).1 ((C32_parse_ok _ al' _ start o).1 h')
    cases r with
    | ok o' =>
      obtain ⟨n', h2⟩ := C67_parse (al' := al') hR hr h
      obtain ⟨j', h3⟩ := (C32_parse_with_recovery al' _ start).1 ((C32_parse_ok _ al' _ start o').1 (h2 n' (Nat.le_refl _)))
      cases (C33_unique .zero ⟨m, h1⟩ ⟨n', h3⟩).1
      rfl
    | error x =>
      obtain ⟨es, h2, -⟩ := (C32_parse_err _ al _ start x).1 h
      rcases h2 with ⟨a, h2⟩ | ⟨y, h2⟩
      · obtain ⟨k, h2⟩ := (C32_parse_with_recovery al _ start).1 h2
        exact (C15_no_recovery_never_recovers hR hr .zero ⟨n, h2⟩).elim
      · obtain ⟨k, h2⟩ := (C32_parse_with_recovery al _ start).1 h2
        obtain ⟨n', h3⟩ := ((C67_disabled .zero).1 _ _).2 ((C15_no_recovery_same hR hr .zero).1.1 ⟨n, h2⟩)
        have h4 := C33_bound_irrelevant .zero (Nat.le_max_left n' m) h3
        have h5 := C33_bound_irrelevant .zero (Nat.le_max_right n' m) h1
        exact (G.sem_fn hF hD _ g hg _ _ _ _ ((parsesAt_iff .zero).1 h4) _ _ ((parsesAt_iff .zero).1 h5)).elim
  · rintro rfl
    obtain ⟨n', h1⟩ := C67_parse (al' := al') hR hr h
    obtain ⟨j, h2⟩ := (C32_parse_with_recovery al' _ start).1 ((C32_parse_ok _ al' _ start o).1 (h1 n' (Nat.le_refl _)))
    cases r' with
    | ok o' =>
      obtain ⟨j', h3⟩ := (C32_parse_with_recovery al' _ start).1 ((C32_parse_ok _ al' _ start o').1 h')
      cases (C33_unique .zero ⟨m, h3⟩ ⟨n', h2⟩).1
      rfl
    | error x =>
      obtain ⟨es, h3, -⟩ := (C32_parse_err _ al' _ start x).1 h'
      rcases h3 with ⟨a, h3⟩ | ⟨y, h3⟩ <;> obtain ⟨k, h3⟩ := (C32_parse_with_recovery al' _ start).1 h3 <;>
        cases (C33_unique .zero ⟨m, h3⟩ ⟨n', h2⟩).1

/-! ## The hypotheses can be met -/

/-- The recursive grammar of brackets with a strategy, and what it is without it. -/
theorem exNested_without : exNested.withoutRecovery = fun _ => some
    (.or (.map (fun d => d + 1) (.thenIgnore (.ignoreThen (.just 1) (.call ())) (.just 2))) (.just 0)) := by
  funext _; simp only [Defs.withoutRecovery, exNested, Option.map_some, G.withoutRecovery]

theorem exNested_without_free : RecFreeNames (fun _ => True) exNested.withoutRecovery := by
  intro k g _ h; cases h; simp [G.withoutRecovery, G.All, noRecL, G.NoRecovery]

theorem exNested_coherent : RecFreeNames (fun _ => False) exNested ∧ exNested.All (coherentL fun _ => False) := by
  refine ⟨fun k g h => h.elim, fun k g h => ?_⟩
  cases h
  simp [G.All, CS.All, IS.All, coherentL, G.Coherent]

/-- What a grammar with one recursive parser returns for a list of tokens. -/
theorem exParse_ok {D : Defs exSig exRecNames} {xs : List Nat} {j o : Nat}
    (h : ParsesAt (exEnv xs) D 20 exNestedG true 0 (.success o) j) :
    parse (simpleErr exSig) (exNestedG.prog D 20) rustAlloc (fun i => xs[i]?) () = .ok (.ok o) :=
  (C32_parse_ok _ _ _ _ _).2 ((C32_parse_with_recovery _ _ _).2 ⟨j, h⟩)

/-- `1 1 0 2 2` has the same value with the strategy. -/
example : ∃ n, ∀ m, n ≤ m →
    parse (simpleErr exSig) (exNestedG.prog exNested m) rustAlloc (fun i => [1, 1, 0, 2, 2][i]?) () = .ok (.ok 2) :=
  C67_parse (g := exNestedG) (al := rustAlloc) exNested_without_free trivial
    (exParse_ok (xs := [1, 1, 0, 2, 2]) (j := 5) (exNested_without ▸ exParsesAt (by decide +kernel)))

/-- `1 3 2` is rejected without the strategy, so that it cannot be accepted with it, although it is recovered
from. -/
example : Finishes (exEnv [1, 3, 2]) exNested.withoutRecovery exNestedG true 0
      (.failed 1 [.expectedFound [some 1, some 0] (some 3) (.span (1, 2))]) 0 ∧
    Finishes (exEnv [1, 3, 2]) exNested exNestedG true 0
      (.recovered 101 [.expectedFound [some 1] (some 3) (.span (1, 2))]) 3 ∧
    ∀ m r', parse (simpleErr exSig) (exNestedG.prog exNested m) rustAlloc (fun i => [1, 3, 2][i]?) () = .ok r' →
      ∀ o, r' ≠ .ok o := by
  have h : ParsesAt (exEnv [1, 3, 2]) exNested.withoutRecovery 20 exNestedG true 0
      (.failed 1 [.expectedFound [some 1, some 0] (some 3) (.span (1, 2))]) 0 := by
    rw [exNested_without]; exact exParsesAt (by decide +kernel)
  refine ⟨⟨20, h⟩, ⟨20, exParsesAt (by decide +kernel)⟩, fun m r' h' o => ?_⟩
  have h1 : parse (simpleErr exSig) (exNestedG.prog exNested.withoutRecovery 20) rustAlloc (fun i => [1, 3, 2][i]?) () =
      .ok (.error (.expectedFound [some 1, some 0] (some 3) (.span (1, 2)))) :=
    (C32_parse_err _ _ _ _ _).2 ⟨_, .inr ⟨_, (C32_parse_with_recovery _ _ _).2 ⟨0, h⟩⟩, .inl rfl⟩
  intro hr
  have h2 := (C67_invalid (g := exNestedG) exNested_without_free trivial exNested_coherent.1 exNested_coherent.2
    trivial h1 h' o).1 hr
  cases h2

/-! ## Without the condition of C16 the second half is false -/

/-- **C67** (why the strategies must not be used where their errors are lost):
`just(1).repeated().at_least(1).at_most(2)` rejects `2`; with a strategy attached to `just(1)`, the parser
accepts it, with recovery enabled. -/
theorem C67_invalid_fails : (∃ x es, Finishes (exEnv [2]) exNoDefs.withoutRecovery exRepeatRecovering.withoutRecovery true 0
      (.failed x es) 0) ∧
    Finishes (exEnv [2]) exNoDefs exRepeatRecovering true 0 (.success [1]) 0 := by
  have h : Finishes (exEnv [2]) exNoDefs.withoutRecovery exRepeatRecovering.withoutRecovery true 0
      (.failed 0 [.expectedFound [some 1] (some 2) (.span (0, 1))]) 0 := by
    refine ⟨20, ?_⟩
    simp only [exRepeatRecovering, exRecovering, G.withoutRecovery]
    rw [show exNoDefs.withoutRecovery = exNoDefs from funext fun k => k.elim]
    exact exParsesAt (by decide +kernel)
  exact ⟨⟨_, _, h⟩, 20, exParsesAt (by decide +kernel)⟩

end PPC
