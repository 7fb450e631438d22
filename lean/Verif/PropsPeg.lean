import Verif.SemPeg2
import Verif.PropsRecursion

/-!
# Parsers denote parsing expressions: C34

The specification is the relational semantics of `Verif.SpecPeg`. `G.All (plainL S N)` says that the
parser is made of parsing expressions (see `G.Plain`), `Defs.Plain` the same for the definitions of
all recursive parsers. `try_map` with a function that may return `Recovered` is allowed, except where
the parse goes on at the same position after it failed (see `G.Tidy`).
-/

namespace PPC

variable {S : Sig} {N : Names S} {e : Env S} {D : Defs S N} {ε : ErrTy S} {α : Type} {g : G S N ε α}
  {i j : Nat} {o : α}

/-! ## Theorems -/

/-- **C34.** With recovery disabled, a parse from position `i` ends at `j` with output `o` exactly
when the grammar derives it. -/
theorem C34_accepts (hD : D.Plain) (hg : g.All (plainL S N)) (hi : Valid e i) :
    Finishes e D g false i (.success o) j ↔ Accepts e D g i o j := by
  constructor
  · rintro ⟨n, h⟩
    exact (G.sem_pd hD n g hg).acc ((parsesAt_iff hi).1 h)
  · intro h
    obtain ⟨n, h1⟩ := h.sound hD hg
    exact ⟨n, (parsesAt_iff hi).2 (h1 n (Nat.le_refl n))⟩

/-- **C34.** With recovery disabled, a parse from position `i` fails exactly when the grammar
derives failure there. -/
theorem C34_rejects (hD : D.Plain) (hg : g.All (plainL S N)) (hi : Valid e i) :
    (∃ x es j, Finishes e D g false i (.failed x es) j) ↔ Rejects e D g i := by
  constructor
  · rintro ⟨x, es, j, n, h⟩
    exact (G.sem_pd hD n g hg).rej ((parsesAt_iff hi).1 h)
  · intro h
    obtain ⟨n, h1⟩ := h.sound hD hg
    obtain ⟨x, es, j, h2⟩ := h1 n (Nat.le_refl n)
    exact ⟨x, es, j, n, (parsesAt_iff hi).2 h2⟩

/-- **C34.** With recovery disabled, a parse from position `i` by a tidy parser that fails leaves the
stream at `i`. -/
theorem C34_stays (hD : D.Plain) (hg : g.All (plainL S N)) (ht : g.Tidy) (hi : Valid e i) {x : Nat}
    {es : List ε.E} (h : Finishes e D g false i (.failed x es) j) : j = i := by
  obtain ⟨n, h⟩ := h
  exact G.sem_rw hD n g hg ht _ _ _ _ ((parsesAt_iff hi).1 h)

/-- **C34.** With recovery disabled, no parse ends as recovered. -/
theorem C34_no_recovery (hD : D.Plain) (hg : g.All (plainL S N)) (hi : Valid e i)
    {es : List ε.E} : ¬ Finishes e D g false i (.recovered o es) j := by
  rintro ⟨n, h⟩
  exact (G.sem_pd hD n g hg).norec ((parsesAt_iff hi).1 h)

/-- **C34.** The grammar is deterministic: at most one output and end position. -/
theorem C34_deterministic (hD : D.Plain) (hg : g.All (plainL S N)) {o' : α} {j' : Nat}
    (h : Accepts e D g i o j) (h' : Accepts e D g i o' j') : o' = o ∧ j' = j := by
  obtain ⟨n, h⟩ := h.sound hD hg
  obtain ⟨n', h'⟩ := h'.sound hD hg
  have h3 := (h (max n n') (by omega)).symm.trans (h' (max n n') (by omega))
  cases Out.ok.inj h3
  exact ⟨rfl, rfl⟩

/-- **C34.** The grammar does not derive both success and failure. -/
theorem C34_exclusive (hD : D.Plain) (hg : g.All (plainL S N)) (h : Accepts e D g i o j) :
    ¬ Rejects e D g i := by
  intro h'
  obtain ⟨n, h⟩ := h.sound hD hg
  obtain ⟨n', h'⟩ := h'.sound hD hg
  have h1 := h (max n n') (by omega)
  obtain ⟨x, es, j', h2⟩ := h' (max n n') (by omega)
  cases Out.ok.inj (h1.symm.trans h2)

/-! ## The hypotheses can be met -/

theorem exNested_plain : exNested.Plain := by
  intro k g hk
  cases hk
  simp [G.All, CS.All, IS.All, plainL, G.Plain, G.Tidy]

/-- The grammar of nested brackets derives `1 1 0 2 2` with output 2, and the parser finds it. -/
example : Accepts (exEnv [1, 1, 0, 2, 2, 7]) exNested exNestedG 0 2 5 ∧
    Finishes (exEnv [1, 1, 0, 2, 2, 7]) exNested exNestedG false 0 (.success 2) 5 := by
  have h : Finishes (exEnv [1, 1, 0, 2, 2, 7]) exNested exNestedG false 0 (.success 2) 5 :=
    ⟨20, exParsesAt (by decide +kernel)⟩
  exact ⟨(C34_accepts exNested_plain (by simp [G.All, plainL, G.Plain]) .zero).1 h, h⟩

/-- A list of numbers, `0` as separator, a trailing separator allowed, at least two items. -/
def exPegList : ExG (List Nat) := .separatedBy ⟨2, none, false, true⟩ (.filter fun x => x != 0) (.just 0)

theorem exPegList_plain : exPegList.All (plainL exSig exNames) := by
  simp [exPegList, G.All, plainL, G.Plain, G.Tidy]

theorem exNoDefs_plain : exNoDefs.Plain := fun k => k.elim

/-- A derivation given rule by rule (not through the parser): `3 0 4 0 0`. -/
theorem exPegList_derivation : Accepts (exEnv [3, 0, 4, 0, 0]) exNoDefs exPegList 0 [3, 4] 4 := by
  have hf : ∀ k, ¬ RepCfg.Full ⟨2, none, false, true⟩ k := by
    rintro k ⟨m, h, _⟩; cases h
  refine .separatedBy (.another (hf 0) (.unwanted ?_ (.filter rfl rfl))
    (.another (hf 1) (.separated (.inl (by decide)) (.just (t := 0) rfl rfl) (.filter rfl rfl))
      (.done (hf 2) (.trailing (.inl (by decide)) rfl (.just (t := 0) rfl rfl) (.filter ?_)) (by decide))))
  · rintro (h | h)
    · exact Nat.lt_irrefl 0 h
    · cases h
  · intro t h
    cases h
    rfl

example : Finishes (exEnv [3, 0, 4, 0, 0]) exNoDefs exPegList false 0 (.success [3, 4]) 4 :=
  (C34_accepts exNoDefs_plain exPegList_plain .zero).2 exPegList_derivation

/-- Too few items: the grammar rejects, the parser fails and stays. -/
example : Rejects (exEnv [3, 0, 0]) exNoDefs exPegList 0 ∧
    ∃ x es, Finishes (exEnv [3, 0, 0]) exNoDefs exPegList false 0 (.failed x es) 0 := by
  have h : ∃ x es, Finishes (exEnv [3, 0, 0]) exNoDefs exPegList false 0 (.failed x es) 0 :=
    ⟨_, _, 20, exParsesAt (r := .failed 2 [(simpleErr exSig).expectedFound [] (some 0)
      (.span ((exEnv [3, 0, 0]).here 2))]) (by decide +kernel)⟩
  obtain ⟨x, es, h'⟩ := h
  exact ⟨(C34_rejects exNoDefs_plain exPegList_plain .zero).1 ⟨x, es, _, h'⟩, x, es, h'⟩

/-- `just(1).ignore_then(any().try_map(|x, _| Recovered(x, [simple("odd")]))).or(just(1))`: a `try_map`
that may return `Recovered` behind the first parser of a sequence. -/
def exPegGuarded : ExG Nat := .or (.ignoreThen (.just (1 : Nat)) exTryRecovered) (.just (1 : Nat))

theorem exPegGuarded_plain : exPegGuarded.All (plainL exSig exNames) ∧ exPegGuarded.Tidy := by
  simp [exPegGuarded, exTryRecovered, G.All, plainL, G.Plain, G.Tidy]

/-- On `1 2` the first alternative fails and goes back, and the second accepts; on `2` both fail. -/
example : Accepts (exEnv [1, 2]) exNoDefs exPegGuarded 0 1 1 ∧ Rejects (exEnv [2]) exNoDefs exPegGuarded 0 := by
  refine ⟨(C34_accepts exNoDefs_plain exPegGuarded_plain.1 .zero).1 ⟨20, exParsesAt (by decide +kernel)⟩, ?_⟩
  refine (C34_rejects exNoDefs_plain exPegGuarded_plain.1 .zero).1 ⟨0, _, 0, 20, exParsesAt
    (r := .failed 0 [(simpleErr exSig).expectedFound [some 1] (some 2) (.span ((exEnv [2]).here 0))])
    (by decide +kernel)⟩

/-! ## Without the condition that first alternatives are tidy the claim is false -/

/-- `any().try_map(|x, _| Recovered(x, [simple("odd")])).or(just(2))`. -/
def exPegOr : ExG Nat := .or exTryRecovered (.just 2)

/-- **C34** (why first alternatives must be tidy): on `1 2` the choice between
such a `try_map` and `just(2)` succeeds with output 2 from position 0 — although the token at position
0 is 1, so that no grammar in which the first alternative fails derives it, nor one in which it
succeeds (with output 1). -/
theorem C34_recovering_try_map :
    Finishes (exEnv [1, 2]) exNoDefs exPegOr false 0 (.success 2) 2 ∧
      ¬ Accepts (exEnv [1, 2]) exNoDefs (.just (ε := simpleErr exSig) 2 : ExG Nat) 0 2 2 := by
  refine ⟨⟨20, exParsesAt (by decide +kernel)⟩, fun h => ?_⟩
  have := (C34_accepts exNoDefs_plain (by simp [G.All, plainL, G.Plain]) .zero).2 h
  obtain ⟨n, h⟩ := this
  rw [parsesAt_iff .zero, G.sem, G.den] at h
  cases h

end PPC
