import Verif.SemReport2

/-!
# C58: what the error of a failed parse says was expected

The specification is the relation `Reports` of `Verif.SpecReport`: which position a failing parser blames, and what it
expected there. `G.All (plainL S N)` says that the parser is a parsing expression (see `G.Plain`), `G.All (noUserErrL S N)`
that no function of the user makes or changes errors.
-/

namespace PPC

variable {S : Sig} {N : Names S} {e : Env S} {D : Defs S N} {α : Type} {g : G S N (simpleErr S) α} {i : Nat}

/-! ## Theorems -/

theorem speaks_names (hN : ∀ k, N.err k = simpleErr S) (k : N.K) : Speaks (N.err k) := by
  rw [hN k]; exact .simple

/-- **C58.** With recovery disabled, a failure carries one error, "expected …, found *t*", and the grammar derives what it
says: the position of the failure, the token found there, how the error refers to that position, and exactly which tokens
(or the end of the input) are listed as expected. -/
theorem C58_report_partial (hp : ExactPlaces e) (hl : EqLaws S.eqI) (hN : ∀ k, N.err k = simpleErr S) (hD : D.Plain)
    (hU : D.All (noUserErrL S N)) (hg : g.All (plainL S N)) (hu : g.All (noUserErrL S N)) (hi : Valid e i) {k j : Nat}
    {es : List (simpleErr S).E} (h : Finishes e D g false i (.failed k es) j) :
    ∃ r expected, Reports e D g i r ∧ k = r.index ∧ es = [.expectedFound expected (e.source k) (r.place e)] ∧
      ∀ x, OneOf S.eqI x expected ↔ ∃ y, r.expected y ∧ Same S.eqI x y := by
  obtain ⟨n, h⟩ := h
  obtain ⟨r, d, h1, h2, rfl, h3⟩ :=
    G.sem_wy hp (speaks_names hN) hD hU n g .simple hg hu _ _ _ _ hi ((parsesAt_iff hi).1 h)
  obtain ⟨exp, rfl, h4⟩ := h3.simple hl
  exact ⟨r, exp, h1, h2, rfl, h4⟩

/-- **C58.** There is only one report to derive. -/
theorem C58_unique {ε : ErrTy S} {g : G S N ε α} (hD : D.Plain) (hg : g.All (plainL S N)) {r r' : Report S}
    (h : Reports e D g i r) (h' : Reports e D g i r') : r' = r := h.unique hD hg h'

/-- **C58.** Conversely, if the grammar derives a report, the parser fails, and this is what its error says. -/
theorem C58_derived_partial (hp : ExactPlaces e) (hl : EqLaws S.eqI) (hN : ∀ k, N.err k = simpleErr S) (hD : D.Plain)
    (hU : D.All (noUserErrL S N)) (hg : g.All (plainL S N)) (hu : g.All (noUserErrL S N)) (hi : Valid e i) {r : Report S}
    (h : Reports e D g i r) :
    ∃ expected j, Finishes e D g false i (.failed r.index [.expectedFound expected (e.source r.index) (r.place e)]) j ∧
      ∀ x, OneOf S.eqI x expected ↔ ∃ y, r.expected y ∧ Same S.eqI x y := by
  obtain ⟨k, es, j, h1⟩ := (C34_rejects hD hg hi).2 h.rejects
  obtain ⟨r', exp, h2, rfl, rfl, h3⟩ := C58_report_partial hp hl hN hD hU hg hu hi h1
  have := C58_unique hD hg h h2
  subst this
  exact ⟨exp, j, h1, h3⟩

/-- With `location::Simple`, spans and locations tell positions apart. -/
theorem ExactPlaces.simple {I : Type} {eq : I → I → Bool} (e : Env (simpleSig I eq)) : ExactPlaces e := by
  intro k l _ _
  simp only [Env.here, Env.spanOf, Env.next, Env.locationAt, simpleSig, beq_iff_eq, Prod.mk.injEq]
  constructor
  · constructor
    · exact fun h => h.1
    · rintro rfl; exact ⟨rfl, rfl⟩
  · trivial

/-- With `location::Rich` as well. -/
theorem ExactPlaces.rich {I : Type} {eq : I → I → Bool} {conv : I → String} (e : Env (richSig I eq conv)) :
    ExactPlaces e := by
  intro k l _ _
  simp only [Env.here, Env.spanOf, Env.locationAt, richSig, beq_iff_eq]
  constructor
  · constructor
    · intro h
      have := congrArg (fun s => s.from_.index) h
      exact this
    · rintro rfl; rfl
  · constructor
    · intro h
      have := congrArg (fun s => s.offset.index) h
      exact this
    · rintro rfl; rfl

/-! ## Concrete cases -/

theorem exSig_eqLaws : EqLaws exSig.eqI :=
  ⟨beq_self_eq_true (α := Nat), fun _ _ h => (beq_iff_eq (α := Nat)).2 ((beq_iff_eq (α := Nat)).1 h).symm,
    fun _ _ _ h h' => (beq_iff_eq (α := Nat)).2 (((beq_iff_eq (α := Nat)).1 h).trans ((beq_iff_eq (α := Nat)).1 h'))⟩

/-- `1 2 3`, or `1 2 4` or `1 5`, and then `6`. -/
def exReport : ExG (Nat × Nat) :=
  .then_ (.or (.seq 0 [1, 2, 3]) (.or (.to (.then_ (.seq 0 [1, 2]) (.oneOf [4, 7])) 1) (.seq 2 [1, 5]))) (.just 6)

/-- On `1 2 8`, the two alternatives that get to the `8` are reported, with all they expected; the third is not. -/
example : Reports (exEnv [1, 2, 8]) exNoDefs exReport 0 ⟨2, false, fun x => x = some 3 ∨ x = some 4 ∨ x = some 7⟩ ∧
    Finishes (exEnv [1, 2, 8]) exNoDefs exReport false 0
      (.failed 2 [.expectedFound [some 3, some 4, some 7] (some 8) (.span (2, 3))]) 0 := by
  let p : Report exSig := ⟨2, false, fun x => x = some (3 : Nat)⟩
  let q : Report exSig := ⟨2, false, fun x => ∃ y, y ∈ [(4 : Nat), 7] ∧ x = some y⟩
  let r : Report exSig := ⟨1, false, fun x => x = some (5 : Nat)⟩
  refine ⟨.thenFirst (.or (p := p) (q := q) (.seq (k := 2) ?_ rfl ?_) (.or (p := q) (q := r)
    (.to (.thenSecond (j := 2) (.seq ?_) (.oneOf ?_))) (.seq (k := 1) ?_ rfl ?_) ?_) ?_),
    ⟨20, exParsesAt (by decide +kernel)⟩⟩
  · intro l z hl hz
    match l, hl with
    | 0, _ => cases hz; exact ⟨1, rfl, rfl⟩
    | 1, _ => cases hz; exact ⟨2, rfl, rfl⟩
  · intro t ht; cases ht; rfl
  · intro l z hz
    match l with
    | 0 => cases hz; exact ⟨1, rfl, rfl⟩
    | 1 => cases hz; exact ⟨2, rfl, rfl⟩
    | l + 2 => simp at hz
  · intro t ht y hy
    cases ht
    simp only [List.mem_cons, List.not_mem_nil, or_false] at hy
    rcases hy with rfl | rfl <;> rfl
  · intro l z hl hz
    match l, hl with
    | 0, _ => cases hz; exact ⟨1, rfl, rfl⟩
  · intro t ht; cases ht; rfl
  · exact ⟨[], q, [r], rfl, by simp, by simp [q, r], rfl, rfl, fun x => by simp [q, r]⟩
  · exact ⟨[], p, [q], rfl, by simp, by simp [p, q], rfl, rfl, fun x => by simp [p, q]⟩

/-- The conditions hold for this grammar, and for the recursive grammar `exBalanced`. -/
example : ExactPlaces (exEnv [1, 2, 8]) ∧ exNoDefs.Plain ∧ exNoDefs.All (noUserErrL exSig exNames) ∧
    exReport.All (plainL exSig exNames) ∧ exReport.All (noUserErrL exSig exNames) ∧
    exBalanced.Plain ∧ exBalanced.All (noUserErrL exSig exRecNames) ∧
    Finishes (exEnv [1, 1, 3]) exBalanced (.call ()) false 0
      (.failed 2 [.expectedFound [some 1, some 0] (some 3) (.span (2, 3))]) 0 := by
  refine ⟨.simple _, fun k => k.elim, fun k => k.elim, ?_, ?_, ?_, ?_, ⟨20, exParsesAt (by decide +kernel)⟩⟩
  · simp [exReport, G.All, plainL, G.Plain, G.Tidy]
  · simp [exReport, G.All, noUserErrL, G.NoUserErr]
  · intro k g h; cases h; simp [G.All, plainL, G.Plain, G.Tidy]
  · intro k g h; cases h; simp [G.All, noUserErrL, G.NoUserErr]

/-! ## Where the error says less, or more, than a user would expect -/

/-- **C58 does not hold** in that all alternatives that got furthest have a say: the expectation of `end()` is not put
together with that of others, because it refers to the position by its location and not by a span. "End or 2" on a `3`
fails with "expected the end", and "2 or end" with "expected 2". -/
theorem C58_end_fails :
    Finishes (exEnv [3]) exNoDefs (.or .eof (.to (.just 2) ()) : ExG Unit) false 0
      (.failed 0 [.expectedFound [none] (some 3) (.location 0)]) 0 ∧
    Finishes (exEnv [3]) exNoDefs (.or (.to (.just 2) ()) .eof : ExG Unit) false 0
      (.failed 0 [.expectedFound [some 2] (some 3) (.span (0, 1))]) 0 :=
  ⟨⟨20, exParsesAt (by decide +kernel)⟩, ⟨20, exParsesAt (by decide +kernel)⟩⟩

/-- `1 2 3` or `1`, then `2`; or else `1`. And then `2 4`. -/
def exMisleading : ExG (Nat × Nat) :=
  .then_ (.or (.to (.then_ (.or (.seq 0 [1, 2, 3]) (.seq 0 [1])) (.just 2)) 0) (.seq 0 [1])) (.seq 0 [2, 4])

/-- **C58 does not hold** in that a token listed as expected lets the parse go on: on `1 2 3 5`, a `4` is expected in
place of the `3`. With a `4` there, the parse fails at this very `4`, and a `2` is expected. -/
theorem C58_token_fails :
    Finishes (exEnv [1, 2, 3, 5]) exNoDefs exMisleading false 0
      (.failed 2 [.expectedFound [some 4] (some 3) (.span (2, 3))]) 0 ∧
    Finishes (exEnv [1, 2, 4, 5]) exNoDefs exMisleading false 0
      (.failed 2 [.expectedFound [some 2] (some 4) (.span (2, 3))]) 0 :=
  ⟨⟨20, exParsesAt (by decide +kernel)⟩, ⟨20, exParsesAt (by decide +kernel)⟩⟩

/-- Any number of `1`, then a `2`. -/
def exOmitted : ExG (List Nat × Nat) := .then_ (.repeated ⟨0, none, false, false⟩ (.just 1)) (.just 2)

/-- **C58 does not hold** in that all tokens that would let the parse go on are listed: on `1 3`, only a `2` is expected
in place of the `3`, although a `1` would have done as well. -/
theorem C58_omitted_fails :
    Finishes (exEnv [1, 3]) exNoDefs exOmitted false 0
      (.failed 1 [.expectedFound [some 2] (some 3) (.span (1, 2))]) 0 ∧
    Finishes (exEnv [1, 1, 2]) exNoDefs exOmitted false 0 (.success ([1, 1], 2)) 3 :=
  ⟨⟨20, exParsesAt (by decide +kernel)⟩, ⟨20, exParsesAt (by decide +kernel)⟩⟩

end PPC
