import Verif.SemMistake
import Verif.PropsReport
import Verif.PropsCfg

/-!
# Where the error is and where the mistake is (C65)

The tokens before the first mistake of an input are the beginning of a sentence, and together with the
token at the mistake they are not (`Begun` in SpecMistake). An error is never reported after the first
mistake. It can be reported long before it, because the failure of an optional part or of an item is
forgotten. It is reported at the first mistake if nothing was looked at beyond the token it blames.
-/

namespace PPC.Cfg

open PPC

variable {S : Sig} {N : Names S} {D : Defs S N} {α : Type} {start : S.L} {xs : List S.I} {al : Alloc}
  {ν : Bool → N.K → Bool} {φ : N.K → S.I → Prop} {F : N.K → Option S.I → Prop}

/-! ## Theorems -/

/-- **C65** (an error is not reported too late): if a parser, followed by `end()`, fails on the tokens
`xs`, its error blames the token at some position `x` (or the end of the input), and the tokens before
that are the beginning of a sentence. -/
theorem C65_not_late_partial {g : G S N (simpleErr S) α} (hx : ExactPlaces (onList start xs)) (hl : EqLaws S.eqI)
    (hN : ∀ k, N.err k = simpleErr S) (hD : D.Plain) (hU : D.All (noUserErrL S N)) (hF : D.All (fruitfulL D))
    (hg : g.All (plainL S N)) (hu : g.All (noUserErrL S N)) (hf : g.All (fruitfulL D)) {x j : Nat}
    {es : List (simpleErr S).E}
    (h : Finishes (onList start xs) D (.thenIgnore g .eof) false 0 (.failed x es) j) :
    x ≤ xs.length ∧ Begun start D g (xs.take x) ∧
      ∃ expected place, es = [.expectedFound expected xs[x]? place] := by
  obtain ⟨r, exp, h1, rfl, rfl, -⟩ := C58_report_partial hx hl hN hD hU (g := .thenIgnore g .eof)
    ⟨trivial, hg, trivial⟩ ⟨trivial, hu, trivial⟩ .zero h
  suffices h2 : r.index ≤ xs.length ∧ Begun start D g (xs.take r.index) from ⟨h2.1, h2.2, _, _, rfl⟩
  have key : ∀ {k : Nat} {ys : List S.I}, SameBefore (onList start xs) (onList start ys) k → k ≤ ys.length →
      k ≤ xs.length ∧ xs.take k = ys.take k := by
    intro k ys hs hk
    have h1 : k ≤ xs.length := by
      rcases Nat.lt_or_ge xs.length k with h | h
      · have h2 : ys[xs.length]? = xs[xs.length]? := hs.2 _ h
        rw [List.getElem?_eq_none (Nat.le_refl _), List.getElem?_eq_none_iff] at h2
        omega
      · exact h
    refine ⟨h1, List.ext_getElem? fun i => ?_⟩
    rcases Nat.lt_or_ge i k with h | h
    · rw [List.getElem?_take_of_lt h, List.getElem?_take_of_lt h]; exact (hs.2 i h).symm
    · rw [List.getElem?_eq_none (by rw [List.length_take]; omega), List.getElem?_eq_none (by rw [List.length_take]; omega)]
  rcases Reports.before_end h1 with h1 | ⟨o', h1⟩
  · obtain ⟨-, ys, h2, h3, o, h4⟩ := Reports.far hF hD hU .zero hf hg hu h1
    obtain ⟨h5, h6⟩ := key h2 h3
    refine ⟨h5, ys.drop r.index, o, ?_⟩
    rw [h6, List.take_append_drop]
    exact h4
  · obtain ⟨⟨o, h3⟩, h4⟩ := Accepts.dp hF hD .zero hf hg h1
    obtain ⟨zs, h5, h6⟩ := tokens_before h4
    obtain ⟨h7, h8⟩ := key h6 (by omega)
    refine ⟨h7, [], o, ?_⟩
    rw [List.append_nil, h8, List.take_of_length_le (by omega), h5]
    exact (Derives.here _ hF hf h3).2.2 h6

/-- **C65**, at the entry point: if there is no recovery in the grammar and `parse` returns `Err`, this is
what the error says. -/
theorem C65_parse_partial {R : N.K → Prop} {g : G S N (simpleErr S) α} (hx : ExactPlaces (onList start xs))
    (hl : EqLaws S.eqI) (hN : ∀ k, N.err k = simpleErr S) (hD : D.Plain) (hU : D.All (noUserErrL S N))
    (hF : D.All (fruitfulL D)) (hg : g.All (plainL S N)) (hu : g.All (noUserErrL S N)) (hf : g.All (fruitfulL D))
    (hR : RecFreeNames R D) (hr : g.All (noRecL R)) {n : Nat} {err : (simpleErr S).E}
    (h : parse (simpleErr S) ((G.thenIgnore g .eof).prog D n) al (fun i => xs[i]?) start = .ok (.error err)) :
    ∃ x expected place, x ≤ xs.length ∧ err = .expectedFound expected xs[x]? place ∧ Begun start D g (xs.take x) := by
  have hr' : (G.thenIgnore g .eof).All (noRecL R) := ⟨trivial, hr, trivial⟩
  obtain ⟨es, h1, h2⟩ := (C32_parse_err _ al _ start err).1 h
  rcases h1 with ⟨o, h1⟩ | ⟨x, h1⟩
  · obtain ⟨j, h1⟩ := (C32_parse_with_recovery al _ start).1 h1
    exact (C15_no_recovery_never_recovers hR hr' .zero ⟨n, h1⟩).elim
  · obtain ⟨j, h1⟩ := (C32_parse_with_recovery al _ start).1 h1
    have h3 := (C15_no_recovery_same hR hr' .zero).1.1 ⟨n, h1⟩
    obtain ⟨h4, h5, exp, place, rfl⟩ := C65_not_late_partial hx hl hN hD hU hF hg hu hf h3
    rcases h2 with h2 | h2
    · cases h2
      exact ⟨x, exp, place, h4, rfl, h5⟩
    · cases h2.1

/-- **C65** (an error is not reported too early): if the grammar is predictive, and the parser, followed
by `end()`, has not asked for any token after the one that it blames, then no sentence agrees with the
input up to and including that token. -/
theorem C65_not_early_partial {ε : ErrTy S} {g : G S N ε α} (H : Predictive ν φ F D) (hg : g.All (plainL S N))
    (hgp : g.All (progressL S N ν)) (hp : g.Predictive ν φ F fun x => x = none) {n x : Nat} {es : List ε.E} {s : Stream S}
    (h : Parses D n (.thenIgnore g .eof) false (Stream.newWithLocation al (fun i => xs[i]?) start) (.failed x es) s)
    (hs : s.pulled ≤ x + 1) {ys : List S.I} (hy : ∀ m, m ≤ x → ys[m]? = xs[m]?) : ¬ Sentence start D g ys := by
  rintro ⟨o, h1⟩
  obtain ⟨j, h2⟩ := (C64_whole_input H hg hgp hp ys start).2 h1
  obtain ⟨s', h3, -⟩ := C36_locality (source' := fun i => ys[i]?) (al' := al) h fun i hi => hy i (by omega)
  have h4 := (G.run_sem (e := onList start ys) D n _ false .new h3).1
  cases (C33_unique .zero h2 ⟨n, (parsesAt_iff .zero).2 h4⟩).1

/-- **C65**: under both conditions, the error is reported exactly where the first mistake is. -/
theorem C65_first_mistake_partial {g : G S N (simpleErr S) α} (hx : ExactPlaces (onList start xs)) (hl : EqLaws S.eqI)
    (hN : ∀ k, N.err k = simpleErr S) (hU : D.All (noUserErrL S N)) (hF : D.All (fruitfulL D))
    (H : Predictive ν φ F D) (hg : g.All (plainL S N)) (hu : g.All (noUserErrL S N)) (hf : g.All (fruitfulL D))
    (hgp : g.All (progressL S N ν)) (hp : g.Predictive ν φ F fun x => x = none) {n x : Nat} {es : List (simpleErr S).E}
    {s : Stream S}
    (h : Parses D n (.thenIgnore g .eof) false (Stream.newWithLocation al (fun i => xs[i]?) start) (.failed x es) s)
    (hs : s.pulled ≤ x + 1) :
    (∃ expected place, es = [.expectedFound expected xs[x]? place]) ∧
      Begun start D g (xs.take x) ∧
      (x < xs.length ∧ ¬ Begun start D g (xs.take (x + 1)) ∨ x = xs.length ∧ ¬ Sentence start D g xs) := by
  have h1 := (G.run_sem (e := onList start xs) D n _ false .new h).1
  obtain ⟨h2, h3, h4⟩ := C65_not_late_partial hx hl hN H.plain hU hF hg hu hf ⟨n, (parsesAt_iff .zero).2 h1⟩
  refine ⟨h4, h3, ?_⟩
  rcases Nat.lt_or_ge x xs.length with h5 | h5
  · refine .inl ⟨h5, fun ⟨qs, h6⟩ => C65_not_early_partial H hg hgp hp h hs (fun m hm => ?_) h6⟩
    rw [List.getElem?_append_left (by rw [List.length_take]; omega), List.getElem?_take_of_lt (by omega)]
  · exact .inr ⟨by omega, C65_not_early_partial H hg hgp hp h hs fun _ _ => rfl⟩

/-! ## The hypotheses can be met -/

theorem exTrees_plain : exTrees.All (noUserErrL exSig exRecNames) := by
  intro k g h; cases h; simp [G.All, noUserErrL, G.NoUserErr]

theorem exTrees_has : HasSentence exTrees exNestedG := fun start ps => by
  refine ⟨[0], 0, ?_⟩
  rw [List.length_append]
  exact .call rfl (.orRight (.just (t := 0) (by simp) rfl))

theorem exTrees_fruitful : exTrees.All (fruitfulL exTrees) := by
  have he : ∀ t : Nat, ∃ t', exSig.eqI t' t = true := fun t => ⟨t, exSig_eqLaws.refl t⟩
  intro k g h
  cases h
  exact ⟨trivial, ⟨trivial, trivial, ⟨trivial, he 4⟩, trivial, he 1, ⟨trivial, exTrees_has, he 3⟩, he 2⟩, he 0⟩

/-- A run that fails, how far it got, and what it has read. -/
theorem exTrees_run : ∃ s, Parses exTrees 20 (.thenIgnore exNestedG .eof) false (exStart [1, 0, 0, 2])
    (.failed 2 [.expectedFound [some 2] (some 0) (.span (2, 3))]) s ∧ s.pulled = 3 := by
  have h1 : ((((.thenIgnore exNestedG .eof : G exSig exRecNames (simpleErr exSig) Nat).prog exTrees 20 false).run
      Stream.step (exStart [1, 0, 0, 2])).map fun x => (x.1, x.2.pulled)) =
      .ok (.failed 2 [.expectedFound [some 2] (some 0) (.span (2, 3))], 3) := by decide +kernel
  cases h2 : ((.thenIgnore exNestedG .eof : G exSig exRecNames (simpleErr exSig) Nat).prog exTrees 20 false).run
      Stream.step (exStart [1, 0, 0, 2]) with
  | ok x =>
    rw [h2] at h1
    obtain ⟨r, s⟩ := x
    simp only [Out.map, Out.ok.injEq, Prod.mk.injEq] at h1
    obtain ⟨rfl, h3⟩ := h1
    exact ⟨s, h2, h3⟩
  | _ => rw [h2] at h1; cases h1

/-- `parse` returns such an error on `1 0 0 2`. -/
example : ∃ x expected place, x ≤ 4 ∧ Begun () exTrees exNestedG ([1, 0, 0, 2].take x) ∧
    parse (simpleErr exSig) ((G.thenIgnore exNestedG .eof).prog exTrees 20) exAlloc (fun i => [1, 0, 0, 2][i]?) () =
      .ok (.error (.expectedFound expected [1, 0, 0, 2][x]? place)) := by
  have hR : RecFreeNames (fun _ => True) exTrees := by
    intro k g _ h; cases h; simp [G.All, noRecL, G.NoRecovery]
  have h : parse (simpleErr exSig) ((G.thenIgnore exNestedG .eof).prog exTrees 20) exAlloc (fun i => [1, 0, 0, 2][i]?) () =
      .ok (.error (.expectedFound [some 2] (some 0) (.span (2, 3)))) := by
    have h0 : ParsesAt (exEnv [1, 0, 0, 2]) exTrees 20 (.thenIgnore exNestedG .eof) true 0
        (.failed 2 [.expectedFound [some 2] (some 0) (.span (2, 3))]) 0 := exParsesAt (by decide +kernel)
    exact (C32_parse_err _ _ _ _ _).2 ⟨_, .inr ⟨_, (C32_parse_with_recovery _ _ _).2 ⟨0, h0⟩⟩, .inl rfl⟩
  obtain ⟨x, exp, place, h1, h2, h3⟩ := C65_parse_partial (.simple _) exSig_eqLaws (fun _ => rfl) exTrees_predictive.plain
    exTrees_plain exTrees_fruitful exTrees_call.1 trivial exTrees_has hR trivial h
  exact ⟨x, exp, place, h1, h3, h2 ▸ h⟩

/-- On `1 0 0 2` the second `0` is blamed, and it is the first mistake. -/
example : Begun () exTrees exNestedG [1, 0] ∧ ¬ Begun () exTrees exNestedG [1, 0, 0] := by
  obtain ⟨s, h1, h2⟩ := exTrees_run
  obtain ⟨-, h3, h4⟩ := C65_first_mistake_partial (.simple _) exSig_eqLaws (fun _ => rfl) exTrees_plain exTrees_fruitful
    exTrees_predictive exTrees_call.1 trivial exTrees_has exTrees_call.2.1 exTrees_call.2.2 h1 (by omega)
  refine ⟨h3, ?_⟩
  rcases h4 with h4 | h4
  · exact h4.2
  · exact absurd h4.1 (by decide)

/-! ## Errors that are reported too early -/

/-- **C65 does not hold** in that the error is where the mistake is: on `1 1 0 0 2 2`, the mistake is in
the inner list, the second `0`, but the inner `1` is blamed, because the outer list forgets the failure
of its item. -/
theorem C65_nested_fails :
    Finishes (exEnv [1, 1, 0, 0, 2, 2]) exTrees (.thenIgnore exNestedG .eof) false 0
      (.failed 1 [.expectedFound [some 2] (some 1) (.span (1, 2))]) 0 ∧
    Begun () exTrees exNestedG [1, 1, 0] := by
  refine ⟨⟨20, exParsesAt (by decide +kernel)⟩, [2, 2], 2, ?_⟩
  have hf : ∀ k, ¬ RepCfg.Full ⟨0, none, false, true⟩ k := by
    rintro k ⟨m, h, _⟩; cases h
  refine .call rfl (.orLeft (.map (o := [1]) (.ignoreThen .orNotNone (.delimitedBy (.just rfl rfl)
    (.separatedBy (.first (hf 0) ?_ (.stop (by decide)))) (.just rfl rfl)))))
  exact .call rfl (.orLeft (.map (o := [0]) (.ignoreThen .orNotNone (.delimitedBy (.just rfl rfl)
    (.separatedBy (.first (hf 0) (.call rfl (.orRight (.just rfl rfl))) (.stop (by decide)))) (.just rfl rfl)))))

/-- Any number of "`n` times `1` and then `2`", and then a `3`. -/
def exLate (n : Nat) : ExG (List Unit × Nat) :=
  .then_ (.repeated ⟨0, none, false, false⟩ (.seq () (List.replicate n 1 ++ [2]))) (.just 3)

/-- **C65 does not hold**, by any distance: on `n` times `1` and then `9`, the first token is blamed,
although all tokens but the last are the beginning of a sentence. -/
theorem C65_early_fails (n : Nat) (hn : 0 < n) :
    (∃ expected j, Finishes (exEnv (List.replicate n 1 ++ [9])) exNoDefs (exLate n) false 0
      (.failed 0 [.expectedFound expected (some 1) (.span (0, 1))]) j) ∧
    Begun () exNoDefs (exLate n) (List.replicate n 1) := by
  have hf : ∀ k, ¬ RepCfg.Full ⟨0, none, false, false⟩ k := by
    rintro k ⟨m, h, _⟩; cases h
  have h0 : (exEnv (List.replicate n 1 ++ [9])).source 0 = some 1 := by
    show (List.replicate n 1 ++ [9])[0]? = _
    rw [List.getElem?_append_left (by simpa using hn), List.getElem?_replicate_of_lt hn]
  have hr : Reports (exEnv (List.replicate n 1 ++ [9])) exNoDefs (exLate n) 0 ⟨0, false, fun x => x = some (3 : Nat)⟩ := by
    refine .thenSecond (x := []) (.repeated (.done (hf 0) (.plain (.seq (k := n) (x := (2 : Nat)) ?_ ?_)) (by decide)))
      (.just ?_)
    · simp
    · intro t ht
      have h1 : (List.replicate n 1 ++ [9])[0 + n]? = some t := ht
      rw [Nat.zero_add, List.getElem?_append_right (by simp)] at h1
      simp at h1
      subst h1; rfl
    · intro t ht
      rw [h0] at ht; cases ht; rfl
  constructor
  · obtain ⟨exp, j, h1, -⟩ := C58_derived_partial (.simple _) exSig_eqLaws (fun k => k.elim) (fun k => k.elim)
      (fun k => k.elim) (g := exLate n) (by simp [exLate, G.All, plainL, G.Plain, G.Tidy])
      (by simp [exLate, G.All, noUserErrL, G.NoUserErr]) .zero hr
    refine ⟨exp, j, ?_⟩
    simp only [Report.place, Bool.false_eq_true, if_false] at h1
    have h2 : (exEnv (List.replicate n 1 ++ [9])).here 0 = ((0, 1) : Nat × Nat) := by
      unfold Env.here Env.next
      rw [h0]; rfl
    rw [h2] at h1
    have h3 : (List.replicate n 1 ++ [9])[0]? = some 1 := h0
    rw [h3] at h1
    exact h1
  · refine ⟨[2, 3], ([()], 3), ?_⟩
    have hl : (List.replicate n 1 ++ [2, 3]).length = 0 + (List.replicate n 1 ++ [2]).length + 1 := by simp
    rw [hl]
    refine .then_ (.repeated (.plain (hf 0) (.seq ?_) (.stop (by decide)))) (.just (t := (3 : Nat)) ?_ rfl)
    · intro k x hk
      refine ⟨x, ?_, exSig_eqLaws.refl x⟩
      show (List.replicate n 1 ++ [2, 3])[0 + k]? = _
      have h1 : k < (List.replicate n 1 ++ [2]).length := (List.getElem?_eq_some_iff.1 hk).1
      rw [Nat.zero_add, show List.replicate n 1 ++ [2, 3] = (List.replicate n 1 ++ [2]) ++ [3] by simp,
        List.getElem?_append_left h1]
      exact hk
    · show (List.replicate n 1 ++ [2, 3])[0 + (List.replicate n 1 ++ [2]).length]? = _
      simp

end PPC.Cfg
