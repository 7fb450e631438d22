import Verif.SemCfg
import Verif.SemPegStep
import Verif.PropsFlag

/-!
# Predictive grammars (C64)

Read as a grammar, a parser describes sentences (`Derives` in SpecCfg): choices have no order and
repetitions are not greedy. What a parser accepts is always a sentence. The converse is what the author
of a grammar expects, and it is false in general; it holds if the next token decides at every choice
(`Predictive`), and then there is only one reading of each sentence.
-/

namespace PPC.Cfg

open PPC

variable {S : Sig} {N : Names S} {e : Env S} {D : Defs S N} {ε : ErrTy S} {α : Type} {g : G S N ε α}
  {i j : Nat} {o : α} {ν : Bool → N.K → Bool} {φ : N.K → S.I → Prop} {F : N.K → Option S.I → Prop}
  {w : Option S.I → Prop} {L : Nat}

/-! ## Theorems -/

/-- **C64.** What a parser accepts, with recovery disabled, is a sentence of its grammar. -/
theorem C64_sound (hD : D.Plain) (hg : g.All (plainL S N)) (hi : Valid e i)
    (h : Finishes e D g false i (.success o) j) : Derives e D g i o j :=
  Accepts.derives hD hg ((C34_accepts hD hg hi).1 h)

/-- **C64.** A parser accepts every sentence of a predictive grammar, with its value, wherever in the
input it stands, if what follows it there is something that may follow it, whether recovery is enabled
or not. -/
theorem C64_complete (H : Predictive ν φ F D) (hL : e.source L = none) (hg : g.All (plainL S N))
    (hgp : g.All (progressL S N ν)) (hp : g.Predictive ν φ F w) (hi : Valid e i) (h : Derives e D g i o j)
    (hw : w (e.source j)) (en : Bool) : Finishes e D g en i (.success o) j := by
  have h1 : Finishes e D g false i (.success o) j :=
    (C34_accepts H.plain hg hi).2 (Derives.accepts H hL hg hgp hp hw hi h)
  cases en with
  | false => exact h1
  | true =>
    obtain ⟨n, h1⟩ := h1
    exact ⟨n, (parsesAt_iff hi).2 (G.sem_sm D n g _ _ _ ((parsesAt_iff hi).1 h1))⟩

/-- **C64.** On a whole input: followed by `end()`, a parser of a predictive grammar accepts the list of
tokens `xs` if and only if `xs` is a sentence, with the value of the sentence. -/
theorem C64_whole_input (H : Predictive ν φ F D) (hg : g.All (plainL S N)) (hgp : g.All (progressL S N ν))
    (hp : g.Predictive ν φ F fun x => x = none) (xs : List S.I) (start : S.L) :
    (∃ j, Finishes ⟨fun i => xs[i]?, start⟩ D (.thenIgnore g .eof) false 0 (.success o) j) ↔
      Derives ⟨fun i => xs[i]?, start⟩ D g 0 o xs.length := by
  have hL : (⟨fun i => xs[i]?, start⟩ : Env S).source xs.length = none := by simp
  have hg' : (G.thenIgnore g .eof).All (plainL S N) := ⟨trivial, hg, trivial⟩
  constructor
  · rintro ⟨j, h⟩
    obtain ⟨m, y, h1, h2⟩ := accepts_iff.1 ((C34_accepts H.plain hg' .zero).1 h)
    obtain ⟨h2, h3⟩ := accepts_iff.1 h2
    have h1 := Accepts.derives H.plain hg h1
    have h4 : m = xs.length := by
      have h5 : xs.length ≤ m := List.getElem?_eq_none_iff.1 h2
      rcases Nat.lt_or_ge xs.length m with h6 | h6
      · have := (Derives.head H.tables h1).1 .zero _ h6
        rw [hL] at this; cases this
      · omega
    exact h4 ▸ h1
  · intro h
    exact ⟨xs.length, (C34_accepts H.plain hg' .zero).2
      (.thenIgnore (Derives.accepts H hL hg hgp hp hL .zero h) (.eof hL))⟩

/-- **C64.** At the entry point: `parse` with such a parser returns `Ok` for every sentence, with its
value. -/
theorem C64_parse (H : Predictive ν φ F D) (hg : g.All (plainL S N)) (hgp : g.All (progressL S N ν))
    (hp : g.Predictive ν φ F fun x => x = none) (xs : List S.I) (start : S.L)
    (h : Derives ⟨fun i => xs[i]?, start⟩ D g 0 o xs.length) (al : Alloc) :
    ∃ n, ∀ m, n ≤ m →
      parse ε ((G.thenIgnore g .eof).prog D m) al (fun i => xs[i]?) start = .ok (.ok o) := by
  obtain ⟨j, n, h1⟩ := (C64_whole_input H hg hgp hp xs start).2 h
  refine ⟨n, fun m hm => (C32_parse_ok _ al _ start o).2 ((C32_parse_with_recovery al _ start).2 ⟨j, ?_⟩)⟩
  exact (parsesAt_iff .zero).2 (G.sem_sm D m _ _ _ _ ((parsesAt_iff .zero).1 (C33_bound_irrelevant .zero hm h1)))

/-- **C64.** So without recovery in the grammar, `parse` decides what is a sentence: it returns, `Ok` with
the value of the sentence if there is one, and `Err` otherwise. -/
theorem C64_decides {R : N.K → Prop} (H : Predictive ν φ F D) (hg : g.All (plainL S N))
    (hgp : g.All (progressL S N ν)) (hp : g.Predictive ν φ F fun x => x = none) (hR : RecFreeNames R D)
    (hr : g.All (noRecL R)) (xs : List S.I) (start : S.L) (al : Alloc) :
    ∃ n, ∀ m, n ≤ m →
      (∃ o, Derives ⟨fun i => xs[i]?, start⟩ D g 0 o xs.length ∧
        parse ε ((G.thenIgnore g .eof).prog D m) al (fun i => xs[i]?) start = .ok (.ok o)) ∨
      ((∀ o, ¬ Derives ⟨fun i => xs[i]?, start⟩ D g 0 o xs.length) ∧
        ∃ x, parse ε ((G.thenIgnore g .eof).prog D m) al (fun i => xs[i]?) start = .ok (.error x)) := by
  by_cases h : ∃ o, Derives ⟨fun i => xs[i]?, start⟩ D g 0 o xs.length
  · obtain ⟨o, h⟩ := h
    obtain ⟨n, h1⟩ := C64_parse H hg hgp hp xs start h al
    exact ⟨n, fun m hm => .inl ⟨o, h, h1 m hm⟩⟩
  · have hL : (⟨fun i => xs[i]?, start⟩ : Env S).source xs.length = none := by simp
    have hg' : (G.thenIgnore g .eof).All (plainL S N) := ⟨trivial, hg, trivial⟩
    rcases decides hL H.plain H.progress H.nullable H.noLeft H.defined (g := .thenIgnore g .eof) hg'
        ⟨trivial, hgp, trivial⟩ .zero with ⟨o, j, h1⟩ | h1
    · exact absurd ⟨o, (C64_whole_input H hg hgp hp xs start).1 ⟨j, (C34_accepts H.plain hg' .zero).2 h1⟩⟩ h
    · obtain ⟨x, es, j, h2⟩ := (C34_rejects H.plain hg' .zero).2 h1
      obtain ⟨n, h3⟩ := (C15_no_recovery_same hR (g := .thenIgnore g .eof) ⟨trivial, hr, trivial⟩ .zero).1.2 h2
      refine ⟨n, fun m hm => .inr ⟨fun o ho => h ⟨o, ho⟩, ?_⟩⟩
      have h4 := (C32_parse_with_recovery al _ start).2 ⟨j, C33_bound_irrelevant .zero hm h3⟩
      cases es with
      | nil => exact ⟨_, (C32_parse_err _ al _ start _).2 ⟨[], .inr ⟨x, h4⟩, .inr ⟨rfl, rfl⟩⟩⟩
      | cons y ys => exact ⟨y, (C32_parse_err _ al _ start y).2 ⟨y :: ys, .inr ⟨x, h4⟩, .inl rfl⟩⟩

/-- **C64.** A predictive grammar is not ambiguous: where a sentence begins, there is only one, and only
one value of it. -/
theorem C64_unambiguous (H : Predictive ν φ F D) (hL : e.source L = none) (hg : g.All (plainL S N))
    (hgp : g.All (progressL S N ν)) (hp : g.Predictive ν φ F w) (hi : Valid e i) {o' : α} {j' : Nat}
    (h : Derives e D g i o j) (hw : w (e.source j)) (h' : Derives e D g i o' j') (hw' : w (e.source j')) :
    o' = o ∧ j' = j :=
  C34_deterministic H.plain hg (Derives.accepts H hL hg hgp hp hw hi h) (Derives.accepts H hL hg hgp hp hw' hi h')

/-! ## The hypotheses can be met -/

/-- Lists: `0`, or items between `1` and `2`, separated by `3`, with an optional `4` in front. The value
is the number of items, at all depths.
`just(4).or_not().ignore_then(value.separated_by(just(3)).delimited_by(just(1), just(2)))
  .map(|xs| sum(xs) + 1).or(just(0))` -/
def exTrees : Defs exSig exRecNames := fun _ => some
  (.or
    (.map (fun xs : List Nat => xs.sum + 1) (.ignoreThen (.orNot (.just 4))
      (.delimitedBy (.just 1) (.separatedBy ⟨0, none, false, true⟩ (.call ()) (.just 3)) (.just 2))))
    (.just 0))

/-- What may follow a list: a separator, a closing bracket, or the end. -/
def exFollow (x : Option Nat) : Prop := x = some 3 ∨ x = some 2 ∨ x = none

theorem exTrees_predictive : Predictive (D := exTrees) (fun _ _ => false) (fun _ (t : Nat) => t = 0 ∨ t = 1 ∨ t = 4)
    (fun _ => exFollow) where
  plain := by
    intro k g h
    cases h
    simp [G.All, plainL, G.Plain, G.Tidy]
  progress := by
    intro k g h
    cases h
    simp [G.All, progressL, G.Progresses, G.mayEmpty]
  nullable := by
    intro k g en h
    cases h
    cases en <;> simp [G.mayEmpty]
  noLeft := by
    refine ⟨fun x => ⟨x, ?_⟩⟩
    rintro y ⟨g, h, hc⟩
    cases h
    simp [G.MayCall, G.mayEmpty] at hc
  defined _ := rfl
  begins := by
    intro k g t h
    cases h
    simp [G.Begins, G.mayEmpty]
    omega
  decided := by
    intro k g h
    cases h
    simp [G.Predictive, G.Begins, G.mayEmpty, Apart, Next, exFollow]

theorem exTrees_call : (exNestedG.All (plainL exSig exRecNames)) ∧
    exNestedG.All (progressL exSig exRecNames fun _ _ => false) ∧
    exNestedG.Predictive (fun _ _ => false) (fun _ (t : Nat) => t = 0 ∨ t = 1 ∨ t = 4) (fun _ => exFollow)
      fun x => x = none :=
  ⟨trivial, trivial, fun _ h => .inr (.inr h)⟩

/-- A sentence, given rule by rule: `4 1 0 3 1 2 3 2`. -/
theorem exTrees_sentence : Derives (exEnv [4, 1, 0, 3, 1, 2, 3, 2]) exTrees exNestedG 0 2 8 := by
  have hf : ∀ k, ¬ RepCfg.Full ⟨0, none, false, true⟩ k := by
    rintro k ⟨m, h, _⟩; cases h
  refine .call rfl (.orLeft (.map (o := [0, 1]) (.ignoreThen (.orNotSome (.just rfl rfl)) (.delimitedBy (.just rfl rfl)
    (.separatedBy (.first (hf 0) (.call rfl (.orRight (.just rfl rfl)))
      (.separated (hf 1) (.inl (by decide)) (.just (t := 3) rfl rfl) ?_
        (.trailing (by decide) rfl (.inl (by decide)) (.just (t := 3) rfl rfl))))) (.just rfl rfl)))))
  exact .call rfl (.orLeft (.map (o := []) (.ignoreThen .orNotNone (.delimitedBy (.just rfl rfl)
    (.separatedBy (.stop (by decide))) (.just rfl rfl)))))

/-- The parser accepts it, with that value, although neither the order of the alternatives nor the
greediness of the repetition was used to derive it. -/
example : ∃ n, ∀ m, n ≤ m → parse (simpleErr exSig) ((G.thenIgnore exNestedG .eof).prog exTrees m) rustAlloc
    (fun i => [4, 1, 0, 3, 1, 2, 3, 2][i]?) () = .ok (.ok 2) :=
  C64_parse exTrees_predictive exTrees_call.1 exTrees_call.2.1 exTrees_call.2.2 [4, 1, 0, 3, 1, 2, 3, 2] ()
    exTrees_sentence rustAlloc

/-- It rejects what is no sentence. -/
example : ∃ n, ∀ m, n ≤ m → ∃ x, parse (simpleErr exSig) ((G.thenIgnore exNestedG .eof).prog exTrees m) rustAlloc
    (fun i => [1, 3, 2][i]?) () = .ok (.error x) := by
  have hR : RecFreeNames (fun _ => True) exTrees := by
    intro k g _ h; cases h; simp [G.All, noRecL, G.NoRecovery]
  obtain ⟨n, h⟩ := C64_decides exTrees_predictive exTrees_call.1 exTrees_call.2.1 exTrees_call.2.2 hR trivial
    [1, 3, 2] () rustAlloc
  refine ⟨n, fun m hm => ?_⟩
  rcases h m hm with ⟨o, h1, -⟩ | h1
  · obtain ⟨j, h2⟩ := (C64_whole_input exTrees_predictive exTrees_call.1 exTrees_call.2.1 exTrees_call.2.2 [1, 3, 2] ()).2 h1
    have h3 : Finishes (exEnv [1, 3, 2]) exTrees (.thenIgnore exNestedG .eof) false 0
        (.failed 1 [.expectedFound [some 2] (some 3) (.span (1, 2))]) 0 := ⟨20, exParsesAt (by decide +kernel)⟩
    cases (C33_unique .zero h2 h3).1
  · exact h1.2

/-! ## Without the condition the claim is false -/

/-- `just(1).to(0).or(just(1).then(just(2)).to(0))`: both alternatives begin with the same token. -/
def exPrefix : ExG Nat := .or (.to (.just 1) 0) (.to (.then_ (.just 1) (.just 2)) 0)

/-- **C64** (why the next token must decide): `1 2` is a sentence, but the parser, followed by `end()`,
does not accept it, because it takes the first alternative. -/
theorem C64_choice_fails : Derives (exEnv [1, 2]) exNoDefs exPrefix 0 0 2 ∧
    ∀ o j, ¬ Finishes (exEnv [1, 2]) exNoDefs (.thenIgnore exPrefix .eof) false 0 (.success o) j := by
  refine ⟨.orRight (.to (.then_ (.just rfl rfl) (.just rfl rfl))), fun o j h => ?_⟩
  have h1 : Finishes (exEnv [1, 2]) exNoDefs (.thenIgnore exPrefix .eof) false 0 (.failed 1
      [(simpleErr exSig).expectedFound [none] (some 2) (.location ((exEnv [1, 2]).locationAt 1))]) 0 :=
    ⟨20, exParsesAt (by decide +kernel)⟩
  cases (C33_unique .zero h h1).1

/-- `just(1).repeated().then(just(1)).to(0)`: what follows the repetition begins like its items. -/
def exGreedy : ExG Nat := .to (.then_ (.repeated ⟨0, none, false, false⟩ (.just 1)) (.just 1)) 0

/-- **C64** (the same for repetitions): `1 1` is a sentence, but the parser does not accept it, because
the repetition takes both tokens. -/
theorem C64_repetition_fails : Derives (exEnv [1, 1]) exNoDefs exGreedy 0 0 2 ∧
    ∀ o j, ¬ Finishes (exEnv [1, 1]) exNoDefs exGreedy false 0 (.success o) j := by
  have hf : ∀ k, ¬ RepCfg.Full ⟨0, none, false, false⟩ k := by
    rintro k ⟨m, h, _⟩; cases h
  refine ⟨.to (.then_ (.repeated (.plain (hf 0) (.just rfl rfl) (.stop (by decide)))) (.just rfl rfl)), fun o j h => ?_⟩
  have h1 : ∃ x es, Finishes (exEnv [1, 1]) exNoDefs exGreedy false 0 (.failed x es) 0 := by
    refine ⟨2, [(simpleErr exSig).expectedFound [some 1] none (.span ((exEnv [1, 1]).here 2))], 20, ?_⟩
    exact exParsesAt (by decide +kernel)
  obtain ⟨x, es, h1⟩ := h1
  cases (C33_unique .zero h h1).1

end PPC.Cfg
