import Verif.PropsMistake

/-!
# Streaming the sentences of a grammar (C66)

`parser.stream(source)` is meant for inputs that are a series of sentences, such as the statements of a
program or the lines of a log: each call of `next` returns the next one. The specification is `Phrases`:
the input is cut into sentences of the grammar (`Derives` in SpecCfg), with no reference to what a parser
does. It holds if the next token tells where a sentence ends and what it is, and not in general.
-/

namespace PPC.Cfg

open PPC

variable {S : Sig} {N : Names S} {e : Env S} {D : Defs S N} {ε : ErrTy S} {α : Type} {g : G S N ε α}
  {i j k : Nat} {o : α} {os os' : List α} {ν : Bool → N.K → Bool} {φ : N.K → S.I → Prop}
  {F : N.K → Option S.I → Prop} {L : Nat}

/-! ## Specification -/

/-- The tokens from `i` up to `k` are sentences of the grammar, one after the other, with the values `os`. -/
inductive Phrases (e : Env S) (D : Defs S N) (g : G S N ε α) : Nat → List α → Nat → Prop
  | nil {i : Nat} : Phrases e D g i [] i
  | cons {i j k : Nat} {o : α} {os : List α} : Derives e D g i o j → Phrases e D g j os k →
      Phrases e D g i (o :: os) k

/-- The same for pieces of the input that are given one by one: after the tokens `ps`, each of the pieces,
if nothing followed it, would be a sentence. -/
inductive Pieces (start : S.L) (D : Defs S N) (g : G S N ε α) : List S.I → List (List S.I) → List α → Prop
  | nil {ps : List S.I} : Pieces start D g ps [] []
  | cons {ps p : List S.I} {pieces : List (List S.I)} {o : α} {os : List α} :
      Derives (onList start (ps ++ p)) D g ps.length o (ps ++ p).length →
      Pieces start D g (ps ++ p) pieces os → Pieces start D g ps (p :: pieces) (o :: os)

/-- What may follow a sentence in a series: the end of the input, or a token that a sentence may begin
with. -/
def Again (ν : Bool → N.K → Bool) (φ : N.K → S.I → Prop) (g : G S N ε α) (x : Option S.I) : Prop :=
  x = none ∨ ∃ t, x = some t ∧ g.Begins ν φ t

/-! ## Auxiliary lemmas -/

theorem Derives.starts (H : Predictive ν φ F D) (hm : g.mayEmpty ν false = false) (h : Derives e D g i o j) :
    i < j ∧ ∃ t, e.source i = Option.some t ∧ g.Begins ν φ t := by
  rcases (Derives.head H.tables h).2 with ⟨-, h1⟩ | h1
  · rw [hm] at h1; cases h1
  · exact h1

theorem Phrases.answers (H : Predictive ν φ F D) (hL : e.source L = none) (hg : g.All (plainL S N))
    (hgp : g.All (progressL S N ν)) (hm : g.mayEmpty ν false = false) (hp : g.Predictive ν φ F (Again ν φ g))
    (h : Phrases e D g i os k) (hi : Valid e i) (hk : Again ν φ g (e.source k)) :
    ∃ n, ∀ m, n ≤ m → Answers e D m g i (os.map fun o => some (.success o)) k := by
  induction h with
  | nil => exact ⟨0, fun m _ => .nil _⟩
  | @cons i j k o os h1 h2 ih =>
    obtain ⟨-, t, h3, -⟩ := Derives.starts H hm h1
    obtain ⟨n, h4⟩ := ih ((Derives.head H.tables h1).1 hi) hk
    have h5 : Again ν φ g (e.source j) := by
      cases h2 with
      | nil => exact hk
      | cons h2 _ => exact .inr (Derives.starts H hm h2).2
    obtain ⟨n', h6⟩ := C64_complete H hL hg hgp hp hi h1 h5 true
    exact ⟨max n n', fun m hm' => .result h3 (C33_bound_irrelevant hi (by omega) h6) (h4 m (by omega))⟩

theorem answers_nones {n : Nat} (h : e.source i = none) (k : Nat) :
    Answers e D n g i (List.replicate k none) i := by
  induction k with
  | zero => exact .nil _
  | succ k ih => exact .eof h ih

theorem Answers.append {n : Nat} {rs rs' : List (Option (Res α ε.E))} (h : Answers e D n g i rs j)
    (h' : Answers e D n g j rs' k) : Answers e D n g i (rs ++ rs') k := by
  induction h with
  | nil => exact h'
  | result h1 h2 _ ih => exact .result h1 h2 (ih h')
  | eof h1 _ ih => exact .eof h1 (ih h')

theorem Pieces.phrases {start : S.L} (hD : D.All (fruitfulL D)) (hg : g.All (fruitfulL D)) {ps : List S.I}
    {pieces : List (List S.I)} (h : Pieces start D g ps pieces os) (qs : List S.I) :
    Phrases (onList start (ps ++ pieces.flatten ++ qs)) D g ps.length os (ps ++ pieces.flatten).length := by
  induction h with
  | nil => simpa using Phrases.nil
  | @cons ps p pieces o os h1 _ ih =>
    rw [List.flatten_cons, ← List.append_assoc]
    refine .cons ((Derives.here _ hD hg h1).2.2 ⟨rfl, fun a ha => ?_⟩) ih
    show (ps ++ p ++ pieces.flatten ++ qs)[a]? = (ps ++ p)[a]?
    rw [List.append_assoc, List.getElem?_append_left ha]

/-! ## Theorems -/

/-- **C66.** If the input is a series of sentences of a predictive grammar, `parser.stream(source)` returns
their values, in order, and then nothing, as often as `next` is called; and nothing is left in its
`tail()`. -/
theorem C66_stream (H : Predictive ν φ F D) (hg : g.All (plainL S N)) (hgp : g.All (progressL S N ν))
    (hm : g.mayEmpty ν false = false) (hp : g.Predictive ν φ F (Again ν φ g)) (xs : List S.I) (start : S.L)
    (h : Phrases (onList start xs) D g 0 os xs.length) :
    ∃ n, ∀ m, n ≤ m → ∀ (al : Alloc) (more l : Nat), ∃ s',
      (streamThenTail (g.prog D m) (os.length + more) l).run Stream.step
        (Stream.newWithLocation al (fun i => xs[i]?) start) =
        .ok ((os.map (fun o => some (.success o)) ++ List.replicate more none, List.replicate l none), s') := by
  have hL : (onList start xs).source xs.length = none := by simp
  obtain ⟨n, h1⟩ := Phrases.answers H hL hg hgp hm hp h .zero (.inl hL)
  refine ⟨n, fun m hm al more l => (C31_stream al _ start _ l _ _).2
    ⟨by simp, xs.length, Answers.append (h1 m hm) (answers_nones hL more), by simp, fun a t => ?_⟩⟩
  constructor
  · intro h2
    have := List.mem_of_getElem? h2
    simp at this
  · rintro ⟨-, -, h2⟩
    simp at h2

/-- **C66.** The same for the beginning of an input: the series may be followed by anything that begins with
a token that may follow a sentence; then the results before it are the sentences, and `tail()` yields the
rest of the tokens. -/
theorem C66_beginning (H : Predictive ν φ F D) (hg : g.All (plainL S N)) (hgp : g.All (progressL S N ν))
    (hm : g.mayEmpty ν false = false) (hp : g.Predictive ν φ F (Again ν φ g)) (xs : List S.I) (start : S.L)
    (h : Phrases (onList start xs) D g 0 os k) (hk : Again ν φ g xs[k]?) :
    ∃ n, ∀ m, n ≤ m → ∀ (al : Alloc), ∃ ts s',
      (streamThenTail (g.prog D m) os.length xs.length).run Stream.step
        (Stream.newWithLocation al (fun i => xs[i]?) start) =
        .ok ((os.map (fun o => some (.success o)), ts), s') ∧ xs.take k ++ ts.filterMap id = xs := by
  have hL : (onList start xs).source xs.length = none := by simp
  obtain ⟨n, h1⟩ := Phrases.answers H hL hg hgp hm hp h .zero hk
  have hk : ∀ {i os k}, Phrases (onList start xs) D g i os k → Valid (onList start xs) i →
      Valid (onList start xs) k := by
    intro i os k h
    induction h with
    | nil => exact id
    | cons h1 _ ih => exact fun hi => ih ((Derives.head H.tables h1).1 hi)
  refine ⟨n, fun m hm al => ?_⟩
  have h2 := tailList_remaining xs.length (hk h .zero)
  obtain ⟨s', h3⟩ := (C31_stream al _ start os.length xs.length _ _).2 ⟨by simp, k, h1 m hm, h2⟩
  exact ⟨_, s', h3, (C31_conserves (h1 m hm) h2 (by omega)).1⟩

/-- **C66.** Conversely, without recovery in the grammar: if the stream returns nothing but values, and then
nothing, the input was a series of sentences, and they are what it returned. This needs no condition on the
choices. -/
theorem C66_only {R : N.K → Prop} (hD : D.Plain) (hg : g.All (plainL S N)) (hR : RecFreeNames R D)
    (hr : g.All (noRecL R)) (xs : List S.I) (start : S.L) {al : Alloc} {m l : Nat} {ts : List (Option S.I)}
    {s' : Stream S}
    (h : (streamThenTail (g.prog D m) (os.length + 1) l).run Stream.step
      (Stream.newWithLocation al (fun i => xs[i]?) start) =
        .ok ((os.map (fun o => some (.success o)) ++ [none], ts), s')) :
    Phrases (onList start xs) D g 0 os xs.length := by
  obtain ⟨-, j, h1, -⟩ := (C31_stream al _ start _ _ _ _).1 ⟨s', h⟩
  have key : ∀ {os : List α} {i j : Nat},
      Answers (onList start xs) D m g i (os.map (fun o => some (.success o)) ++ [none]) j →
      Valid (onList start xs) i → Phrases (onList start xs) D g i os xs.length := by
    intro os
    induction os with
    | nil =>
      intro i j h hi
      have h1 := (C31_ends_for_ever h).1
      have h2 : xs.length ≤ i := List.getElem?_eq_none_iff.1 h1
      have h3 : ¬ xs.length < i := fun h4 => by
        have := hi _ h4
        simp at this
      have h4 : i = xs.length := by omega
      exact h4 ▸ .nil
    | cons o os ih =>
      intro i j h hi
      cases h with
      | result h1 h2 h3 =>
        have h4 := (C15_no_recovery_same hR hr hi).1.1 ⟨m, h2⟩
        exact .cons (C64_sound hD hg hi h4) (ih h3 (h2.valid hi))
  exact key h1 .zero

/-- **C66.** There is only one way to cut an input into sentences of a predictive grammar. -/
theorem C66_unique (H : Predictive ν φ F D) (hL : e.source L = none) (hg : g.All (plainL S N))
    (hgp : g.All (progressL S N ν)) (hm : g.mayEmpty ν false = false) (hp : g.Predictive ν φ F (Again ν φ g))
    (hi : Valid e i) (hk : e.source k = none) (h : Phrases e D g i os k) (h' : Phrases e D g i os' k) : os' = os := by
  induction h generalizing os' with
  | nil =>
    cases h' with
    | nil => rfl
    | cons h1 _ =>
      obtain ⟨-, t, h2, -⟩ := Derives.starts H hm h1
      rw [hk] at h2; cases h2
  | @cons i j k o os h1 h2 ih =>
    have next : ∀ {j : Nat} {os : List α}, Phrases e D g j os k → Again ν φ g (e.source j) := by
      intro j os h
      cases h with
      | nil => exact .inl hk
      | cons h _ => exact .inr (Derives.starts H hm h).2
    cases h' with
    | nil =>
      obtain ⟨-, t, h3, -⟩ := Derives.starts H hm h1
      rw [hk] at h3; cases h3
    | cons h3 h4 =>
      obtain ⟨rfl, rfl⟩ := C64_unambiguous H hL hg hgp hp hi h1 (next h2) h3 (next h4)
      rw [ih ((Derives.head H.tables h1).1 hi) hk h4]

/-- **C66.** For pieces that are given one by one: if each of them would be a sentence where it stands with
nothing after it, streaming all of them together returns their values. -/
theorem C66_pieces (H : Predictive ν φ F D) (hg : g.All (plainL S N)) (hgp : g.All (progressL S N ν))
    (hm : g.mayEmpty ν false = false) (hp : g.Predictive ν φ F (Again ν φ g)) (hF : D.All (fruitfulL D))
    (hf : g.All (fruitfulL D)) (start : S.L) {pieces : List (List S.I)} (h : Pieces start D g [] pieces os) :
    ∃ n, ∀ m, n ≤ m → ∀ (al : Alloc) (more l : Nat), ∃ s',
      (streamThenTail (g.prog D m) (os.length + more) l).run Stream.step
        (Stream.newWithLocation al (fun i => pieces.flatten[i]?) start) =
        .ok ((os.map (fun o => some (.success o)) ++ List.replicate more none, List.replicate l none), s') := by
  have h1 := Pieces.phrases hF hf h []
  simp only [List.nil_append, List.append_nil, List.length_nil] at h1
  exact C66_stream H hg hgp hm hp _ start h1

/-! ## The hypotheses can be met -/

/-- What may follow one of the lists of `exTrees` if there are several of them. -/
def exFollowAgain (x : Option Nat) : Prop := exFollow x ∨ x = some 0 ∨ x = some 1 ∨ x = some 4

theorem exTrees_again : Predictive (D := exTrees) (fun _ _ => false) (fun _ (t : Nat) => t = 0 ∨ t = 1 ∨ t = 4)
    (fun _ => exFollowAgain) :=
  { exTrees_predictive with
    decided := by
      intro k g h
      cases h
      simp [G.Predictive, G.Begins, G.mayEmpty, Apart, Next, exFollow, exFollowAgain] }

theorem exTrees_series : exNestedG.Predictive (fun _ _ => false) (fun _ (t : Nat) => t = 0 ∨ t = 1 ∨ t = 4)
    (fun _ => exFollowAgain) (Again (fun _ _ => false) (fun _ (t : Nat) => t = 0 ∨ t = 1 ∨ t = 4) exNestedG) := by
  rintro x (rfl | ⟨t, rfl, rfl | rfl | rfl⟩) <;> simp [exFollowAgain, exFollow]

/-- Three lists, one after the other: `0`, `4 1 2` and `1 0 2`. -/
theorem exTrees_pieces : Pieces () exTrees exNestedG [] [[0], [4, 1, 2], [1, 0, 2]] [0, 1, 1] := by
  have hf : ∀ k, ¬ RepCfg.Full ⟨0, none, false, true⟩ k := by
    rintro k ⟨m, h, _⟩; cases h
  refine .cons (.call rfl (.orRight (.just rfl rfl))) (.cons ?_ (.cons ?_ .nil))
  · exact .call rfl (.orLeft (.map (o := []) (.ignoreThen (.orNotSome (.just rfl rfl)) (.delimitedBy (.just rfl rfl)
      (.separatedBy (.stop (by decide))) (.just rfl rfl)))))
  · exact .call rfl (.orLeft (.map (o := [0]) (.ignoreThen .orNotNone (.delimitedBy (.just rfl rfl)
      (.separatedBy (.first (hf 0) (.call rfl (.orRight (.just rfl rfl))) (.stop (by decide)))) (.just rfl rfl)))))

/-- The stream returns their values and ends. -/
example : ∃ n, ∀ m, n ≤ m → ∃ s', (streamThenTail ((exNestedG).prog exTrees m) 5 1).run Stream.step
    (Stream.newWithLocation rustAlloc (fun i => [0, 4, 1, 2, 1, 0, 2][i]?) ()) =
      .ok (([some (.success 0), some (.success 1), some (.success 1), none, none], [none]), s') := by
  obtain ⟨n, h⟩ := C66_pieces exTrees_again exTrees_call.1 exTrees_call.2.1 rfl exTrees_series exTrees_fruitful
    exTrees_has () exTrees_pieces
  exact ⟨n, fun m hm => h m hm rustAlloc 2 1⟩

/-- And what it returned tells how the input is cut. -/
example : Phrases (exEnv [0, 4, 1, 2, 1, 0, 2]) exTrees exNestedG 0 [0, 1, 1] 7 := by
  have hR : RecFreeNames (fun _ => True) exTrees := by
    intro k g _ h; cases h; simp [G.All, noRecL, G.NoRecovery]
  obtain ⟨n, h⟩ := C66_pieces exTrees_again exTrees_call.1 exTrees_call.2.1 rfl exTrees_series exTrees_fruitful
    exTrees_has () exTrees_pieces
  obtain ⟨s', h⟩ := h n (Nat.le_refl _) rustAlloc 1 0
  exact C66_only exTrees_predictive.plain exTrees_call.1 hR trivial _ () h

/-- A series at the beginning of `0 4 1 2 1 0 0`, which is cut off by a mistake in the third list. -/
example : ∃ n, ∀ m, n ≤ m → ∀ al, ∃ ts s', (streamThenTail ((exNestedG).prog exTrees m) 2 7).run Stream.step
    (Stream.newWithLocation al (fun i => [0, 4, 1, 2, 1, 0, 0][i]?) ()) =
      .ok (([some (.success 0), some (.success 1)], ts), s') ∧
      [0, 4, 1, 2] ++ ts.filterMap id = [0, 4, 1, 2, 1, 0, 0] := by
  have h : Phrases (exEnv [0, 4, 1, 2, 1, 0, 0]) exTrees exNestedG 0 [0, 1] 4 := by
    refine .cons (.call rfl (.orRight (.just rfl rfl))) (.cons ?_ .nil)
    exact .call rfl (.orLeft (.map (o := []) (.ignoreThen (.orNotSome (.just rfl rfl)) (.delimitedBy (.just rfl rfl)
      (.separatedBy (.stop (by decide))) (.just rfl rfl)))))
  exact C66_beginning exTrees_again exTrees_call.1 exTrees_call.2.1 rfl exTrees_series _ () h
    (.inr ⟨1, rfl, .inr (.inl rfl)⟩)

/-- The cut is the only one. -/
example {os : List Nat} (h : Phrases (exEnv [0, 4, 1, 2, 1, 0, 2]) exTrees exNestedG 0 os 7) : os = [0, 1, 1] := by
  have h1 := Pieces.phrases (g := exNestedG) exTrees_fruitful exTrees_has exTrees_pieces []
  exact C66_unique (e := exEnv [0, 4, 1, 2, 1, 0, 2]) (L := 7) exTrees_again rfl exTrees_call.1 exTrees_call.2.1 rfl
    exTrees_series .zero rfl h1 h

/-! ## Without the condition the claim is false -/

/-- **C66** (why the next token must decide): `1 2 1` is a series of two sentences of
`just(1).or(just(1).then(just(2)))`, but the second answer of the stream is an error, and so are all
answers after it. -/
theorem C66_choice_fails : Phrases (exEnv [1, 2, 1]) exNoDefs exPrefix 0 [0, 0] 3 ∧
    ∀ more, ∃ es s', (streamThenTail (exPrefix.prog exNoDefs 20) (more + 1) 0).run Stream.step
      (Stream.newWithLocation rustAlloc (fun i => [1, 2, 1][i]?) ()) =
        .ok ((some (.success 0) :: List.replicate more (some (.failed 1 es)), []), s') := by
  refine ⟨.cons (.orRight (.to (.then_ (.just rfl rfl) (.just rfl rfl)))) (.cons (.orLeft (.to (.just rfl rfl))) .nil),
    fun more => ?_⟩
  have h1 : ParsesAt (exEnv [1, 2, 1]) exNoDefs 20 exPrefix true 0 (.success 0) 1 := exParsesAt (by decide +kernel)
  have h2 : ParsesAt (exEnv [1, 2, 1]) exNoDefs 20 exPrefix true 1
      (.failed 1 [.expectedFound [some 1] (some 2) (.span (1, 2))]) 1 := (parsesAt_iff (h1.valid .zero)).2 rfl
  have h3 : ∀ more, Answers (exEnv [1, 2, 1]) exNoDefs 20 exPrefix 1 (List.replicate more
      (some (.failed 1 [.expectedFound [some 1] (some 2) (.span (1, 2))]))) 1 := by
    intro more
    induction more with
    | zero => exact .nil _
    | succ more ih => exact .result rfl h2 ih
  have h5 : Answers (exEnv [1, 2, 1]) exNoDefs 20 exPrefix 0 _ 1 := .result rfl h1 (h3 more)
  obtain ⟨s', h4⟩ :=
    (C31_stream (g := exPrefix) (D := exNoDefs) (n := 20) rustAlloc (fun i => [1, 2, 1][i]?) () _ 0 _ []).2 ⟨rfl, 1, h5, rfl, by simp⟩
  rw [List.length_cons, List.length_replicate] at h4
  exact ⟨_, s', h4⟩

end PPC.Cfg
