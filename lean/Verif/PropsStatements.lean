import Verif.SemStatements

/-!
# A mistake in one statement does not affect the others (C68)

The usual way to recover is to skip to the end of the statement in which the mistake is: for a parser `body`
of statements that end with the token `q`, `body.then_ignore(just(q))` with the strategy
`find(|t| t == q).skip().just_return(v)`. The specification is `Statements`: the input is cut at the
terminators, and each piece is a sentence of the grammar (`Derives` in SpecCfg) or it is not. Streaming then
returns one result for each piece, and it depends only on the piece.
-/

namespace PPC.Cfg

open PPC

variable {S : Sig} {N : Names S} {e : Env S} {D : Defs S N} {ε : ErrTy S} {α : Type} {body : G S N ε α} {q : S.I}
  {i j k n : Nat} {o v : α} {os : List (Option α)} {ν : Bool → N.K → Bool} {φ : N.K → S.I → Prop}
  {F : N.K → Option S.I → Prop} {L : Nat} {R : N.K → Prop}

/-! ## Specification -/

/-- `body.then_ignore(just(q)).to_recover(find(|t| t == q).skip().just_return(v))`: a parser that recovers by
skipping to the terminator and over it, with the value `v` (src/combinator.rs `ThenIgnore`, `ToRecover`;
src/recovery.rs 606, 709, 1607: `skip`, `find`, `just_return`). -/
def statement (body : G S N ε α) (q : S.I) (v : α) : G S N ε α :=
  .toRecover (.thenIgnore body (.just q)) (.ret (.skip (.find .attemptTo fun t => S.eqI t q)) v)

/-- The tokens from `i` up to `j` are there, none of them is a terminator, and the token at `j` is one. -/
def Piece (e : Env S) (q : S.I) (i j : Nat) : Prop :=
  i ≤ j ∧ (∀ a, i ≤ a → a < j → ∃ t, e.source a = some t ∧ S.eqI t q = false) ∧
    ∃ t, e.source j = some t ∧ S.eqI t q = true

/-- The tokens from `i` on are there up to `j`, where the input ends, and none of them is a terminator. -/
def Unfinished (e : Env S) (q : S.I) (i j : Nat) : Prop :=
  i < j ∧ (∀ a, i ≤ a → a < j → ∃ t, e.source a = some t ∧ S.eqI t q = false) ∧ e.source j = none

/-- The tokens from `i` up to `k` are pieces with their terminators; the last piece may be without one if the
input ends there. For each piece, `os` has the value of a piece that is a sentence of `body`, and `none` for a
piece that is not or has no terminator. -/
inductive Statements (e : Env S) (D : Defs S N) (body : G S N ε α) (q : S.I) : Nat → List (Option α) → Nat → Prop
  | nil {i : Nat} : Statements e D body q i [] i
  | right {i j k : Nat} {o : α} {os : List (Option α)} : Piece e q i j → Derives e D body i o j →
      Statements e D body q (j + 1) os k → Statements e D body q i (some o :: os) k
  | wrong {i j k : Nat} {os : List (Option α)} : Piece e q i j → (∀ o, ¬ Derives e D body i o j) →
      Statements e D body q (j + 1) os k → Statements e D body q i (none :: os) k
  | unfinished {i k : Nat} : Unfinished e q i k → Statements e D body q i [none] k

/-- What the results say about the pieces: success with the value of a sentence, or recovery with the
value `v` and some errors for everything else. -/
inductive Told {E : Type} (v : α) : List (Option α) → List (Option (Res α E)) → Prop
  | nil : Told v [] []
  | right {o : α} {os : List (Option α)} {rs : List (Option (Res α E))} : Told v os rs →
      Told v (some o :: os) (some (.success o) :: rs)
  | wrong {es : List E} {os : List (Option α)} {rs : List (Option (Res α E))} : Told v os rs →
      Told v (none :: os) (some (.recovered v es) :: rs)

/-- Terminators. -/
def IsTerm (q : S.I) (x : Option S.I) : Prop := ∃ t, x = some t ∧ S.eqI t q = true

/-! ## Auxiliary lemmas -/

theorem Piece.valid (h : Piece e q i j) (hi : Valid e i) : Valid e j := fun a ha => by
  by_cases h1 : a < i
  · exact hi a h1
  · obtain ⟨t, h2, -⟩ := h.2.1 a (by omega) ha
    rw [h2]; rfl

theorem Piece.first (h : Piece e q i j) : FirstHit e (fun t => S.eqI t q) i j := ⟨h.1, h.2.1, .inr h.2.2⟩

theorem Piece.unique (h : Piece e q i j) (h' : Piece e q i k) : k = j := by
  rcases Nat.lt_trichotomy j k with h1 | h1 | h1
  · obtain ⟨t, h2, h3⟩ := h'.2.1 j h.1 h1
    obtain ⟨t', h4, h5⟩ := h.2.2
    rw [h2] at h4; cases h4; rw [h3] at h5; cases h5
  · exact h1.symm
  · obtain ⟨t, h2, h3⟩ := h.2.1 k h'.1 h1
    obtain ⟨t', h4, h5⟩ := h'.2.2
    rw [h2] at h4; cases h4; rw [h3] at h5; cases h5

/-! ## Theorems -/

/-- **C68.** A statement that is right is parsed, with its value and without errors. -/
theorem C68_right (H : Predictive ν φ F D) (hL : e.source L = none) (hg : body.All (plainL S N))
    (hgp : body.All (progressL S N ν)) (hp : body.Predictive ν φ F (IsTerm q)) (hi : Valid e i) (h : Piece e q i j)
    (h' : Derives e D body i o j) : Finishes e D (statement body q v) true i (.success o) (j + 1) := by
  obtain ⟨t, h1, h2⟩ := h.2.2
  have h3 : Accepts e D (.thenIgnore body (.just q)) i o (j + 1) :=
    .thenIgnore (Derives.accepts H hL hg hgp hp ⟨t, h1, h2⟩ hi h') (.just h1 h2)
  obtain ⟨n, h4⟩ := (C34_accepts H.plain (g := .thenIgnore body (.just q)) ⟨trivial, hg, trivial⟩ hi).2 h3
  exact ⟨n, C26_unaffected hi (fun x es h => by cases h)
    ((parsesAt_iff hi).2 (G.sem_sm D n _ _ _ _ ((parsesAt_iff hi).1 h4)))⟩

/-- What the strategy does after a failure. -/
theorem statement_recovers (hg : (G.thenIgnore body (.just q)).All (plainL S N)) (hD : D.Plain)
    (hR : RecFreeNames R D) (hr : body.All (noRecL R)) (hi : Valid e i)
    (h1 : Rejects e D (.thenIgnore body (.just q)) i) (h : FirstHit e (fun t => S.eqI t q) i j) :
    ∃ x es, Finishes e D (.thenIgnore body (.just q)) false i (.failed x es) i ∧
      Finishes e D (statement body q v) true i (.recovered v es) (e.stepOver j) := by
  have hr' : (G.thenIgnore body (.just q)).All (noRecL R) := ⟨trivial, hr, trivial⟩
  obtain ⟨x, es, k, n, h2⟩ := (C34_rejects hD hg hi).2 h1
  have hrf : ∀ n, RF ((G.thenIgnore body (.just q)).sem e D n) := fun n => G.rf (callSem_rf hR n) n _ hr'
  have h3 : k = i := ((hrf n).fr _ _ _ _ ((parsesAt_iff hi).1 h2)).1 _ _ rfl |>.1
  subst h3
  refine ⟨x, es, ⟨n, h2⟩, max n (j + 1), ?_⟩
  have h3 : ParsesAt e D (max n (j + 1)) (.thenIgnore body (.just q)) true k (.failed x es) k :=
    (parsesAt_iff hi).2 (((hrf _).eq k).trans ((parsesAt_iff hi).1 (C33_bound_irrelevant hi (by omega) h2)))
  refine (C26_recovers hi fun x' es' j' h4 => ?_).2 (.inr ⟨x, es, ⟨x, es, e.stepOver j⟩, h3, ?_, rfl, rfl⟩)
  · have := C33_unique hi ⟨_, h4⟩ ⟨_, h3⟩
    simp_all
  · refine .inr ⟨_, .inr ⟨_, .inr ⟨_, ⟨rfl, rfl⟩, rfl, j, h, ?_, rfl⟩, rfl, rfl⟩, rfl, rfl⟩
    simp only [id]; omega

/-- **C68.** A statement that is wrong is skipped, with its terminator and nothing else; the result is the
value of the strategy, and its errors are those of the parser for the statement, without the strategy. -/
theorem C68_wrong (H : Predictive ν φ F D) (hL : e.source L = none) (hg : body.All (plainL S N))
    (hgp : body.All (progressL S N ν)) (hR : RecFreeNames R D) (hr : body.All (noRecL R))
    (hA : D.All (avoidsL S N q)) (ha : body.All (avoidsL S N q)) (hi : Valid e i) (h : Piece e q i j)
    (h' : ∀ o, ¬ Derives e D body i o j) :
    ∃ x es, Finishes e D (.thenIgnore body (.just q)) false i (.failed x es) i ∧
      Finishes e D (statement body q v) true i (.recovered v es) (j + 1) := by
  have hg' : (G.thenIgnore body (.just q)).All (plainL S N) := ⟨trivial, hg, trivial⟩
  rcases decides hL H.plain H.progress H.nullable H.noLeft H.defined hg' ⟨trivial, hgp, trivial⟩ hi with
    ⟨o, k, h1⟩ | h1
  · obtain ⟨m, y, h2, h3⟩ := accepts_iff.1 h1
    obtain ⟨h3, -, -⟩ := accepts_iff.1 h3
    have h4 := Accepts.derives H.plain hg h2
    have h5 := Derives.avoids hA ha h4
    have h6 : m = j := h.unique ⟨h5.1, h5.2, h3⟩
    exact (h' o (h6 ▸ h4)).elim
  · have h2 : e.stepOver j = j + 1 := by
      obtain ⟨t, h4, -⟩ := h.2.2
      simp [Env.stepOver, h4]
    exact h2 ▸ statement_recovers hg' H.plain hR hr hi h1 h.first

/-- **C68.** If the input ends before the terminator of a statement, everything up to the end is skipped, also
if it is a sentence; the result is as for other statements that are wrong. -/
theorem C68_unfinished (H : Predictive ν φ F D) (hg : body.All (plainL S N))
    (hgp : body.All (progressL S N ν)) (hR : RecFreeNames R D) (hr : body.All (noRecL R))
    (hA : D.All (avoidsL S N q)) (ha : body.All (avoidsL S N q)) (hi : Valid e i) (h : Unfinished e q i j) :
    ∃ x es, Finishes e D (.thenIgnore body (.just q)) false i (.failed x es) i ∧
      Finishes e D (statement body q v) true i (.recovered v es) j := by
  have hg' : (G.thenIgnore body (.just q)).All (plainL S N) := ⟨trivial, hg, trivial⟩
  rcases decides h.2.2 H.plain H.progress H.nullable H.noLeft H.defined hg' ⟨trivial, hgp, trivial⟩ hi with
    ⟨o, k, h1⟩ | h1
  · obtain ⟨m, y, h2, h3⟩ := accepts_iff.1 h1
    obtain ⟨⟨t, h3, h4⟩, -, -⟩ := accepts_iff.1 h3
    have h5 := Derives.avoids hA ha (Accepts.derives H.plain hg h2)
    by_cases h6 : m < j
    · obtain ⟨t', h7, h8⟩ := h.2.1 m h5.1 h6
      rw [h3] at h7; cases h7; rw [h4] at h8; cases h8
    · rcases Nat.lt_or_eq_of_le (Nat.le_of_not_lt h6) with h7 | h7
      · obtain ⟨t', h8, -⟩ := h5.2 j (Nat.le_of_lt h.1) h7
        rw [h.2.2] at h8; cases h8
      · rw [← h7, h.2.2] at h3; cases h3
  · have h2 : e.stepOver j = j := by simp [Env.stepOver, h.2.2]
    exact h2 ▸ statement_recovers hg' H.plain hR hr hi h1 ⟨Nat.le_of_lt h.1, h.2.1, .inl h.2.2⟩

theorem Statements.answers (H : Predictive ν φ F D) (hL : e.source L = none) (hg : body.All (plainL S N))
    (hgp : body.All (progressL S N ν)) (hp : body.Predictive ν φ F (IsTerm q)) (hR : RecFreeNames R D)
    (hr : body.All (noRecL R)) (hA : D.All (avoidsL S N q)) (ha : body.All (avoidsL S N q))
    (h : Statements e D body q i os k) (hi : Valid e i) :
    ∃ n rs, Told v os rs ∧ ∀ m, n ≤ m → Answers e D m (statement body q v) i rs k := by
  have head : ∀ {i j}, Piece e q i j → ∃ t, e.source i = some t := by
    intro i j h
    rcases Nat.lt_or_eq_of_le h.1 with h1 | h1
    · obtain ⟨t, h2, -⟩ := h.2.1 i (Nat.le_refl _) h1
      exact ⟨t, h2⟩
    · obtain ⟨t, h2, -⟩ := h.2.2
      exact ⟨t, h1 ▸ h2⟩
  have next : ∀ {i j}, Piece e q i j → Valid e i → Valid e (j + 1) := by
    intro i j h hi a ha
    rcases Nat.lt_succ_iff_lt_or_eq.1 ha with h1 | h1
    · exact h.valid hi a h1
    · obtain ⟨t, h2, -⟩ := h.2.2
      rw [h1, h2]; rfl
  induction h with
  | nil => exact ⟨0, [], .nil, fun m _ => .nil _⟩
  | @right i j k o os h1 h2 _ ih =>
    obtain ⟨n, rs, h3, h4⟩ := ih (next h1 hi)
    obtain ⟨n', h5⟩ := C68_right (v := v) H hL hg hgp hp hi h1 h2
    exact ⟨max n n', _, .right h3, fun m hm =>
      .result (head h1).choose_spec (C33_bound_irrelevant hi (by omega) h5) (h4 m (by omega))⟩
  | @wrong i j k os h1 h2 _ ih =>
    obtain ⟨n, rs, h3, h4⟩ := ih (next h1 hi)
    obtain ⟨x, es, -, n', h5⟩ := C68_wrong (v := v) H hL hg hgp hR hr hA ha hi h1 h2
    exact ⟨max n n', _, .wrong h3, fun m hm =>
      .result (head h1).choose_spec (C33_bound_irrelevant hi (by omega) h5) (h4 m (by omega))⟩
  | @unfinished i k h1 =>
    obtain ⟨x, es, -, n', h5⟩ := C68_unfinished (v := v) H hg hgp hR hr hA ha hi h1
    obtain ⟨t, h6, -⟩ := h1.2.1 i (Nat.le_refl _) h1.1
    exact ⟨n', _, .wrong .nil, fun m hm => .result h6 (C33_bound_irrelevant hi hm h5) (.nil _)⟩

/-- **C68.** Streaming an input of statements returns one result for each of them: its value if it is right,
and a recovery with the value of the strategy if it is wrong, whatever the other statements are; then nothing,
as often as `next` is called. -/
theorem C68_stream (H : Predictive ν φ F D) (hg : body.All (plainL S N)) (hgp : body.All (progressL S N ν))
    (hp : body.Predictive ν φ F (IsTerm q)) (hR : RecFreeNames R D) (hr : body.All (noRecL R))
    (hA : D.All (avoidsL S N q)) (ha : body.All (avoidsL S N q)) (v : α) (xs : List S.I) (start : S.L)
    (h : Statements (onList start xs) D body q 0 os xs.length) :
    ∃ n rs, Told v os rs ∧ ∀ m, n ≤ m → ∀ (al : Alloc) (more l : Nat), ∃ s',
      (streamThenTail ((statement body q v).prog D m) (rs.length + more) l).run Stream.step
        (Stream.newWithLocation al (fun i => xs[i]?) start) =
        .ok ((rs ++ List.replicate more none, List.replicate l none), s') := by
  have hL : (onList start xs).source xs.length = none := by simp
  obtain ⟨n, rs, h0, h1⟩ := Statements.answers (v := v) H hL hg hgp hp hR hr hA ha h .zero
  refine ⟨n, rs, h0, fun m hm al more l => (C31_stream al _ start _ l _ _).2
    ⟨by simp, xs.length, Answers.append (h1 m hm) (answers_nones hL more), by simp, fun a t => ?_⟩⟩
  constructor
  · intro h2
    have := List.mem_of_getElem? h2
    simp at this
  · rintro ⟨-, -, h2⟩
    simp at h2

/-- **C68.** Every input is a series of statements, right or wrong. -/
theorem C68_cut (D : Defs S N) (body : G S N ε α) (q : S.I) (start : S.L) (xs : List S.I) :
    ∃ os, Statements (onList start xs) D body q 0 os xs.length := by
  have hsome : ∀ {i}, (h : i < xs.length) → (onList start xs).source i = some xs[i] := fun h =>
    List.getElem?_eq_getElem h
  have hcut : ∀ d i, i + d = xs.length → i < xs.length →
      (∃ j, j < xs.length ∧ Piece (onList start xs) q i j) ∨ Unfinished (onList start xs) q i xs.length := by
    intro d
    induction d with
    | zero => intro i h1 h2; omega
    | succ d ih =>
      intro i h1 h2
      cases h3 : S.eqI xs[i] q with
      | true => exact .inl ⟨i, h2, Nat.le_refl _, fun a h4 h5 => by omega, _, hsome h2, h3⟩
      | false =>
        have one : ∀ {j}, (∀ a, i + 1 ≤ a → a < j → ∃ t, (onList start xs).source a = some t ∧ S.eqI t q = false) →
            ∀ a, i ≤ a → a < j → ∃ t, (onList start xs).source a = some t ∧ S.eqI t q = false := by
          intro j h a h4 h5
          by_cases h6 : a = i
          · subst h6; exact ⟨_, hsome h2, h3⟩
          · exact h a (by omega) h5
        by_cases h4 : i + 1 < xs.length
        · rcases ih (i + 1) (by omega) h4 with ⟨j, h5, h6, h7, h8⟩ | ⟨-, h7, h8⟩
          · exact .inl ⟨j, h5, by omega, one h7, h8⟩
          · exact .inr ⟨h2, one h7, h8⟩
        · exact .inr ⟨h2, one fun a h5 h6 => by omega, by simp⟩
  have : ∀ d i, i + d = xs.length → ∃ os, Statements (onList start xs) D body q i os xs.length := by
    intro d
    induction d using Nat.strongRecOn with
    | ind d ih =>
      intro i hi
      by_cases h1 : i = xs.length
      · subst h1; exact ⟨[], .nil⟩
      · rcases hcut d i hi (by omega) with ⟨j, h2, h3⟩ | h3
        · have h3' := h3.1
          obtain ⟨os, h4⟩ := ih (xs.length - (j + 1)) (by omega) (j + 1) (by omega)
          by_cases h5 : ∃ o, Derives (onList start xs) D body i o j
          · exact ⟨_, .right h3 h5.choose_spec h4⟩
          · exact ⟨_, .wrong h3 (fun o h6 => h5 ⟨o, h6⟩) h4⟩
        · exact ⟨_, .unfinished h3⟩
  exact this xs.length 0 (by omega)

theorem Piece.finished (h : Piece e q i j) : ¬ Unfinished e q i k := fun h' => by
  obtain ⟨t, h1, h2⟩ := h.2.2
  by_cases h3 : j < k
  · obtain ⟨t', h4, h5⟩ := h'.2.1 j h.1 h3
    rw [h1] at h4; cases h4; rw [h2] at h5; cases h5
  · rcases Nat.lt_or_eq_of_le (Nat.le_of_not_lt h3) with h4 | h4
    · obtain ⟨t', h5, -⟩ := h.2.1 k (Nat.le_of_lt h'.1) h4
      rw [h'.2.2] at h5; cases h5
    · rw [← h4, h'.2.2] at h1; cases h1

/-- **C68.** It is so in one way only: the results that are right are determined by the input. -/
theorem C68_unique (H : Predictive ν φ F D) (hL : e.source L = none) (hg : body.All (plainL S N))
    (hgp : body.All (progressL S N ν)) (hp : body.Predictive ν φ F (IsTerm q)) (hi : Valid e i)
    (hk : e.source k = none) (h : Statements e D body q i os k) {os' : List (Option α)}
    (h' : Statements e D body q i os' k) : os' = os := by
  have next : ∀ {i j}, Piece e q i j → Valid e i → Valid e (j + 1) := by
    intro i j h hi a ha
    rcases Nat.lt_succ_iff_lt_or_eq.1 ha with h1 | h1
    · exact h.valid hi a h1
    · obtain ⟨t, h2, -⟩ := h.2.2
      rw [h1, h2]; rfl
  have noPiece : ∀ {i j}, e.source i = none → ¬ Piece e q i j := by
    intro i j h1 h
    rcases Nat.lt_or_eq_of_le h.1 with h2 | h2
    · obtain ⟨t, h3, -⟩ := h.2.1 i (Nat.le_refl _) h2
      rw [h1] at h3; cases h3
    · obtain ⟨t, h3, -⟩ := h.2.2
      rw [← h2, h1] at h3; cases h3
  induction h generalizing os' with
  | nil =>
    cases h' with
    | nil => rfl
    | right h1 _ _ => exact (noPiece hk h1).elim
    | wrong h1 _ _ => exact (noPiece hk h1).elim
    | unfinished h1 => exact absurd h1.1 (Nat.lt_irrefl _)
  | @right i j k o os h1 h2 _ ih =>
    cases h' with
    | nil => exact (noPiece hk h1).elim
    | @right _ j' _ o' os' h3 h4 h5 =>
      obtain rfl := h1.unique h3
      obtain ⟨rfl, -⟩ := C64_unambiguous H hL hg hgp hp hi h2 h1.2.2 h4 h1.2.2
      rw [ih (next h1 hi) hk h5]
    | @wrong _ j' _ os' h3 h4 h5 =>
      obtain rfl := h1.unique h3
      exact (h4 _ h2).elim
    | unfinished h3 => exact (h1.finished h3).elim
  | @wrong i j k os h1 h2 _ ih =>
    cases h' with
    | nil => exact (noPiece hk h1).elim
    | @right _ j' _ o' os' h3 h4 h5 =>
      obtain rfl := h1.unique h3
      exact (h2 _ h4).elim
    | @wrong _ j' _ os' h3 h4 h5 =>
      obtain rfl := h1.unique h3
      rw [ih (next h1 hi) hk h5]
    | unfinished h3 => exact (h1.finished h3).elim
  | @unfinished i k h1 =>
    cases h' with
    | nil => exact absurd h1.1 (Nat.lt_irrefl _)
    | right h3 _ _ => exact (h3.finished h1).elim
    | wrong h3 _ _ => exact (h3.finished h1).elim
    | unfinished _ => rfl

/-! ## The hypotheses can be met -/

/-- What may follow one of the lists of `exTrees` if the terminator is `5`. -/
def exFollowTerm (x : Option Nat) : Prop := exFollow x ∨ x = some 5

theorem exTrees_term : Predictive (D := exTrees) (fun _ _ => false) (fun _ (t : Nat) => t = 0 ∨ t = 1 ∨ t = 4)
    (fun _ => exFollowTerm) :=
  { exTrees_predictive with
    decided := by
      intro k g h
      cases h
      simp [G.Predictive, G.Begins, G.mayEmpty, Apart, Next, exFollow, exFollowTerm] }

theorem exTrees_ends : exNestedG.Predictive (fun _ _ => false) (fun _ (t : Nat) => t = 0 ∨ t = 1 ∨ t = 4)
    (fun _ => exFollowTerm) (IsTerm (S := exSig) 5) := by
  rintro x ⟨t, rfl, h⟩
  exact .inr (congrArg some (by simpa [exSig] using h))

theorem exTrees_avoids : exTrees.All (avoidsL exSig exRecNames 5) := by
  intro k g h
  cases h
  have he : ∀ a : Nat, a ≠ 5 → (G.just a : G exSig exRecNames (simpleErr exSig) Nat).All (avoidsL exSig exRecNames 5) := by
    intro a ha t h
    have h1 : t = 5 := by simpa [exSig] using h
    subst h1
    simpa [exSig] using Ne.symm ha
  exact ⟨trivial, ⟨trivial, trivial, ⟨trivial, he 4 (by decide)⟩, trivial, he 1 (by decide), ⟨trivial, trivial, he 3 (by decide)⟩,
    he 2 (by decide)⟩, he 0 (by decide)⟩

/-- Three statements, `0`, `1 0 0` and `4 1 2`, of which the second is wrong. -/
theorem exTrees_statements : Statements (exEnv [0, 5, 1, 0, 0, 5, 4, 1, 2, 5]) exTrees exNestedG 5 0
    [some 0, none, some 1] 10 := by
  have hv : Valid (exEnv [0, 5, 1, 0, 0, 5, 4, 1, 2, 5]) 2 := by
    intro a ha
    match a, ha with
    | 0, _ => rfl
    | 1, _ => rfl
  refine .right (j := 1) ⟨by decide, ?_, 5, rfl, rfl⟩ (.call rfl (.orRight (.just rfl rfl)))
    (.wrong (j := 5) ⟨by decide, ?_, 5, rfl, rfl⟩ ?_
    (.right (j := 9) ⟨by decide, ?_, 5, rfl, rfl⟩ ?_ .nil))
  · intro a h1 h2
    match a, h1, h2 with
    | 0, _, _ => exact ⟨0, rfl, rfl⟩
  · intro a h1 h2
    match a, h1, h2 with
    | 2, _, _ => exact ⟨1, rfl, rfl⟩
    | 3, _, _ => exact ⟨0, rfl, rfl⟩
    | 4, _, _ => exact ⟨0, rfl, rfl⟩
  · intro o h
    have h1 := C64_complete (L := 10) exTrees_term rfl exTrees_call.1 exTrees_call.2.1 exTrees_ends hv h ⟨5, rfl, rfl⟩ false
    have h2 : ParsesAt (exEnv [0, 5, 1, 0, 0, 5, 4, 1, 2, 5]) exTrees 20 exNestedG false 2
        (.failed 4 [.expectedFound [some 2] (some 0) (.span (4, 5))]) 2 := (parsesAt_iff hv).2 rfl
    cases (C33_unique hv h1 ⟨_, h2⟩).1
  · intro a h1 h2
    match a, h1, h2 with
    | 6, _, _ => exact ⟨4, rfl, rfl⟩
    | 7, _, _ => exact ⟨1, rfl, rfl⟩
    | 8, _, _ => exact ⟨2, rfl, rfl⟩
  · exact .call rfl (.orLeft (.map (o := []) (.ignoreThen (.orNotSome (.just rfl rfl)) (.delimitedBy (.just rfl rfl)
      (.separatedBy (.stop (by decide))) (.just rfl rfl)))))

/-- The stream returns the values of the first and the third, and a recovery for the second. -/
example : ∃ n es, ∀ m, n ≤ m → ∃ s', (streamThenTail ((statement exNestedG 5 7).prog exTrees m) 4 1).run Stream.step
    (Stream.newWithLocation rustAlloc (fun i => [0, 5, 1, 0, 0, 5, 4, 1, 2, 5][i]?) ()) =
      .ok (([some (.success 0), some (.recovered 7 es), some (.success 1), none], [none]), s') := by
  have hR : RecFreeNames (fun _ => True) exTrees := by
    intro k g _ h; cases h; simp [G.All, noRecL, G.NoRecovery]
  obtain ⟨n, rs, h, h1⟩ := C68_stream exTrees_term exTrees_call.1 exTrees_call.2.1 exTrees_ends hR trivial
    exTrees_avoids trivial 7 _ () exTrees_statements
  match rs, h with
  | _, .right (.wrong (es := es) (.right .nil)) => exact ⟨n, es, fun m hm => h1 m hm rustAlloc 1 1⟩

/-- Any input is cut in some way, also one that ends in the middle of a statement. -/
example : ∃ os, Statements (exEnv [0, 5, 1, 0]) exTrees exNestedG 5 0 os 4 := C68_cut exTrees exNestedG 5 () _

/-- `0 5 1 0`: the second statement has no end. -/
theorem exTrees_unfinished : Statements (exEnv [0, 5, 1, 0]) exTrees exNestedG 5 0 [some 0, none] 4 := by
  refine .right (j := 1) ⟨by decide, ?_, 5, rfl, rfl⟩ (.call rfl (.orRight (.just rfl rfl)))
    (.unfinished ⟨by decide, ?_, rfl⟩)
  · intro a h1 h2
    match a, h1, h2 with
    | 0, _, _ => exact ⟨0, rfl, rfl⟩
  · intro a h1 h2
    match a, h1, h2 with
    | 2, _, _ => exact ⟨1, rfl, rfl⟩
    | 3, _, _ => exact ⟨0, rfl, rfl⟩

/-- No other results are right. -/
example {os : List (Option Nat)} (h : Statements (exEnv [0, 5, 1, 0]) exTrees exNestedG 5 0 os 4) :
    os = [some 0, none] :=
  C68_unique (L := 4) exTrees_term rfl exTrees_call.1 exTrees_call.2.1 exTrees_ends .zero rfl exTrees_unfinished h

/-! ## Without the condition on the terminator the claim is false -/

/-- `just(1).then(just(5)).then(just(2)).to(0)`: statements with the terminator `5` inside. -/
def exInner : ExG Nat := .to (.then_ (.just 1) (.then_ (.just 5) (.just 2))) 0

theorem exNoDefs_predictive : Predictive (D := exNoDefs) (fun _ _ => false) (fun _ _ => False) (fun _ _ => True) where
  plain k := k.elim
  progress k := k.elim
  nullable k := k.elim
  noLeft := ⟨fun x => x.2.elim⟩
  defined k := k.elim
  begins k := k.elim
  decided k := k.elim

/-- **C68** (why no statement may contain a terminator): cut at the terminators `5`, `1 5 2 5` consists of two
statements that are wrong, but the stream returns one success. -/
theorem C68_inner_fails : Statements (exEnv [1, 5, 2, 5]) exNoDefs exInner 5 0 [none, none] 4 ∧
    ∃ s', (streamThenTail ((statement exInner 5 7).prog exNoDefs 20) 2 0).run Stream.step
      (Stream.newWithLocation rustAlloc (fun i => [1, 5, 2, 5][i]?) ()) =
        .ok (([some (.success 0), none], []), s') := by
  have hv : Valid (exEnv [1, 5, 2, 5]) 2 := by
    intro a ha
    match a, ha with
    | 0, _ => rfl
    | 1, _ => rfl
  have hc : ∀ {i o j}, Valid (exEnv [1, 5, 2, 5]) i → Derives (exEnv [1, 5, 2, 5]) exNoDefs exInner i o j →
      Finishes (exEnv [1, 5, 2, 5]) exNoDefs exInner false i (.success o) j := fun hi h =>
    C64_complete (L := 4) (w := fun _ => True) exNoDefs_predictive rfl (by simp [exInner, G.All, plainL, G.Plain])
      (by simp [exInner, G.All, progressL, G.Progresses]) (by simp [exInner, G.Predictive]) hi h trivial false
  refine ⟨.wrong (j := 1) ⟨by decide, ?_, 5, rfl, rfl⟩ ?_ (.wrong (j := 3) ⟨by decide, ?_, 5, rfl, rfl⟩ ?_ .nil), ?_⟩
  · intro a h1 h2
    match a, h1, h2 with
    | 0, _, _ => exact ⟨1, rfl, rfl⟩
  · intro o h
    have h2 : ParsesAt (exEnv [1, 5, 2, 5]) exNoDefs 20 exInner false 0 (.success 0) 3 := (parsesAt_iff .zero).2 rfl
    cases (C33_unique .zero (hc .zero h) ⟨_, h2⟩).2
  · intro a h1 h2
    match a, h1, h2 with
    | 2, _, _ => exact ⟨2, rfl, rfl⟩
  · intro o h
    have h2 : ParsesAt (exEnv [1, 5, 2, 5]) exNoDefs 20 exInner false 2
        (.failed 2 [.expectedFound [some 1] (some 2) (.span (2, 3))]) 2 := (parsesAt_iff hv).2 rfl
    cases (C33_unique hv (hc hv h) ⟨_, h2⟩).1
  · have h1 : ParsesAt (exEnv [1, 5, 2, 5]) exNoDefs 20 (statement exInner 5 7) true 0 (.success 0) 4 :=
      (parsesAt_iff .zero).2 rfl
    have h2 : Answers (exEnv [1, 5, 2, 5]) exNoDefs 20 (statement exInner 5 7) 0 [some (.success 0), none] 4 :=
      .result rfl h1 (.eof rfl (.nil _))
    exact (C31_stream (g := statement exInner 5 7) (D := exNoDefs) (n := 20) rustAlloc (fun i => [1, 5, 2, 5][i]?) ()
      _ 0 _ []).2 ⟨rfl, 4, h2, rfl, by simp⟩

end PPC.Cfg
