import Verif.SemStrategy

/-!
# Properties of recovery: C26, C27, C28, C29

The specification of what strategies do (`Runs`, `RunsAll`) is in SpecRecovery.lean.
`ParsesAt e D n g en i r j` (RunAt.lean): running `g` on any stream over `e` at position `i`
returns `r` and ends at position `j`.
-/

namespace PPC

variable {S : Sig} {N : Names S} {e : Env S} {D : Defs S N} {n : Nat} {ε : ErrTy S} {α : Type}
  {g : G S N ε α} {cs : CS S N ε α} {en : Bool} {i j x : Nat} {o : α} {es : List ε.E} {r : Res α ε.E}

/-! ## Auxiliary lemmas -/

theorem toRecover_sem : (G.toRecover g cs).sem e D n =
    qToRecover (g.sem e D n) (cs.den e (callSem e D n) n) := rfl

/-- The part of `to_recover` after a failure. -/
theorem toRecover_failed (hi : Valid e i) {last k : Nat} {es₀ : List ε.E}
    (h : g.sem e D n true i = .ok (.failed last es₀, k)) :
    ((G.toRecover g cs).sem e D n true i = .ok (r, j)) ↔
      k ≤ last ∧ ∃ oo y, RunsAll e D n k g cs ⟨last, es₀, k⟩ oo y ∧
        ((∃ o, oo = some o ∧ r = .recovered o y.errors ∧ j = y.pos) ∨
         (oo = none ∧ r = .failed last y.errors ∧ j = k)) := by
  obtain ⟨hk1, hk2, hk3⟩ := G.sem_valid D n g true hi h
  obtain ⟨hk4, hk5⟩ := hk3 _ _ rfl
  rw [toRecover_sem]
  unfold qToRecover
  rw [h]
  simp only [Out.ok_bind, Bool.not_true, Bool.false_eq_true, if_false]
  unfold saveAtSem
  by_cases hlk : last < k
  · rw [if_pos hlk]
    simp only [Out.panic_bind]
    constructor
    · intro h; cases h
    · rintro ⟨h, _⟩; omega
  · rw [if_neg hlk]
    simp only [Out.ok_bind]
    rw [Out.bind_eq_ok]
    have hag := (CS.agrees (D := D) (n := n) hk2 g cs ⟨last, es₀, k⟩ ⟨hk2, hk5⟩).1
    constructor
    · rintro ⟨⟨⟨oo, fa, es1⟩, j1⟩, h1, h2⟩
      have h3 := (hag oo ⟨fa, es1, j1⟩).1 h1
      refine ⟨by omega, oo, _, h3, ?_⟩
      cases oo with
      | none => cases h2; exact .inr ⟨rfl, rfl, rfl⟩
      | some v => cases h2; exact .inl ⟨v, rfl, rfl, rfl⟩
    · rintro ⟨_, oo, y, h1, h2⟩
      refine ⟨_, (hag oo y).2 h1, ?_⟩
      rcases h2 with ⟨v, rfl, rfl, rfl⟩ | ⟨rfl, rfl, rfl⟩ <;> rfl

/-! ## C26: to_recover -/

/-- C26: with recovery disabled the strategy is not used. -/
theorem C26_disabled (hi : Valid e i) :
    ParsesAt e D n (.toRecover g cs) false i r j ↔ ParsesAt e D n g false i r j := by
  rw [parsesAt_iff hi, parsesAt_iff hi, toRecover_sem]
  unfold qToRecover
  rw [Out.bind_eq_ok]
  constructor
  · rintro ⟨⟨r', k⟩, h1, h2⟩
    cases r' <;> cases h2 <;> exact h1
  · intro h
    refine ⟨_, h, ?_⟩
    cases r <;> rfl

/-- C26: a parser that does not fail is not affected by the strategy. -/
theorem C26_unaffected (hi : Valid e i) (hr : ∀ x es, r ≠ .failed x es)
    (h : ParsesAt e D n g en i r j) : ParsesAt e D n (.toRecover g cs) en i r j := by
  rw [parsesAt_iff hi] at h ⊢
  rw [toRecover_sem]
  unfold qToRecover
  rw [Out.bind_eq_ok]
  refine ⟨_, h, ?_⟩
  cases r with
  | success o => rfl
  | recovered o es => rfl
  | failed x es => exact (hr _ _ rfl).elim

/-- C26: success comes from the parser, never from the strategy. -/
theorem C26_success (hi : Valid e i) :
    ParsesAt e D n (.toRecover g cs) en i (.success o) j ↔ ParsesAt e D n g en i (.success o) j := by
  constructor
  · intro h
    cases en with
    | false => exact (C26_disabled hi).1 h
    | true =>
      have h' := (parsesAt_iff hi).1 h
      rw [toRecover_sem] at h'
      unfold qToRecover at h'
      rw [Out.bind_eq_ok] at h'
      obtain ⟨⟨r', k⟩, h1, h2⟩ := h'
      cases r' with
      | success o' => cases h2; exact (parsesAt_iff hi).2 h1
      | recovered o' es' => cases h2
      | failed last es' =>
        obtain ⟨_, oo, y, _, h3⟩ := (toRecover_failed hi h1).1 ((parsesAt_iff hi).1 h)
        rcases h3 with ⟨v, _, h3, _⟩ | ⟨_, h3, _⟩ <;> cases h3
  · exact C26_unaffected hi (fun x es h => by cases h)

theorem runs_failed_pos (hi : Valid e i) (hr : Rewinds e D n g true i) {last k : Nat} {es₀ : List ε.E}
    (h : ParsesAt e D n g true i (.failed last es₀) k) : k = i ∧ i ≤ last :=
  ⟨hr _ _ _ h, ((G.sem_valid D n g true hi ((parsesAt_iff hi).1 h)).2.2 _ _ rfl).1⟩

/-- C26, C27: `to_recover` returns a recovery exactly when recovery is enabled and either the
parser itself recovers, with the same output, errors and end position, or it fails and the
strategy, started there with the failure index and the errors of the failure, recovers; then
output, errors and end position are those of the strategy. (`Rewinds`: see C11.) -/
theorem C26_recovers (hi : Valid e i) (hr : Rewinds e D n g true i) :
    ParsesAt e D n (.toRecover g cs) true i (.recovered o es) j ↔
      ParsesAt e D n g true i (.recovered o es) j ∨
      ∃ last es₀ y, ParsesAt e D n g true i (.failed last es₀) i ∧
        RunsAll e D n i g cs ⟨last, es₀, i⟩ (some o) y ∧ es = y.errors ∧ j = y.pos := by
  constructor
  · intro h
    have h' := (parsesAt_iff hi).1 h
    rw [toRecover_sem] at h'
    unfold qToRecover at h'
    rw [Out.bind_eq_ok] at h'
    obtain ⟨⟨r', k⟩, h1, h2⟩ := h'
    cases r' with
    | success o' => cases h2
    | recovered o' es' => cases h2; exact .inl ((parsesAt_iff hi).2 h1)
    | failed last es' =>
      have h1' := (parsesAt_iff hi).2 h1
      obtain ⟨rfl, hl⟩ := runs_failed_pos hi hr h1'
      obtain ⟨_, oo, y, h3, h4⟩ := (toRecover_failed hi h1).1 ((parsesAt_iff hi).1 h)
      rcases h4 with ⟨v, rfl, h4, h5⟩ | ⟨_, h4, _⟩
      · cases h4; exact .inr ⟨last, es', y, h1', h3, rfl, h5⟩
      · cases h4
  · rintro (h | ⟨last, es₀, y, h1, h2, rfl, rfl⟩)
    · exact C26_unaffected hi (fun x es h => by cases h) h
    · rw [parsesAt_iff hi, toRecover_failed hi ((parsesAt_iff hi).1 h1)]
      exact ⟨(runs_failed_pos hi hr h1).2, some o, y, h2, .inl ⟨o, rfl, rfl, rfl⟩⟩

/-- C26, C27: with recovery enabled, `to_recover` fails exactly when the parser fails and the
strategy does not recover: with the failure index of the parser, the errors the strategy leaves,
and the cursor back at the start. -/
theorem C26_fails (hi : Valid e i) (hr : Rewinds e D n g true i) :
    ParsesAt e D n (.toRecover g cs) true i (.failed x es) j ↔
      j = i ∧ ∃ es₀ y, ParsesAt e D n g true i (.failed x es₀) i ∧
        RunsAll e D n i g cs ⟨x, es₀, i⟩ none y ∧ es = y.errors := by
  constructor
  · intro h
    have h' := (parsesAt_iff hi).1 h
    rw [toRecover_sem] at h'
    unfold qToRecover at h'
    rw [Out.bind_eq_ok] at h'
    obtain ⟨⟨r', k⟩, h1, h2⟩ := h'
    cases r' with
    | success o' => cases h2
    | recovered o' es' => cases h2
    | failed last es' =>
      have h1' := (parsesAt_iff hi).2 h1
      obtain ⟨rfl, hl⟩ := runs_failed_pos hi hr h1'
      obtain ⟨_, oo, y, h3, h4⟩ := (toRecover_failed hi h1).1 ((parsesAt_iff hi).1 h)
      rcases h4 with ⟨v, _, h4, h5⟩ | ⟨rfl, h4, rfl⟩
      · cases h4
      · cases h4; exact ⟨rfl, es', y, h1', h3, rfl⟩
  · rintro ⟨rfl, es₀, y, h1, h2, rfl⟩
    rw [parsesAt_iff hi, toRecover_failed hi ((parsesAt_iff hi).1 h1)]
    exact ⟨(runs_failed_pos hi hr h1).2, none, y, h2, .inr ⟨rfl, rfl, rfl⟩⟩

/-- A concrete case: `just(1)` on `7 1` fails; `skip().retry()` recovers at the second token,
keeping the first error; `restart().push_error(..).or_fail()` fails with both errors. -/
example : ParsesAt (exEnv [7, 1]) exNoDefs 20
      (.toRecover (.just 1) (.orFail (.retry (.skip .attemptTo) false false)) : ExG Nat) true 0
      (.recovered 1 [.expectedFound [some 1] (some 7) (.span (0, 1))]) 2 ∧
    ParsesAt (exEnv [7, 1]) exNoDefs 20
      (.toRecover (.just 1) (.orFail (.pushErrorUpToHere (.skip .attemptTo)
        (fun sp => (simpleErr exSig).custom "bad" (.span sp)))) : ExG Nat) true 0
      (.failed 0 [.expectedFound [some 1] (some 7) (.span (0, 1)), .custom "bad" (.span (0, 1))]) 0 ∧
    Rewinds (exEnv [7, 1]) exNoDefs 20 (.just 1 : ExG Nat) true 0 :=
  ⟨exParsesAt (by decide +kernel), exParsesAt (by decide +kernel),
    rewinds_of_clean Valid.zero (fun k => k.elim) trivial⟩

/-! ## C27: strategies -/

/-- `t` is `s` with one more combinator. -/
inductive Extends : IS S N ε α → IS S N ε α → Prop
  | restart (s) : Extends s (.restart s)
  | seekToFailed (s) : Extends s (.seekToFailed s)
  | skip (s) : Extends s (.skip s)
  | skipIf (s p) : Extends s (.skipIf s p)
  | find (s p) : Extends s (.find s p)
  | scan (s sc) : Extends s (.scan s sc)
  | maybe (s t) : Extends s (.maybe s t)
  | whileNot (s p t) : Extends s (.whileNot s p t)
  | retry (s a b) : Extends s (.retry s a b)
  | tryToParse (s h a b) : Extends s (.tryToParse s h a b)
  | pushError (s f) : Extends s (.pushError s f)
  | pushErrorHere (s f) : Extends s (.pushErrorHere s f)
  | pushErrorUpToHere (s f) : Extends s (.pushErrorUpToHere s f)
  | pushErrorForToken (s f) : Extends s (.pushErrorForToken s f)
  | updateErrors (s f) : Extends s (.updateErrors s f)
  | updateErrorsHere (s f) : Extends s (.updateErrorsHere s f)
  | updateErrorsUpToHere (s f) : Extends s (.updateErrorsUpToHere s f)
  | updateErrorsForToken (s f) : Extends s (.updateErrorsForToken s f)

theorem runs_extends {s t : IS S N ε α} (h : Extends s t) {st : Nat} {x y : RState ε.E}
    (hr : Runs e D n st g s x (some o) y) : Runs e D n st g t x (some o) y := by
  cases h <;> exact .inl ⟨o, rfl, hr⟩

/-- The first complete strategy made of `s`. -/
def completions (s : IS S N ε α) (v : α) (f : Unit → α) (h : S.Span → α) : List (CS S N ε α) :=
  [.orFail s, .ret s v, .retWith s f, .retWithSpan s h]

/-- C27: if the combinators so far recover, whatever is added to them does nothing: output,
errors and end position stay the same, for every further combinator and every way to finish the
strategy. -/
theorem C27_first_success_wins (hi : Valid e i) (hr : Rewinds e D n g true i)
    {s t : IS S N ε α} (hst : t = s ∨ Extends s t) {v : α} {f : Unit → α} {h : S.Span → α}
    {c : CS S N ε α} (hc : c ∈ completions t v f h)
    (hp : ParsesAt e D n (.toRecover g (.orFail s)) true i (.recovered o es) j) :
    ParsesAt e D n (.toRecover g c) true i (.recovered o es) j := by
  rcases (C26_recovers hi hr).1 hp with h1 | ⟨last, es₀, y, h1, h2, h3, h4⟩
  · exact (C26_recovers hi hr).2 (.inl h1)
  · refine (C26_recovers hi hr).2 (.inr ⟨last, es₀, y, h1, ?_, h3, h4⟩)
    have h2' : Runs e D n i g t ⟨last, es₀, i⟩ (some o) y := by
      rcases hst with rfl | hst
      · exact h2
      · exact runs_extends hst h2
    simp only [completions, List.mem_cons, List.not_mem_nil, or_false] at hc
    rcases hc with rfl | rfl | rfl | rfl
    · exact h2'
    · exact .inl ⟨o, rfl, h2'⟩
    · exact .inl ⟨o, rfl, h2'⟩
    · exact .inl ⟨o, rfl, h2'⟩

/-- C27: `find(p).and_return(v)` after a failure at `i` recovers with `v` and the errors of the
failure, at the first token from `i` on that satisfies `p`, or at the end of input. -/
theorem C27_find (hi : Valid e i) (hr : Rewinds e D n g true i) {p : S.I → Bool} {v : α}
    {last : Nat} {es₀ : List ε.E} (hf : ParsesAt e D n g true i (.failed last es₀) i) :
    ParsesAt e D n (.toRecover g (.ret (.find .attemptTo p) v)) true i r j ↔
      r = .recovered v es₀ ∧ FirstHit e p i j ∧ j < i + n := by
  rw [parsesAt_iff hi, toRecover_failed hi ((parsesAt_iff hi).1 hf)]
  have hl := (runs_failed_pos hi hr hf).2
  constructor
  · rintro ⟨_, oo, y, (⟨w, rfl, ⟨u, h0, ⟨h1, _⟩⟩ | ⟨z, _, h1, _⟩⟩ | ⟨z, ⟨w, h1, _⟩ | ⟨z', ⟨_, rfl⟩, _, k, h1, h2, rfl⟩, rfl, rfl⟩), h3⟩
    · cases h1
    · cases h1
    · cases h1
    · rcases h3 with ⟨w, h3, rfl, rfl⟩ | ⟨h3, _⟩
      · cases h3; exact ⟨rfl, h1, h2⟩
      · cases h3
  · rintro ⟨rfl, h1, h2⟩
    exact ⟨hl, some v, ⟨last, es₀, j⟩, .inr ⟨_, .inr ⟨_, ⟨rfl, rfl⟩, rfl, j, h1, h2, rfl⟩, rfl, rfl⟩,
      .inl ⟨v, rfl, rfl, rfl⟩⟩

/-- C27: `seek_to_failed().and_return(v)` recovers at the failure index. -/
theorem C27_seek_to_failed (hi : Valid e i) (hr : Rewinds e D n g true i) {v : α}
    {last : Nat} {es₀ : List ε.E} (hf : ParsesAt e D n g true i (.failed last es₀) i) :
    ParsesAt e D n (.toRecover g (.ret (.seekToFailed .attemptTo) v)) true i (.recovered v es₀) last := by
  rw [parsesAt_iff hi, toRecover_failed hi ((parsesAt_iff hi).1 hf)]
  exact ⟨(runs_failed_pos hi hr hf).2, some v, ⟨last, es₀, last⟩,
    .inr ⟨_, .inr ⟨_, ⟨rfl, rfl⟩, rfl, rfl⟩, rfl, rfl⟩, .inl ⟨v, rfl, rfl, rfl⟩⟩

/-- C27: an unsuccessful `maybe(t)` keeps the errors of `t` but goes back to where `t` started. -/
theorem C27_maybe_rewinds (hi : Valid e i) (hr : Rewinds e D n g true i) {v : α} {t : IS S N ε α}
    {last : Nat} {es₀ : List ε.E} {y : RState ε.E} (hf : ParsesAt e D n g true i (.failed last es₀) i)
    (ht : Runs e D n i g t ⟨last, es₀, i⟩ none y) :
    ParsesAt e D n (.toRecover g (.ret (.maybe .attemptTo t) v)) true i (.recovered v y.errors) i := by
  rw [parsesAt_iff hi, toRecover_failed hi ((parsesAt_iff hi).1 hf)]
  exact ⟨(runs_failed_pos hi hr hf).2, some v, { y with pos := i },
    .inr ⟨_, .inr ⟨_, ⟨rfl, rfl⟩, .inr ⟨rfl, y, ht, rfl⟩⟩, rfl, rfl⟩, .inl ⟨v, rfl, rfl, rfl⟩⟩

example : ParsesAt (exEnv [7, 8, 2, 1]) exNoDefs 20
      (.toRecover (.just 1) (.ret (.find .attemptTo (· == 2)) 5) : ExG Nat) true 0
      (.recovered 5 [.expectedFound [some 1] (some 7) (.span (0, 1))]) 2 ∧
    FirstHit (exEnv [7, 8, 2, 1]) (· == 2) 0 2 ∧
    ParsesAt (exEnv [7, 8, 2, 1]) exNoDefs 20
      (.toRecover (.seq 3 [7, 8, 1]) (.ret (.seekToFailed .attemptTo) 5) : ExG Nat) true 0
      (.recovered 5 [.expectedFound [some 1] (some 2) (.span (2, 3))]) 2 := by
  refine ⟨exParsesAt (by decide +kernel), ⟨by decide, ?_, .inr ⟨2, rfl, rfl⟩⟩,
    exParsesAt (by decide +kernel)⟩
  intro k _ hk
  match k, hk with
  | 0, _ => exact ⟨7, rfl, rfl⟩
  | 1, _ => exact ⟨8, rfl, rfl⟩

/-! ## C28: running parsers during recovery -/

/-- C28: `try_to_parse(h)` with the flags `exactly` and `silently`, after a failure at `i` with
index `x` and errors `es₀`. The parser `h` runs at `i`, with its recovery unless `exactly`. If it
gives an output, this is the recovery; its errors are appended to `es₀` unless `silently`; if it
fails, the whole fails with the original index, at the original position. -/
theorem C28_try_to_parse (hi : Valid e i) (hr : Rewinds e D n g true i) {h : G S N ε α} {exact silent : Bool}
    (hr' : Rewinds e D n h (!exact) i) {es₀ : List ε.E}
    (hf : ParsesAt e D n g true i (.failed x es₀) i) :
    ParsesAt e D n (.toRecover g (.orFail (.tryToParse .attemptTo h exact silent))) true i r j ↔
      (∃ v, ParsesAt e D n h (!exact) i (.success v) j ∧ r = .recovered v es₀) ∨
      (∃ v es, ParsesAt e D n h (!exact) i (.recovered v es) j ∧
        r = .recovered v (if silent then es₀ else es₀ ++ es)) ∨
      (∃ y es, ParsesAt e D n h (!exact) i (.failed y es) i ∧ j = i ∧
        r = .failed x (if silent then es₀ else es₀ ++ es)) := by
  rw [parsesAt_iff hi, toRecover_failed hi ((parsesAt_iff hi).1 hf)]
  have hl := (runs_failed_pos hi hr hf).2
  constructor
  · rintro ⟨_, oo, y, ⟨w, rfl, ⟨h1, _⟩⟩ | ⟨z, ⟨_, rfl⟩, h1⟩, h3⟩
    · cases h1
    · rcases h1 with ⟨v, k, h1, rfl, rfl⟩ | ⟨v, es, k, h1, rfl, rfl⟩ | ⟨f, es, k, h1, h2, rfl, rfl⟩
      · rcases h3 with ⟨w, h3, rfl, rfl⟩ | ⟨h3, _⟩
        · cases h3; exact .inl ⟨v, h1, rfl⟩
        · cases h3
      · rcases h3 with ⟨w, h3, rfl, rfl⟩ | ⟨h3, _⟩
        · cases h3; exact .inr (.inl ⟨v, es, h1, rfl⟩)
        · cases h3
      · rcases h3 with ⟨w, h3, _⟩ | ⟨_, rfl, rfl⟩
        · cases h3
        · have hk := hr' _ _ _ h1
          cases hk
          exact .inr (.inr ⟨f, es, h1, rfl, rfl⟩)
  · rintro (⟨v, h1, rfl⟩ | ⟨v, es, h1, rfl⟩ | ⟨y, es, h1, rfl, rfl⟩)
    · exact ⟨hl, some v, ⟨x, es₀, j⟩, .inr ⟨_, ⟨rfl, rfl⟩, .inl ⟨v, j, h1, rfl, rfl⟩⟩,
        .inl ⟨v, rfl, rfl, rfl⟩⟩
    · exact ⟨hl, some v, _, .inr ⟨_, ⟨rfl, rfl⟩, .inr (.inl ⟨v, es, j, h1, rfl, rfl⟩)⟩,
        .inl ⟨v, rfl, rfl, rfl⟩⟩
    · have hy := ((G.sem_valid D n h _ hi ((parsesAt_iff hi).1 h1)).2.2 _ _ rfl).1
      exact ⟨hl, none, _, .inr ⟨_, ⟨rfl, rfl⟩, .inr (.inr ⟨y, es, j, h1, hy, rfl, rfl⟩)⟩,
        .inr ⟨rfl, rfl, rfl⟩⟩

/-- C28: when `try_to_parse(h)` fails, its failure index is where `seek_to_failed` goes. -/
theorem C28_failure_position (hi : Valid e i) (hr : Rewinds e D n g true i) {h : G S N ε α}
    {exact silent : Bool} {es₀ : List ε.E} {y : Nat} {v : α}
    (hf : ParsesAt e D n g true i (.failed x es₀) i)
    (hh : ParsesAt e D n h (!exact) i (.failed y es) i) :
    ParsesAt e D n (.toRecover g (.ret (.seekToFailed (.tryToParse .attemptTo h exact silent)) v)) true i
      (.recovered v (if silent then es₀ else es₀ ++ es)) y := by
  rw [parsesAt_iff hi, toRecover_failed hi ((parsesAt_iff hi).1 hf)]
  have hy := ((G.sem_valid D n h _ hi ((parsesAt_iff hi).1 hh)).2.2 _ _ rfl).1
  exact ⟨(runs_failed_pos hi hr hf).2, some v, ⟨y, if silent then es₀ else es₀ ++ es, y⟩,
    .inr ⟨_, .inr ⟨_, .inr ⟨_, ⟨rfl, rfl⟩, .inr (.inr ⟨y, es, i, hh, hy, rfl, rfl⟩)⟩, rfl, rfl⟩, rfl, rfl⟩,
    .inl ⟨v, rfl, rfl, rfl⟩⟩

/-- C28: `retry()` is `try_to_parse` of the original parser. -/
theorem C28_retry (hi : Valid e i) {s : IS S N ε α} {exact silent : Bool} :
    (ParsesAt e D n (.toRecover g (.orFail (.retry s exact silent))) en i r j ↔
      ParsesAt e D n (.toRecover g (.orFail (.tryToParse s g exact silent))) en i r j) := by
  rw [parsesAt_iff hi, parsesAt_iff hi]
  exact Iff.rfl

/-- A concrete case, with all four combinations of flags: after `just(1)` failed on `7`, parse
with a parser that itself recovers. -/
example :
    let h : ExG Nat := .toRecover (.just 2) (.ret .attemptTo 9)
    let e1 : (simpleErr exSig).E := .expectedFound [some 1] (some 7) (.span (0, 1))
    let e2 : (simpleErr exSig).E := .expectedFound [some 2] (some 7) (.span (0, 1))
    let p (exact silent : Bool) : ExG Nat :=
      .toRecover (.just 1) (.orFail (.tryToParse .attemptTo h exact silent))
    ParsesAt (exEnv [7]) exNoDefs 20 (p false false) true 0 (.recovered 9 [e1, e2]) 0 ∧
    ParsesAt (exEnv [7]) exNoDefs 20 (p false true) true 0 (.recovered 9 [e1]) 0 ∧
    ParsesAt (exEnv [7]) exNoDefs 20 (p true false) true 0 (.failed 0 [e1, e2]) 0 ∧
    ParsesAt (exEnv [7]) exNoDefs 20 (p true true) true 0 (.failed 0 [e1]) 0 :=
  ⟨exParsesAt (by decide +kernel), exParsesAt (by decide +kernel), exParsesAt (by decide +kernel),
   exParsesAt (by decide +kernel)⟩

/-! ## C29: skip then retry -/

/-- `while_not(until, retry())`, with the flags of `retry`. -/
def skipThenRetry (until_ : S.I → Bool) (exact silent : Bool) : CS S N ε α :=
  .orFail (.whileNot .attemptTo until_ (.retry .attemptTo exact silent))

/-- Retrying fails at all positions from `i` to before `p`, where there are tokens that are not
`until`; `ess k` are the errors of the failure at `k`. -/
def FailsUpTo (e : Env S) (D : Defs S N) (n : Nat) (g : G S N ε α) (until_ : S.I → Bool) (exact : Bool)
    (ess : Nat → List ε.E) (i p : Nat) : Prop :=
  i ≤ p ∧ ∀ k, i ≤ k → k < p → e.HoldsNot until_ k ∧ ∃ f, ParsesAt e D n g (!exact) k (.failed f (ess k)) k

/-- All the errors of these failures, in order. -/
def failureErrors {E : Type} (ess : Nat → List E) (i p : Nat) : List E :=
  (List.range' i (p - i)).flatMap ess

theorem failureErrors_cons {E : Type} {ess : Nat → List E} {i p : Nat} (h : i < p) :
    failureErrors ess i p = ess i ++ failureErrors ess (i + 1) p := by
  unfold failureErrors
  obtain ⟨d, rfl⟩ : ∃ d, p = i + (d + 1) := ⟨p - i - 1, by omega⟩
  have h1 : i + (d + 1) - i = d + 1 := by omega
  have h2 : i + (d + 1) - (i + 1) = d := by omega
  rw [h1, h2, List.range'_succ, List.flatMap_cons]

theorem failureErrors_nil {E : Type} {ess : Nat → List E} {i : Nat} :
    failureErrors ess i i = [] := by
  unfold failureErrors; simp

theorem failureErrors_congr {E : Type} {ess ess' : Nat → List E} {i p : Nat}
    (h : ∀ k, i ≤ k → k < p → ess k = ess' k) : failureErrors ess i p = failureErrors ess' i p := by
  unfold failureErrors
  rw [List.flatMap_eq_flatMap_of_congr_aux h]
where
  List.flatMap_eq_flatMap_of_congr_aux {E : Type} {ess ess' : Nat → List E} {i p : Nat}
      (h : ∀ k, i ≤ k → k < p → ess k = ess' k) :
      (List.range' i (p - i)).flatMap ess = (List.range' i (p - i)).flatMap ess' := by
    have : ∀ k ∈ List.range' i (p - i), ess k = ess' k := by
      intro k hk
      rw [List.mem_range'_1] at hk
      exact h k hk.1 (by omega)
    simp only [List.flatMap]
    rw [List.map_congr_left this]

/-- One round of `retry()`. -/
theorem after_retry {exact silent : Bool} {x y : RState ε.E} {o : Option α} :
    After (Becomes id) (TryParser e D n g exact silent) x o y ↔ TryParser e D n g exact silent x o y := by
  constructor
  · rintro (⟨v, _, h, _⟩ | ⟨z, ⟨_, rfl⟩, h⟩)
    · cases h
    · exact h
  · intro h; exact .inr ⟨x, ⟨rfl, rfl⟩, h⟩

theorem valid_succ_of_holdsNot {p : S.I → Bool} {k : Nat} (h : Valid e k) (hk : e.HoldsNot p k) :
    Valid e (k + 1) := by
  have := h.stepOver
  rwa [holdsNot_stepOver hk] at this

/-- The loop, when it recovers. -/
theorem whileNot_retry_some {u : S.I → Bool} {exact silent : Bool}
    (hr : ∀ k, Valid e k → Rewinds e D n g (!exact) k) : ∀ {m : Nat} {x y : RState ε.E}, Valid e x.pos →
    WhileNot e u (After (Becomes id) (TryParser e D n g exact silent)) m x (some o) y →
    ∃ ess es₂ rec, FailsUpTo e D n g u exact ess x.pos (x.pos + m) ∧ e.HoldsNot u (x.pos + m) ∧
      Gives e D n g (!exact) (x.pos + m) o es₂ rec y.pos ∧
      y.errors = x.errors ++ (if silent then [] else failureErrors ess x.pos (x.pos + m) ++ es₂) := by
  intro m
  induction m with
  | zero =>
    intro x y hx h
    cases h with
    | done h1 h2 =>
      rw [after_retry] at h2
      refine ⟨fun _ => [], ?_⟩
      have hft : FailsUpTo e D n g u exact (fun _ => []) x.pos (x.pos + 0) :=
        ⟨Nat.le_refl _, fun k h3 h4 => by omega⟩
      rcases h2 with ⟨v, k, h2, h3, rfl⟩ | ⟨v, es, k, h2, h3, rfl⟩ | ⟨f, es, k, h2, _, h3, rfl⟩
      · cases h3
        refine ⟨[], false, hft, h1, .inl ⟨rfl, rfl, h2⟩, ?_⟩
        simp [failureErrors]
      · cases h3
        refine ⟨es, true, hft, h1, .inr ⟨rfl, h2⟩, ?_⟩
        cases silent <;> simp [failureErrors]
      · cases h3
  | succ m ih =>
    intro x y hx h
    cases h with
    | @next _ _ z _ _ h1 h2 h3 =>
      rw [after_retry] at h2
      rcases h2 with ⟨v, k, h2, h4, _⟩ | ⟨v, es, k, h2, h4, _⟩ | ⟨f, es, k, h2, _, _, rfl⟩
      · cases h4
      · cases h4
      · have hk := hr _ hx _ _ _ h2
        subst hk
        rw [holdsNot_stepOver h1] at h3
        obtain ⟨ess, es₂, rec, ⟨h5, h6⟩, h7, h8, h9⟩ := ih (valid_succ_of_holdsNot hx h1) h3
        simp only at h5 h6 h7 h8 h9
        have hp : x.pos + 1 + m = x.pos + (m + 1) := by omega
        rw [hp] at h6 h7 h8 h9
        refine ⟨fun k => if k = x.pos then es else ess k, es₂, rec, ⟨by omega, fun k h10 h11 => ?_⟩, h7, h8, ?_⟩
        · dsimp only
          by_cases hkx : k = x.pos
          · subst hkx; rw [if_pos rfl]; exact ⟨h1, f, h2⟩
          · rw [if_neg hkx]; exact h6 k (by omega) h11
        · rw [h9]
          cases silent with
          | true => simp
          | false =>
            simp only [Bool.false_eq_true, if_false]
            rw [failureErrors_cons (i := x.pos) (p := x.pos + (m + 1)) (by omega), if_pos rfl,
              failureErrors_congr (ess := fun k => if k = x.pos then es else ess k) (ess' := ess)
                (fun k h1 h2 => if_neg (by omega)), List.append_assoc, List.append_assoc]

/-- The loop, when it does not recover. -/
theorem whileNot_retry_none {u : S.I → Bool} {exact silent : Bool}
    (hr : ∀ k, Valid e k → Rewinds e D n g (!exact) k) : ∀ {m : Nat} {x y : RState ε.E}, Valid e x.pos →
    WhileNot e u (After (Becomes id) (TryParser e D n g exact silent)) m x none y →
    ∃ ess, FailsUpTo e D n g u exact ess x.pos (x.pos + m) ∧
      (e.source (x.pos + m) = none ∨ e.Holds u (x.pos + m)) ∧
      y.errors = x.errors ++ (if silent then [] else failureErrors ess x.pos (x.pos + m)) := by
  intro m
  induction m with
  | zero =>
    intro x y hx h
    cases h with
    | stop h1 =>
      exact ⟨fun _ => [], ⟨Nat.le_refl _, fun k h3 h4 => by omega⟩, h1, by simp [failureErrors]⟩
  | succ m ih =>
    intro x y hx h
    cases h with
    | @next _ _ z _ _ h1 h2 h3 =>
      rw [after_retry] at h2
      rcases h2 with ⟨v, k, h2, h4, _⟩ | ⟨v, es, k, h2, h4, _⟩ | ⟨f, es, k, h2, _, _, rfl⟩
      · cases h4
      · cases h4
      · have hk := hr _ hx _ _ _ h2
        subst hk
        rw [holdsNot_stepOver h1] at h3
        obtain ⟨ess, ⟨h5, h6⟩, h7, h9⟩ := ih (valid_succ_of_holdsNot hx h1) h3
        simp only at h5 h6 h7 h9
        have hp : x.pos + 1 + m = x.pos + (m + 1) := by omega
        rw [hp] at h6 h7 h9
        refine ⟨fun k => if k = x.pos then es else ess k, ⟨by omega, fun k h10 h11 => ?_⟩, h7, ?_⟩
        · dsimp only
          by_cases hkx : k = x.pos
          · subst hkx; rw [if_pos rfl]; exact ⟨h1, f, h2⟩
          · rw [if_neg hkx]; exact h6 k (by omega) h11
        · rw [h9]
          cases silent with
          | true => simp
          | false =>
            simp only [Bool.false_eq_true, if_false]
            rw [failureErrors_cons (i := x.pos) (p := x.pos + (m + 1)) (by omega), if_pos rfl,
              failureErrors_congr (ess := fun k => if k = x.pos then es else ess k) (ess' := ess)
                (fun k h1 h2 => if_neg (by omega)), List.append_assoc]

/-- Running the loop over positions where the parser fails. -/
theorem whileNot_retry_intro {u : S.I → Bool} {exact silent : Bool} {ess : Nat → List ε.E} {oo : Option α} :
    ∀ {m : Nat} {x : RState ε.E}, Valid e x.pos → FailsUpTo e D n g u exact ess x.pos (x.pos + m) →
    ∃ fa, ∀ {y : RState ε.E}, WhileNot e u (After (Becomes id) (TryParser e D n g exact silent)) 0
      ⟨fa, x.errors ++ (if silent then [] else failureErrors ess x.pos (x.pos + m)), x.pos + m⟩ oo y →
    WhileNot e u (After (Becomes id) (TryParser e D n g exact silent)) m x oo y := by
  intro m
  induction m with
  | zero =>
    intro x hx h
    refine ⟨x.failedAt, fun {y} hy => ?_⟩
    rw [Nat.add_zero, failureErrors_nil] at hy
    simpa using hy
  | succ m ih =>
    intro x hx ⟨h1, h2⟩
    obtain ⟨h3, f, h4⟩ := h2 x.pos (Nat.le_refl _) (by omega)
    have hf := ((G.sem_valid D n g _ hx ((parsesAt_iff hx).1 h4)).2.2 _ _ rfl).1
    have hp : x.pos + (m + 1) = x.pos + 1 + m := by omega
    obtain ⟨fa, h5⟩ := ih (x := ⟨f, if silent then x.errors else x.errors ++ ess x.pos, x.pos + 1⟩)
      (valid_succ_of_holdsNot hx h3) ⟨by simp, fun k h6 h7 => h2 k (by simp at h6; omega) (by simp at h7; omega)⟩
    refine ⟨fa, fun {y} hy => ?_⟩
    refine .next h3 (y := ⟨f, if silent then x.errors else x.errors ++ ess x.pos, x.pos⟩)
      (after_retry.2 (.inr (.inr ⟨f, ess x.pos, x.pos, h4, hf, rfl, rfl⟩))) ?_
    rw [holdsNot_stepOver h3]
    refine h5 ?_
    rw [hp] at hy
    cases silent with
    | true => simpa using hy
    | false =>
      simp only [Bool.false_eq_true, if_false] at hy ⊢
      rw [failureErrors_cons (by omega)] at hy
      rw [List.append_assoc]
      exact hy

/-- C29: after a failure at `i`, `to_recover(while_not(until, retry()).or_fail())` recovers
exactly when there is a position `p` from `i` on, with no `until` token up to and including it,
at which the parser gives an output, and no such position before: output and end position are
those at `p`. The errors are those of the original failure, of the failed retries in order, and of
the recovery at `p` (unless `silently`). -/
theorem C29_recovers (hi : Valid e i) (hr : ∀ en k, Valid e k → Rewinds e D n g en k)
    {u : S.I → Bool} {exact silent : Bool} {es₀ : List ε.E} (hf : ParsesAt e D n g true i (.failed x es₀) i) :
    ParsesAt e D n (.toRecover g (skipThenRetry u exact silent)) true i (.recovered o es) j ↔
      ∃ p ess es₂ rec, FailsUpTo e D n g u exact ess i p ∧ p < i + n ∧ e.HoldsNot u p ∧
        Gives e D n g (!exact) p o es₂ rec j ∧
        es = es₀ ++ (if silent then [] else failureErrors ess i p ++ es₂) := by
  rw [parsesAt_iff hi, toRecover_failed hi ((parsesAt_iff hi).1 hf)]
  have hl := (runs_failed_pos hi (hr _ _ hi) hf).2
  constructor
  · rintro ⟨_, oo, y, ⟨w, _, h1, _⟩ | ⟨z, ⟨_, rfl⟩, m, h1, h2⟩, h3⟩
    · cases h1
    · rcases h3 with ⟨w, rfl, h3, rfl⟩ | ⟨_, h3, _⟩
      · cases h3
        obtain ⟨ess, es₂, rec, h4, h5, h6, h7⟩ := whileNot_retry_some (hr _) hi h2
        exact ⟨i + m, ess, es₂, rec, h4, by omega, h5, h6, h7⟩
      · cases h3
  · rintro ⟨p, ess, es₂, rec, h4, h5, h6, h7, rfl⟩
    obtain ⟨m, rfl⟩ : ∃ m, p = i + m := ⟨p - i, by have := h4.1; omega⟩
    obtain ⟨fa, h8⟩ := whileNot_retry_intro (silent := silent) (oo := some o) (x := ⟨x, es₀, i⟩) hi h4
    simp only at h8
    refine ⟨hl, some o, _, .inr ⟨_, ⟨rfl, rfl⟩, m, by omega, h8
      (y := ⟨fa, es₀ ++ (if silent then [] else failureErrors ess i (i + m) ++ es₂), j⟩) (.done h6 (after_retry.2 ?_))⟩,
      .inl ⟨o, rfl, rfl, rfl⟩⟩
    rcases h7 with ⟨rfl, rfl, h7⟩ | ⟨rfl, h7⟩
    · exact .inl ⟨o, j, h7, rfl, by simp⟩
    · refine .inr (.inl ⟨o, es₂, j, h7, rfl, ?_⟩)
      cases silent <;> simp

/-- C29: and it fails exactly when the parser fails at all positions from `i` to before the first
`until` token or the end of input; with the original failure index, back at `i`. -/
theorem C29_fails (hi : Valid e i) (hr : ∀ en k, Valid e k → Rewinds e D n g en k)
    {u : S.I → Bool} {exact silent : Bool} {es₀ : List ε.E} (hf : ParsesAt e D n g true i (.failed x es₀) i)
    {x' : Nat} :
    ParsesAt e D n (.toRecover g (skipThenRetry u exact silent)) true i (.failed x' es) j ↔
      x' = x ∧ j = i ∧ ∃ p ess, FailsUpTo e D n g u exact ess i p ∧ p < i + n ∧
        (e.source p = none ∨ e.Holds u p) ∧
        es = es₀ ++ (if silent then [] else failureErrors ess i p) := by
  rw [parsesAt_iff hi, toRecover_failed hi ((parsesAt_iff hi).1 hf)]
  have hl := (runs_failed_pos hi (hr _ _ hi) hf).2
  constructor
  · rintro ⟨_, oo, y, ⟨w, _, h1, _⟩ | ⟨z, ⟨_, rfl⟩, m, h1, h2⟩, h3⟩
    · cases h1
    · rcases h3 with ⟨w, rfl, h3, rfl⟩ | ⟨rfl, h3, rfl⟩
      · cases h3
      · cases h3
        obtain ⟨ess, h4, h5, h7⟩ := whileNot_retry_none (hr _) hi h2
        exact ⟨rfl, rfl, j + m, ess, h4, by omega, h5, h7⟩
  · rintro ⟨rfl, rfl, p, ess, h4, h5, h6, rfl⟩
    obtain ⟨m, rfl⟩ : ∃ m, p = j + m := ⟨p - j, by have := h4.1; omega⟩
    obtain ⟨fa, h8⟩ := whileNot_retry_intro (silent := silent) (oo := none) (x := ⟨x', es₀, j⟩) hi h4
    simp only at h8
    exact ⟨hl, none, _, .inr ⟨_, ⟨rfl, rfl⟩, m, by omega, h8 (.stop h6)⟩, .inr ⟨rfl, rfl, rfl⟩⟩

/-- The other documented equivalence, `skip_then_retry_until(until)` with `consume_end()` as
`while_not(until, skip().retry())`, is wrong: only every second token is tried. Here the parser
`just(1)` would succeed at the third token, before any `until` token, but recovery fails. -/
theorem C29_skip_retry_misses : ∃ (xs : List Nat) (es : List (simpleErr exSig).E),
    ParsesAt (exEnv xs) exNoDefs 20
      (.toRecover (.just 1) (.orFail (.whileNot .attemptTo (fun _ => false)
        (.retry (.skip .attemptTo) false true))) : ExG Nat) true 0 (.failed 0 es) 0 ∧
    ParsesAt (exEnv xs) exNoDefs 20 (.just 1 : ExG Nat) true 2 (.success 1) 3 := by
  refine ⟨[7, 7, 1], [.expectedFound [some 1] (some 7) (.span (0, 1))], exParsesAt (by decide +kernel), ?_⟩
  refine (parsesAt_iff ?_).2 (by decide +kernel)
  intro j hj
  match j, hj with
  | 0, _ => rfl
  | 1, _ => rfl

/-- A concrete case: skipping `7 8` before the `1`; and stopping at the `2`. -/
example : ParsesAt (exEnv [7, 8, 1]) exNoDefs 20
      (.toRecover (.just 1) (skipThenRetry (· == 2) false false) : ExG Nat) true 0
      (.recovered 1 [.expectedFound [some 1] (some 7) (.span (0, 1)),
        .expectedFound [some 1] (some 7) (.span (0, 1)), .expectedFound [some 1] (some 8) (.span (1, 2))]) 3 ∧
    ParsesAt (exEnv [7, 2, 1]) exNoDefs 20
      (.toRecover (.just 1) (skipThenRetry (· == 2) false true) : ExG Nat) true 0
      (.failed 0 [.expectedFound [some 1] (some 7) (.span (0, 1))]) 0 ∧
    (∀ en k, Valid (exEnv [7, 8, 1]) k → Rewinds (exEnv [7, 8, 1]) exNoDefs 20 (.just 1 : ExG Nat) en k) :=
  ⟨exParsesAt (by decide +kernel), exParsesAt (by decide +kernel),
    fun _ _ hk => rewinds_of_clean hk (fun k => k.elim) trivial⟩

end PPC
