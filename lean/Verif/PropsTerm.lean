import Verif.SemTerm
import Verif.PropsApi
import Verif.PropsRecursion

/-!
# Termination (C35)
-/

namespace PPC

variable {S : Sig} {N : Names S} {al : Alloc} {e : Env S} {D : Defs S N} {ε : ErrTy S} {α β : Type}
  {g : G S N ε α} {en : Bool} {i : Nat} {ν : Bool → N.K → Bool}

/-! ## Specification -/

/-- However long the parse goes on, it neither returns nor panics. -/
def Diverges (e : Env S) (D : Defs S N) (g : G S N ε α) (en : Bool) (i : Nat) : Prop :=
  (∀ r j, ¬Finishes e D g en i r j) ∧ ∀ msg, ¬Crashes e D g en i msg

mutual

/-- The first thing the parser does, whatever the input, is to call the recursive parser `k`. -/
def G.StartsWith (k : N.K) : {ε : ErrTy S} → {α : Type} → G S N ε α → Prop
  | _, _, .boxed g => g.StartsWith k
  | _, _, .withError g => g.StartsWith k
  | _, _, .to g _ => g.StartsWith k
  | _, _, .some g => g.StartsWith k
  | _, _, .map _ g => g.StartsWith k
  | _, _, .mapWithSpan _ g => g.StartsWith k
  | _, _, .mapErr _ g => g.StartsWith k
  | _, _, .mapErrWithSpan _ g => g.StartsWith k
  | _, _, .tryMap _ g => g.StartsWith k
  | _, _, .then_ a _ => a.StartsWith k
  | _, _, .thenIgnore a _ => a.StartsWith k
  | _, _, .ignoreThen a _ => a.StartsWith k
  | _, _, .delimitedBy l _ _ => l.StartsWith k
  | _, _, .paddedBy p _ => p.StartsWith k
  | _, _, .chain gs => gs.StartsWith k
  | _, _, .or a _ => a.StartsWith k
  | _, _, .orNot g => g.StartsWith k
  | _, _, .alters gs => gs.StartsWith k
  | _, _, .repeated c g => c.maximum ≠ Option.some 0 ∧ g.StartsWith k
  | _, _, .separatedBy c g sep => c.maximum ≠ Option.some 0 ∧
      ((c.allowLeading = false ∧ g.StartsWith k) ∨ (c.allowLeading = true ∧ sep.StartsWith k))
  | _, _, .toRecover g _ => g.StartsWith k
  | _, _, .call k' => k' = k
  | _, _, _ => False

/-- The first parser of the list starts with `k`. -/
def GL.StartsWith (k : N.K) : {ε : ErrTy S} → {α : Type} → GL S N ε α → Prop
  | _, _, .nil => False
  | _, _, .cons g _ => g.StartsWith k

end

/-! ## Termination -/

/-- C35: on an input that ends, for every grammar without left recursion and without endless
repetition (see `SpecTerm`), a parse comes to an end, wherever it starts. -/
theorem C35_terminates {L : Nat} (hL : e.source L = none) (hν : Nullable D ν) (hlr : NoLeftRecursion D ν)
    (hD : D.All (progressL S N ν)) (hg : g.All (progressL S N ν)) (hi : Valid e i) :
    (∃ r j, Finishes e D g en i r j) ∨ ∃ msg, Crashes e D g en i msg := by
  obtain ⟨L', -, hL'⟩ := Length.exists hL
  obtain ⟨v, hv, n, hn⟩ := G.converges hL' hν hlr hD hg en (hL'.le.1 hi)
  have h1 := hn n (Nat.le_refl _)
  cases v with
  | ok x => exact .inl ⟨x.1, x.2, n, (parsesAt_iff hi).2 h1⟩
  | panic m => exact .inr ⟨m, n, (panicsAt_iff hi).2 h1⟩
  | oof => exact (hv rfl).elim
  | stuck => exact (G.sem_not_stuck D n g en hi h1).elim

/-- C35 with C17: if the grammar is also safe, the parse returns a result. -/
theorem C35_returns {F : N.K → Prop} {L : Nat} (hL : e.source L = none) (hν : Nullable D ν)
    (hlr : NoLeftRecursion D ν) (hD : D.All (progressL S N ν)) (hg : g.All (progressL S N ν))
    (hF : RecFreeNames F D) (hDs : D.All (safeL F)) (hd : ∀ k, (D k).isSome) (hgs : g.All (safeL F))
    (hi : Valid e i) : ∃ r j, Finishes e D g en i r j := by
  rcases C35_terminates (en := en) hL hν hlr hD hg hi with h | ⟨msg, n, h⟩
  · exact h
  · obtain ⟨s, h1, h2⟩ := hi.exists_stream rustAlloc
    exact (C17_never_panics_partial h1 hF hDs hd hgs msg (h rustAlloc s h1 h2)).elim

/-- C35 at the entry point: on a finite list of tokens, `parse_with_recovery` returns a result or
panics, and from some evaluation bound on it is always the same. -/
theorem C35_parse_with_recovery (xs : List S.I) (start : S.L) (hν : Nullable D ν)
    (hlr : NoLeftRecursion D ν) (hD : D.All (progressL S N ν)) (hg : g.All (progressL S N ν)) (al : Alloc) :
    ∃ n, (∃ r, ∀ m, n ≤ m → parseWithRecovery (g.prog D m) al (fun i => xs[i]?) start = .ok r) ∨
      ∃ msg, ∀ m, n ≤ m → parseWithRecovery (g.prog D m) al (fun i => xs[i]?) start = .panic msg := by
  have hL : (⟨fun i => xs[i]?, start⟩ : Env S).source xs.length = none := by simp
  obtain ⟨L', -, hL'⟩ := Length.exists hL
  obtain ⟨v, hv, n, hn⟩ := G.converges hL' hν hlr hD hg true (hL'.le.1 Valid.zero)
  have h0 : Reach al (⟨fun i => xs[i]?, start⟩ : Env S)
    (Stream.newWithLocation al (fun i => xs[i]?) start) := .new
  refine ⟨n, ?_⟩
  cases v with
  | ok x =>
    exact .inl ⟨x.1, fun m hm => (C32_parse_with_recovery al _ start).2
      ⟨x.2, (parsesAt_iff Valid.zero).2 (hn m hm)⟩⟩
  | panic msg =>
    refine .inr ⟨msg, fun m hm => ?_⟩
    have h1 := (G.run_panic D m g true h0 msg).2 (hn m hm)
    unfold parseWithRecovery
    rw [Out.bind_eq_panic]
    exact .inl h1
  | oof => exact (hv rfl).elim
  | stuck => exact (G.sem_not_stuck D n g true Valid.zero (hn n (Nat.le_refl _))).elim

/-- A grammar without recursive parsers has no left recursion, so only repetitions matter. -/
theorem C35_no_recursion (hK : N.K → False) : Nullable D ν ∧ NoLeftRecursion D ν ∧ D.All (progressL S N ν) :=
  ⟨fun k => (hK k).elim, ⟨fun x => (hK x.2).elim⟩, fun k => (hK k).elim⟩

/-- A concrete case: the grammar of nested brackets, with its recovery, meets the conditions; so do
lists of its items separated by commas (`3`). -/
theorem exNested_terminates : Nullable exNested (fun en _ => en) ∧ NoLeftRecursion exNested (fun en _ => en) ∧
    exNested.All (progressL exSig exRecNames fun en _ => en) ∧
    (G.separatedBy { allowTrailing := true } exNestedG (.just 3)).All
      (progressL exSig exRecNames fun en _ => en) := by
  refine ⟨?_, ⟨fun x => ⟨x, ?_⟩⟩, ?_, ?_⟩
  · intro k g en h
    cases h
    cases en <;> simp [G.mayEmpty, CS.mayEmpty]
  · rintro y ⟨g, h, hc⟩
    cases h
    simp [G.MayCall, G.mayEmpty, CS.MayCall, IS.MayCall] at hc
  · intro k g h
    cases h
    simp [G.All, CS.All, IS.All, progressL, G.Progresses, IS.Progresses]
  · simp [G.All, progressL, G.Progresses, G.mayEmpty]

/-- The conclusion, for all inputs of the example. -/
example (xs : List Nat) : ∃ r j, Finishes (exEnv xs) exNested
    (.separatedBy { allowTrailing := true } exNestedG (.just 3)) true 0 r j := by
  obtain ⟨h1, h2, h3, h4⟩ := exNested_terminates
  refine C35_returns (F := fun _ => False) (L := xs.length) (by simp) h1 h2 h3 h4
    (fun k g h => h.elim) ?_ (fun _ => rfl) (by simp [G.All, safeL, G.Safe]) Valid.zero
  intro k g h
  cases h
  simp only [G.All, CS.All, IS.All, safeL, G.Safe, IS.Safe, and_true, true_and]
  exact nestedDelimiters_neverPanics _ _

/-! ## Divergence -/

theorem diverges_of_oof (hi : Valid e i) (h : ∀ n, g.sem e D n en i = .oof) : Diverges e D g en i := by
  refine ⟨fun r j => ?_, fun msg => ?_⟩
  · rintro ⟨n, h1⟩
    have := (parsesAt_iff hi).1 h1
    rw [h n] at this; cases this
  · rintro ⟨n, h1⟩
    have := (panicsAt_iff hi).1 h1
    rw [h n] at this; cases this

/-- With some fuel a parse returns, so with another it returns the same or runs out of fuel. -/
theorem Finishes.sem (hi : Valid e i) {r : Res α ε.E} {j : Nat} (h : Finishes e D g en i r j) (n : Nat) :
    g.sem e D n en i = .ok (r, j) ∨ g.sem e D n en i = .oof := by
  obtain ⟨m, h1⟩ := h
  have h2 := (parsesAt_iff hi).1 h1
  by_cases ho : g.sem e D n en i = .oof
  · exact .inr ho
  · left
    rcases Nat.le_total n m with h3 | h3
    · rw [← G.sem_mono e D h3 g en i ho, h2]
    · rw [G.sem_mono e D h3 g en i (by rw [h2]; simp), h2]

/-- C35: repetition without maximum, of a parser that succeeds without consuming (with recovery as
in the repetition, and without), never ends: no result, no panic, whatever the minimum. -/
theorem C35_empty_repetition_diverges (hi : Valid e i) {c : RepCfg} (hmax : c.maximum = none) {o o' : α}
    (h1 : Finishes e D g en i (.success o) i) (h2 : Finishes e D g false i (.success o') i) :
    Diverges e D (.repeated c g) en i := by
  refine diverges_of_oof hi fun n => ?_
  rw [G.sem, G.den, qRepeat]
  have hat : ∀ k, c.atMax k = false := fun k => by rw [RepCfg.atMax, hmax]
  have hit : ∀ b : Bool, (∃ o, g.den e (callSem e D n) n (en && b) i = .ok (.success o, i)) ∨
      g.den e (callSem e D n) n (en && b) i = .oof := by
    intro b
    have : (en && b) = en ∨ (en && b) = false := by cases b <;> simp
    rcases this with h | h <;> rw [h]
    · rcases h1.sem hi n with h3 | h3
      · exact .inl ⟨_, h3⟩
      · exact .inr h3
    · rcases h2.sem hi n with h3 | h3
      · exact .inl ⟨_, h3⟩
      · exact .inr h3
  have : ∀ (f : Nat) (out : List α) (r : Option (List ε.E)),
      repLoopSem c (g.den e (callSem e D n) n) (none : Option (PSem ε.E α)) en i f out r i = .oof := by
    intro f
    induction f with
    | zero => intro out r; rfl
    | succ f ih =>
      intro out r
      simp only [repLoopSem, repItemSem, hat, Bool.and_false, Bool.false_eq_true, if_false]
      rcases hit (decide (out.length < c.minimum)) with ⟨o, h3⟩ | h3 <;> rw [h3]
      · exact ih _ _
      · rfl
  exact this n [] none

/-- A concrete case: `just(1).or_not().repeated()` on any input that does not start with `1`
(also on the empty input). -/
example : Diverges (exEnv [2]) exNoDefs (.repeated {} (.orNot (.just 1)) : ExG (List (Option Nat))) true 0 :=
  C35_empty_repetition_diverges Valid.zero rfl ⟨20, exParsesAt (r := .success none) (by decide +kernel)⟩
    ⟨20, exParsesAt (r := .success none) (by decide +kernel)⟩

/-- The conditions of `C35_terminates` exclude it: no `ν` makes it a repetition that progresses. -/
example (ν : Bool → Empty → Bool) :
    ¬(.repeated {} (.orNot (.just 1)) : ExG (List (Option Nat))).All (progressL exSig exNames ν) := by
  simp [G.All, progressL, G.Progresses, G.mayEmpty]

mutual

theorem G.starts_oof {e : Env S} {ρ : QEnv S N} {k : N.K} {n : Nat} (hρ : ∀ en i, ρ k en i = .oof) :
    ∀ {ε : ErrTy S} {α : Type} (g : G S N ε α), g.StartsWith k → ∀ en i, g.den e ρ n en i = .oof
  | _, _, .empty, h, _, _ => by simp only [G.StartsWith] at h
  | _, _, .none _, h, _, _ => by simp only [G.StartsWith] at h
  | _, _, .eof, h, _, _ => by simp only [G.StartsWith] at h
  | _, _, .just _, h, _, _ => by simp only [G.StartsWith] at h
  | _, _, .filter _, h, _, _ => by simp only [G.StartsWith] at h
  | _, _, .filterMap _, h, _, _ => by simp only [G.StartsWith] at h
  | _, _, .seq _ _, h, _, _ => by simp only [G.StartsWith] at h
  | _, _, .oneOf _, h, _, _ => by simp only [G.StartsWith] at h
  | _, _, .noneOf _, h, _, _ => by simp only [G.StartsWith] at h
  | _, _, .boxed g, h, en, i => by
    simp only [G.StartsWith] at h; simp only [G.den]; exact G.starts_oof hρ g h en i
  | _, _, .withError g, h, en, i => by
    simp only [G.StartsWith] at h; simp only [G.den]; exact G.starts_oof hρ g h en i
  | _, _, .to g v, h, en, i => by
    simp only [G.StartsWith] at h; simp only [G.den, qMap, G.starts_oof hρ g h en i]; rfl
  | _, _, .some g, h, en, i => by
    simp only [G.StartsWith] at h; simp only [G.den, qMap, G.starts_oof hρ g h en i]; rfl
  | _, _, .map f g, h, en, i => by
    simp only [G.StartsWith] at h; simp only [G.den, qMap, G.starts_oof hρ g h en i]; rfl
  | _, _, .mapWithSpan f g, h, en, i => by
    simp only [G.StartsWith] at h; simp only [G.den, qMapWithSpan, G.starts_oof hρ g h en i]; rfl
  | _, _, .mapErr f g, h, en, i => by
    simp only [G.StartsWith] at h; simp only [G.den, qMapErr, G.starts_oof hρ g h en i]; rfl
  | _, _, .mapErrWithSpan f g, h, en, i => by
    simp only [G.StartsWith] at h; simp only [G.den, qMapErrWithSpan, G.starts_oof hρ g h en i]; rfl
  | _, _, .tryMap f g, h, en, i => by
    simp only [G.StartsWith] at h; simp only [G.den, qTryMap, G.starts_oof hρ g h en i]; rfl
  | _, _, .then_ a b, h, en, i => by
    simp only [G.StartsWith] at h; simp only [G.den, qConcat2, G.starts_oof hρ a h en i]; rfl
  | _, _, .thenIgnore a b, h, en, i => by
    simp only [G.StartsWith] at h; simp only [G.den, qConcat2, G.starts_oof hρ a h en i]; rfl
  | _, _, .ignoreThen a b, h, en, i => by
    simp only [G.StartsWith] at h; simp only [G.den, qConcat2, G.starts_oof hρ a h en i]; rfl
  | _, _, .delimitedBy l m r, h, en, i => by
    simp only [G.StartsWith] at h; simp only [G.den, qConcat3, G.starts_oof hρ l h en i]; rfl
  | _, _, .paddedBy p m, h, en, i => by
    simp only [G.StartsWith] at h; simp only [G.den, qConcat3, G.starts_oof hρ p h en i]; rfl
  | _, _, .chain gs, h, en, i => by
    simp only [G.StartsWith] at h
    obtain ⟨q, qs, h1, h2⟩ := GL.starts_oof (n := n) (e := e) hρ gs h
    simp only [G.den, h1, qConcat, h2]; rfl
  | _, _, .or a b, h, en, i => by
    simp only [G.StartsWith] at h
    simp only [G.den, qAlternate, altFirstSem, G.starts_oof hρ a h false i]; rfl
  | _, _, .orNot g, h, en, i => by
    simp only [G.StartsWith] at h
    simp only [G.den, qAlternate, altFirstSem, qMap, G.starts_oof hρ g h false i]; rfl
  | _, _, .alters gs, h, en, i => by
    simp only [G.StartsWith] at h
    obtain ⟨q, qs, h1, h2⟩ := GL.starts_oof (n := n) (e := e) hρ gs h
    simp only [G.den, h1, qAlternate, altFirstSem, h2]; rfl
  | _, _, .repeated c g, h, en, i => by
    simp only [G.StartsWith] at h
    have hat : c.atMax 0 = false := by
      unfold RepCfg.atMax
      cases hm : c.maximum with
      | none => rfl
      | some m =>
        cases m with
        | zero => exact (h.1 hm).elim
        | succ m => rfl
    simp only [G.den, qRepeat]
    cases n with
    | zero => rfl
    | succ n =>
      simp only [repLoopSem, repItemSem, List.length_nil, hat, Bool.and_false, Bool.false_eq_true, if_false,
        G.starts_oof hρ g h.2]
      rfl
  | _, _, .separatedBy c g sep, h, en, i => by
    simp only [G.StartsWith] at h
    have hat : c.atMax 0 = false := by
      unfold RepCfg.atMax
      cases hm : c.maximum with
      | none => rfl
      | some m =>
        cases m with
        | zero => exact (h.1 hm).elim
        | succ m => rfl
    have hg := fun h' => G.starts_oof (n := n) (e := e) hρ g h'
    have hs := fun h' => G.starts_oof (n := n) (e := e) hρ sep h'
    simp only [G.den, qRepeat]
    cases n with
    | zero => rfl
    | succ n =>
      rcases h.2 with h2 | h2
      · simp only [repLoopSem, repItemSem, List.length_nil, List.isEmpty_nil, hat, h2.1, Bool.and_false,
          Bool.not_true, Bool.or_false, Bool.false_eq_true, if_false, hg h2.2]
        rfl
      · simp only [repLoopSem, repItemSem, List.length_nil, List.isEmpty_nil, hat, h2.1, Bool.and_false,
          Bool.not_true, Bool.or_true, Bool.false_eq_true, if_false, hs h2.2]
        rfl
  | _, _, .toRecover g st, h, en, i => by
    simp only [G.StartsWith] at h; simp only [G.den, qToRecover, G.starts_oof hρ g h en i]; rfl
  | _, _, .call k', h, en, i => by
    simp only [G.StartsWith] at h
    subst h
    simp only [G.den]; exact hρ en i

theorem GL.starts_oof {e : Env S} {ρ : QEnv S N} {k : N.K} {n : Nat} (hρ : ∀ en i, ρ k en i = .oof) :
    ∀ {ε : ErrTy S} {α : Type} (gs : GL S N ε α), gs.StartsWith k →
      ∃ q qs, gs.den e ρ n = q :: qs ∧ ∀ en i, q en i = .oof
  | _, _, .nil, h => by simp only [GL.StartsWith] at h
  | _, _, .cons g gs, h => by
    simp only [GL.StartsWith] at h
    exact ⟨_, _, by rw [GL.den], fun en i => G.starts_oof hρ g h en i⟩

end

/-- C35: a left recursive parser, one that calls itself before doing anything else, never returns,
on any input, at any position. -/
theorem C35_left_recursion_diverges {k : N.K} {g : G S N (N.err k) (N.out k)} (hk : D k = some g)
    (hg : g.StartsWith k) (hi : Valid e i) : Diverges e D (.call k) en i := by
  have : ∀ (n : Nat) en i, callSem e D n k en i = .oof := by
    intro n
    induction n with
    | zero => intro en i; rfl
    | succ n ih =>
      intro en i
      simp only [callSem, hk]
      exact G.starts_oof ih g hg en i
  refine diverges_of_oof hi fun n => ?_
  rw [G.sem, G.den]
  exact this n en i

/-- Left recursion: `rec = rec.then_ignore(just(1)).or(just(0))`. -/
def exLeft : Defs exSig exRecNames := fun _ => some (.or (.thenIgnore (.call ()) (.just 1)) (.just 0))

/-- It meets the condition, and is excluded by those of `C35_terminates`. -/
example : Diverges (exEnv [0, 1, 1]) exLeft (.call ()) true 0 ∧ ∀ ν, ¬NoLeftRecursion exLeft ν := by
  refine ⟨C35_left_recursion_diverges (D := exLeft) (k := ()) rfl (by simp only [G.StartsWith]) Valid.zero, ?_⟩
  intro ν h
  have : ∀ x : Bool × Unit, x.1 = false → False := by
    intro x
    induction x using h.induction with
    | _ x ih =>
    intro hx
    refine ih (false, ()) ⟨_, rfl, ?_⟩ rfl
    simp [G.MayCall]
  exact this (false, ()) rfl

/-- C35: the strategy `while_not(p, attempt_to().restart())` goes on for ever if the failed parser
started at two tokens that do not satisfy `p`. -/
theorem C35_while_not_restart_diverges (hi : Valid e i) {p : S.I → Bool} {t t' : S.I} {x : Nat}
    {es : List ε.E} (ht : e.source i = some t) (hp : p t = false) (ht' : e.source (i + 1) = some t')
    (hp' : p t' = false) (hf : Finishes e D g true i (.failed x es) i) :
    Diverges e D (.toRecover g (.orFail (.whileNot .attemptTo p (.restart .attemptTo)))) true i := by
  have hx : i ≤ x := by
    obtain ⟨n, h⟩ := hf
    exact ((G.sem_valid D n g true hi ((parsesAt_iff hi).1 h)).2.2 _ _ rfl).1
  refine diverges_of_oof hi fun n => ?_
  rw [G.sem, G.den, qToRecover]
  rcases hf.sem hi n with h | h
  · rw [G.sem] at h
    rw [h]
    have hloop : ∀ (f fa : Nat) (es : List ε.E), ∀ i', (i' = i ∨ i' = i + 1) →
        whileNotSem e p ((IS.attemptTo : IS S N ε α).restart.den e (callSem e D n) n)
          (g.den e (callSem e D n) n) i f fa es i' = .oof := by
      intro f
      induction f with
      | zero => intro fa es i' _; rfl
      | succ f ih =>
        intro fa es i' hi'
        have h1 : e.tokIs p true i' = false := by
          rcases hi' with rfl | rfl
          · rw [Env.tokIs, ht]; exact hp
          · rw [Env.tokIs, ht']; exact hp'
        rw [whileNotSem, h1]
        have h2 : (IS.attemptTo : IS S N ε α).restart.den e (callSem e D n) n (g.den e (callSem e D n) n) i fa es i' =
            .ok ((none, fa, es), i) := by
          rw [IS.den, IS.den]; rfl
        rw [h2]
        show whileNotSem e p _ _ i f fa es (e.next i) = .oof
        refine ih fa es (e.next i) (.inr ?_)
        simp [Env.next, ht]
    show (do
      let fa ← saveAtSem x i
      let r ← (CS.orFail (.whileNot .attemptTo p (.restart .attemptTo)) : CS S N ε α).den e (callSem e D n) n
        (g.den e (callSem e D n) n) i fa es i
      toRecoverEndSem x i r : Out (Res α ε.E × Nat)) = .oof
    rw [saveAtSem, if_neg (by omega)]
    show (do
      let r ← (CS.orFail (.whileNot .attemptTo p (.restart .attemptTo)) : CS S N ε α).den e (callSem e D n) n
        (g.den e (callSem e D n) n) i x es i
      toRecoverEndSem x i r : Out (Res α ε.E × Nat)) = .oof
    have h3 : (CS.orFail (.whileNot .attemptTo p (.restart .attemptTo)) : CS S N ε α).den e (callSem e D n) n
        (g.den e (callSem e D n) n) i x es i = .oof := by
      rw [CS.den, IS.den]
      show whileNotSem e p _ _ i n x es i = .oof
      exact hloop n x es i (.inl rfl)
    rw [h3]; rfl
  · rw [G.sem] at h
    rw [h]; rfl

/-- A concrete case: `just(1).to_recover(attempt_to().while_not(just 9, attempt_to().restart()).or_fail())`
on `2 2 9`. -/
example : Diverges (exEnv [2, 2, 9]) exNoDefs
    (.toRecover (.just 1) (.orFail (.whileNot .attemptTo (fun t => t == 9) (.restart .attemptTo))) : ExG Nat) true 0 :=
  C35_while_not_restart_diverges Valid.zero (t := 2) (t' := 2) rfl rfl rfl rfl
    ⟨20, exParsesAt (r := .failed 0 [(simpleErr exSig).expectedFound [some 1] (some 2)
      (.span ((exEnv [2, 2, 9]).here 0))]) (by decide +kernel)⟩

end PPC
