import Verif.SemPeg

/-!
# From derivations to the positional semantics: lemmas
-/

namespace PPC

variable {S : Sig} {N : Names S} {α β γ δ : Type}

/-- For all sufficiently large bounds. -/
def Evt (P : Nat → Prop) : Prop := ∃ n, ∀ m, n ≤ m → P m

theorem Evt.mono {P Q : Nat → Prop} (h : Evt P) (hPQ : ∀ m, P m → Q m) : Evt Q := by
  obtain ⟨n, h⟩ := h
  exact ⟨n, fun m hm => hPQ m (h m hm)⟩

theorem Evt.and {P Q : Nat → Prop} (h : Evt P) (h' : Evt Q) : Evt fun m => P m ∧ Q m := by
  obtain ⟨n, h⟩ := h
  obtain ⟨n', h'⟩ := h'
  exact ⟨max n n', fun m hm => ⟨h m (by omega), h' m (by omega)⟩⟩

theorem Evt.pure {P : Nat → Prop} (h : ∀ m, P m) : Evt P := ⟨0, fun m _ => h m⟩

/-- Without recovery, `q` fails at `i`. -/
def FailsAny {E : Type} (q : PSem E α) (i : Nat) : Prop := ∃ x es j, q false i = .ok (.failed x es, j)

/-- Without recovery, `q` fails at `i` and stays there. -/
def FailsNR {E : Type} (q : PSem E α) (i : Nat) : Prop := ∃ x es, q false i = .ok (.failed x es, i)

theorem FailsAny.stays {E : Type} {q : PSem E α} {i : Nat} (h : FailsAny q i) (hw : RW q) : FailsNR q i := by
  obtain ⟨x, es, j, h⟩ := h
  cases hw _ _ _ _ h
  exact ⟨x, es, h⟩

/-- One iteration of a repetition. -/
def repStepSem {E : Type} (cfg : RepCfg) (item : PSem E α) (sep : Option (PSem E β)) (en : Bool)
    (start : Nat) (again : List α → Option (List E) → Nat → Out (Res (List α) E × Nat))
    (out : List α) (r : Option (List E)) (i : Nat) : Out (Res (List α) E × Nat) :=
  if !cfg.allowTrailing && cfg.atMax out.length then finishSem en out r i
  else
    match sep, (!out.isEmpty || cfg.allowLeading) with
    | some sep, true => do
      match ← sep (en && decide (out.length < cfg.minimum) && !out.isEmpty) i with
      | (.success _, j) => repItemSem cfg item en start again out r (some i) j
      | (.recovered _ es, j) => repItemSem cfg item en start again out (extendRec r es) (some i) j
      | (.failed x es, j) =>
        if out.isEmpty then repItemSem cfg item en start again out r (some i) j
        else if cfg.minimum ≤ out.length then .ok (.success out, j)
        else .ok (.failed x es, start)
    | _, _ => repItemSem cfg item en start again out r none i

theorem repLoopSem_succ {E : Type} (cfg : RepCfg) (item : PSem E α) (sep : Option (PSem E β)) (en : Bool)
    (start fuel : Nat) (out : List α) (r : Option (List E)) (i : Nat) :
    repLoopSem cfg item sep en start (fuel + 1) out r i =
      repStepSem cfg item sep en start (repLoopSem cfg item sep en start fuel) out r i := by
  rw [repLoopSem]
  unfold repStepSem
  rcases sep with _ | sep
  · rfl
  · cases (!out.isEmpty || cfg.allowLeading) with
    | false => rfl
    | true =>
      simp only
      congr 1
      cases sep (en && decide (out.length < cfg.minimum) && !out.isEmpty) i with
      | ok p => obtain ⟨r, j⟩ := p; cases r <;> rfl
      | panic m => rfl
      | oof => rfl
      | stuck => rfl

section

variable {E : Type} {c : RepCfg} {item : PSem E α} {start : Nat}
  {again : List α → Option (List E) → Nat → Out (Res (List α) E × Nat)} {out : List α}

theorem not_full_atMax (h : ¬ c.Full out.length) : c.atMax out.length = false := by
  cases h1 : c.atMax out.length with
  | false => rfl
  | true => exact (h (atMax_iff.1 h1)).elim

theorem repItem_another {before : Option Nat} {i j : Nat} {o : α} (hf : ¬ c.Full out.length)
    (h : item false i = .ok (.success o, j)) :
    repItemSem c item false start again out none before i = again (out ++ [o]) none j := by
  unfold repItemSem
  simp [not_full_atMax hf, h]

theorem repItem_fail {before : Option Nat} {i : Nat} (hf : ¬ c.Full out.length)
    (h : FailsNR item i) : (c.minimum ≤ out.length →
      repItemSem c item false start again out none before i = .ok (.success out,
        match before with
        | some b => if c.allowTrailing then i else b
        | none => i)) ∧
    (out.length < c.minimum → ∃ x es,
      repItemSem c item false start again out none before i = .ok (.failed x es, start)) := by
  obtain ⟨x, es, h⟩ := h
  unfold repItemSem
  constructor
  · intro hm
    simp [not_full_atMax hf, h, hm]
    rfl
  · intro hm
    exact ⟨x, es, by simp [not_full_atMax hf, h, Nat.not_le.2 hm]⟩

theorem repItem_full {before : Option Nat} {i : Nat} (ht : c.allowTrailing = true)
    (hf : c.Full out.length) :
    repItemSem c item false start again out none before i = .ok (.success out, i) := by
  unfold repItemSem
  simp [ht, atMax_iff.2 hf, finishSem]

theorem wants_true (h : c.WantsSep out.length) : (!out.isEmpty || c.allowLeading) = true := by
  rcases h with h | h
  · cases hl : out with
    | nil => simp [hl] at h
    | cons x xs => rfl
  · rw [h]; simp

theorem wants_false (h : ¬ c.WantsSep out.length) : (!out.isEmpty || c.allowLeading) = false := by
  cases hl : out with
  | nil =>
    cases hh : c.allowLeading with
    | false => rfl
    | true => exact (h (.inr hh)).elim
  | cons x xs => exact (h (.inl (by simp [hl]))).elim

theorem step_none {i : Nat} (hf : ¬ (c.allowTrailing = false ∧ c.Full out.length)) :
    repStepSem c item (none : Option (PSem E β)) false start again out none i =
      repItemSem c item false start again out none none i := by
  unfold repStepSem
  rw [if_neg]
  simpa [atMax_iff] using hf

theorem step_unwanted {q : PSem E β} {i : Nat} (hf : ¬ (c.allowTrailing = false ∧ c.Full out.length))
    (hw : ¬ c.WantsSep out.length) :
    repStepSem c item (some q) false start again out none i =
      repItemSem c item false start again out none none i := by
  unfold repStepSem
  rw [if_neg (by simpa [atMax_iff] using hf), wants_false hw]

theorem step_sep {q : PSem E β} {i j : Nat} {x : β} (hf : ¬ (c.allowTrailing = false ∧ c.Full out.length))
    (hw : c.WantsSep out.length) (h : q false i = .ok (.success x, j)) :
    repStepSem c item (some q) false start again out none i =
      repItemSem c item false start again out none (some i) j := by
  unfold repStepSem
  rw [if_neg (by simpa [atMax_iff] using hf), wants_true hw]
  simp [h]

theorem step_noLeading {q : PSem E β} {i : Nat} (hf : ¬ (c.allowTrailing = false ∧ c.Full out.length))
    (hl : out.length = 0) (hw : c.allowLeading = true) (h : FailsNR q i) :
    repStepSem c item (some q) false start again out none i =
      repItemSem c item false start again out none (some i) i := by
  obtain ⟨x, es, h⟩ := h
  have : out = [] := List.length_eq_zero_iff.1 hl
  unfold repStepSem
  rw [if_neg (by simpa [atMax_iff] using hf), wants_true (.inr hw)]
  simp [h, this]

theorem step_noSep {q : PSem E β} {i : Nat} (hf : ¬ (c.allowTrailing = false ∧ c.Full out.length))
    (hl : 0 < out.length) (h : FailsNR q i) : (c.minimum ≤ out.length →
      repStepSem c item (some q) false start again out none i = .ok (.success out, i)) ∧
      (out.length < c.minimum → ∃ x es,
        repStepSem c item (some q) false start again out none i = .ok (.failed x es, start)) := by
  obtain ⟨x, es, h⟩ := h
  have hn : out.isEmpty = false := by
    cases out with
    | nil => simp at hl
    | cons _ _ => rfl
  unfold repStepSem
  rw [if_neg (by simpa [atMax_iff] using hf), wants_true (.inl hl)]
  constructor
  · intro hm
    simp [h, hn, hm]
  · intro hm
    exact ⟨x, es, by simp [h, hn, Nat.not_le.2 hm]⟩

end

theorem altCombine_two {ε : ErrTy S} {fails : List (Nat × List ε.E)} (h : 2 ≤ fails.length) (i : Nat) :
    ∃ x es, (altCombineSem ε fails i : Out (Res α ε.E × Nat)) = .ok (.failed x es, i) := by
  match fails, h with
  | (x, es) :: (x', es') :: rest, _ =>
    unfold altCombineSem
    simp only
    split
    · split
      · exact ⟨_, _, rfl⟩
      · exact ⟨_, _, rfl⟩
    · exact ⟨_, _, rfl⟩

theorem alternate_fails {ε : ErrTy S} {qs : List (PSem ε.E α)} {i j : Nat} {fs : List (FailSem ε.E α)}
    (h : altFirstSem qs [] i = .ok (.inr fs, j)) (hl : 2 ≤ fs.length) : FailsAny (qAlternate ε qs) i := by
  unfold FailsAny qAlternate
  rw [h]
  obtain ⟨x, es, h1⟩ := altCombine_two (α := α) (ε := ε)
    (fails := (sortDesc fs).map fun f => (f.1, f.2.1)) (by rw [List.length_map, length_sortDesc]; exact hl) j
  exact ⟨x, es, j, by
    have hne' : fs ≠ [] := by rintro rfl; simp at hl
    simp [hne', h1]⟩

theorem alternate_accepts {ε : ErrTy S} {qs : List (PSem ε.E α)} {i j : Nat} {o : α}
    (h : altFirstSem qs [] i = .ok (.inl o, j)) : qAlternate ε qs false i = .ok (.success o, j) := by
  unfold qAlternate
  rw [h]
  rfl

/-- Semantics of an optional separator with bound `m`. -/
abbrev sepAt (e : Env S) (D : Defs S N) (m : Nat) {ε : ErrTy S} (sep : Option (G S N ε β)) :
    Option (PSem ε.E β) := sep.map fun g => g.den e (callSem e D m) m

/-- All parts of an optional separator are parsing expressions. -/
def sepAll {ε : ErrTy S} (sep : Option (G S N ε β)) : Prop := ∀ g, sep = some g → g.All (plainL S N) ∧ g.Tidy

theorem InitTidy.tail {ε : ErrTy S} {g : G S N ε α} {gs : GL S N ε α} (h : (GL.cons g gs).InitTidy) :
    gs.InitTidy := by
  cases gs with
  | nil => trivial
  | cons g' gs => rw [GL.InitTidy] at h; exact h.2

theorem InitTidy.head {ε : ErrTy S} {g : G S N ε α} {gs : GL S N ε α} (h : (GL.cons g gs).InitTidy)
    (hn : gs ≠ .nil) : g.Tidy := by
  cases gs with
  | nil => exact (hn rfl).elim
  | cons g' gs => rw [GL.InitTidy] at h; exact h.1

theorem AcceptsFirst.ne_nil {e : Env S} {D : Defs S N} {ε : ErrTy S} {gs : GL S N ε α} {i j : Nat} {o : α}
    (h : AcceptsFirst e D gs i o j) : gs ≠ .nil := by
  rintro rfl
  cases h

theorem matchSeq_complete {e : Env S} : ∀ (items : List S.I) (i : Nat),
    (∀ k x, items[k]? = some x → ∃ t, e.source (i + k) = some t ∧ S.eqI t x = true) →
    matchSeq e items i = none
  | [], _, _ => rfl
  | x :: xs, i, h => by
    obtain ⟨t, h1, h2⟩ := h 0 x (by simp)
    rw [matchSeq, if_pos, matchSeq_complete xs (i + 1)]
    · intro k y hk
      obtain ⟨t', h3, h4⟩ := h (k + 1) y (by simpa using hk)
      exact ⟨t', by rw [← h3]; congr 1; omega, h4⟩
    · have h1' : e.source i = some t := h1
      rw [h1']; exact h2

theorem matchSeq_fails {e : Env S} {items : List S.I} {i k : Nat} {x : S.I} (hk : items[k]? = some x)
    (h : ∀ t, e.source (i + k) = some t → S.eqI t x = false) : ∃ j y, matchSeq e items i = some (j, y) := by
  cases hm : matchSeq e items i with
  | none =>
    obtain ⟨t, h1, h2⟩ := matchSeq_matches hm k x hk
    rw [h t h1] at h2; cases h2
  | some p => exact ⟨p.1, p.2, rfl⟩

section

variable {e : Env S} {D : Defs S N}

set_option maxHeartbeats 4000000

mutual

theorem Accepts.sound (hD : D.Plain) {ε : ErrTy S} {α : Type} {g : G S N ε α} {i j : Nat} {o : α} :
    Accepts e D g i o j → g.All (plainL S N) → Evt fun m => g.den e (callSem e D m) m false i = .ok (.success o, j)
  | .empty, _ => .pure fun m => by rw [G.den]; rfl
  | .none, _ => .pure fun m => by rw [G.den]; rfl
  | .eof h, _ => .pure fun m => by rw [G.den, qEnd, h]
  | .just h h', _ => .pure fun m => by rw [G.den, qJust, h]; simp [isTok, h']
  | .filter h h', _ => .pure fun m => by rw [G.den, qFilter, h]; simp [h']
  | .filterMap h h', _ => .pure fun m => by rw [G.den, qFilterMap, h]; simp [h']
  | .seq h, _ => .pure fun m => by rw [G.den, qSeq, matchSeq_complete _ _ h]
  | .oneOf h hx h', _ => .pure fun m => by
    rw [G.den, qOneOf, h]
    simp only
    rw [if_pos (List.any_eq_true.2 ⟨_, hx, h'⟩)]
  | .noneOf h h', _ => .pure fun m => by
    rw [G.den, qNoneOf, h]
    simp only
    rw [if_neg]
    intro hh
    obtain ⟨x, hx, h3⟩ := List.any_eq_true.1 hh
    rw [h' x hx] at h3; cases h3
  | .boxed h, hg => by
    rw [G.All] at hg
    exact (h.sound hD hg.2).mono fun m h1 => by rw [G.den]; exact h1
  | .withError h, hg => by
    rw [G.All] at hg
    exact (h.sound hD hg.2).mono fun m h1 => by rw [G.den]; exact h1
  | .to h, hg => by
    rw [G.All] at hg
    exact (h.sound hD hg.2).mono fun m h1 => by rw [G.den, qMap, h1]; rfl
  | .some h, hg => by
    rw [G.All] at hg
    exact (h.sound hD hg.2).mono fun m h1 => by rw [G.den, qMap, h1]; rfl
  | .map (f := f) (o := o) h, hg => by
    rw [G.All] at hg
    exact (h.sound hD hg.2).mono fun m h1 => by rw [G.den, qMap, h1]; rfl
  | .mapWithSpan (f := f) (o := o) h, hg => by
    rw [G.All] at hg
    exact (h.sound hD hg.2).mono fun m h1 => by rw [G.den, qMapWithSpan, h1]; rfl
  | .mapErr h, hg => by
    rw [G.All] at hg
    exact (h.sound hD hg.2).mono fun m h1 => by rw [G.den, qMapErr, h1]; rfl
  | .mapErrWithSpan h, hg => by
    rw [G.All] at hg
    exact (h.sound hD hg.2).mono fun m h1 => by rw [G.den, qMapErrWithSpan, h1]; rfl
  | .tryMap h h', hg => by
    rw [G.All] at hg
    exact (h.sound hD hg.2).mono fun m h1 => by
      rw [G.den, qTryMap, h1]; simp [tryMapStep, h']
  | .then_ h h', hg => by
    rw [G.All] at hg
    exact ((h.sound hD hg.2.1).and (h'.sound hD hg.2.2)).mono fun m ⟨h1, h2⟩ => by
      rw [G.den, qConcat2, h1]; simp [concatLastSem, h2, finishSem]
  | .thenIgnore h h', hg => by
    rw [G.All] at hg
    exact ((h.sound hD hg.2.1).and (h'.sound hD hg.2.2)).mono fun m ⟨h1, h2⟩ => by
      rw [G.den, qConcat2, h1]; simp [concatLastSem, h2, finishSem]
  | .ignoreThen h h', hg => by
    rw [G.All] at hg
    exact ((h.sound hD hg.2.1).and (h'.sound hD hg.2.2)).mono fun m ⟨h1, h2⟩ => by
      rw [G.den, qConcat2, h1]; simp [concatLastSem, h2, finishSem]
  | .delimitedBy h h' h'', hg => by
    rw [G.All] at hg
    exact ((h.sound hD hg.2.1).and ((h'.sound hD hg.2.2.1).and (h''.sound hD hg.2.2.2))).mono
      fun m ⟨h1, h2, h3⟩ => by
      rw [G.den, qConcat3, h1]; simp [concatMidSem, concatLastSem, h2, h3, finishSem]
  | .paddedBy h h' h'', hg => by
    rw [G.All] at hg
    exact ((h.sound hD hg.2.1).and ((h'.sound hD hg.2.2).and (h''.sound hD hg.2.1))).mono
      fun m ⟨h1, h2, h3⟩ => by
      rw [G.den, qConcat3, h1]; simp [concatMidSem, concatLastSem, h2, h3, finishSem]
  | .chain h, hg => by
    rw [G.All] at hg
    exact (h.sound hD hg.2).mono fun m h1 => by rw [G.den]; exact h1.2
  | .orLeft h, hg => by
    rw [G.All] at hg
    exact (h.sound hD hg.2.1).mono fun m h1 => by
      rw [G.den]
      exact alternate_accepts (by simp [altFirstSem, h1])
  | .orRight h h', hg => by
    rw [G.All] at hg
    exact ((h.sound hD hg.2.1).and (h'.sound hD hg.2.2)).mono fun m ⟨h0, h2⟩ => by
      rw [G.den]
      obtain ⟨x, es, h1⟩ := h0.stays (G.sem_rw hD m _ hg.2.1 hg.1)
      exact alternate_accepts (by simp [altFirstSem, h1, h2])
  | .orNotSome h, hg => by
    rw [G.All] at hg
    exact (h.sound hD hg.2).mono fun m h1 => by
      rw [G.den]
      exact alternate_accepts (by simp [altFirstSem, qMap, h1, Res.map])
  | .orNotNone h, hg => by
    rw [G.All] at hg
    exact (h.sound hD hg.2).mono fun m h0 => by
      rw [G.den]
      obtain ⟨x, es, h1⟩ := h0.stays (G.sem_rw hD m _ hg.2 hg.1)
      exact alternate_accepts (by simp [altFirstSem, qMap, qNone, h1, Res.map])
  | .alters h, hg => by
    rw [G.All] at hg
    exact (h.sound hD hg.2 hg.1.2).mono fun m h1 => by
      rw [G.den]
      exact alternate_accepts (h1 [])
  | .repeated h, hg => by
    rw [G.All] at hg
    have hc : ∀ m, _ → _ := hg.1.1
    obtain ⟨n, h1⟩ := h.sound hD hc ⟨hg.2, hg.1.2⟩ (fun g h => by cases h)
    exact ⟨n, fun m hm => by
      simp only [G.den]
      simpa [qRepeat] using h1 m m hm hm i [] rfl⟩
  | .separatedBy h, hg => by
    rw [G.All] at hg
    have hc : ∀ m, _ → _ := hg.1.1
    obtain ⟨n, h1⟩ := h.sound hD hc ⟨hg.2.1, hg.1.2.1⟩ (fun g h => by cases h; exact ⟨hg.2.2, hg.1.2.2⟩)
    exact ⟨n, fun m hm => by
      simp only [G.den]
      simpa [qRepeat] using h1 m m hm hm i [] rfl⟩
  | .toRecover h, hg => by
    rw [G.All] at hg
    exact (h.sound hD hg.2.1).mono fun m h1 => by rw [G.den, qToRecover, h1]; rfl
  | .call (k := k) hk h, _ => by
    obtain ⟨n, h1⟩ := h.sound hD (hD k _ hk).1
    refine ⟨n + 1, fun m hm => ?_⟩
    obtain ⟨m, rfl⟩ : ∃ m', m = m' + 1 := ⟨m - 1, by omega⟩
    rw [G.den, callSem, hk]
    exact h1 m (by omega)

theorem Rejects.sound (hD : D.Plain) {ε : ErrTy S} {α : Type} {g : G S N ε α} {i : Nat} :
    Rejects e D g i → g.All (plainL S N) → Evt fun m => FailsAny (g.den e (callSem e D m) m) i
  | .eof h, _ => .pure fun m => by
    rw [G.den]; exact ⟨_, _, _, by rw [qEnd, h]⟩
  | .just (ε := ε) (x := x) h, _ => .pure fun m => by
    rw [G.den]
    refine ⟨i, [ε.expectedFound [Option.some x] (e.source i) (.span (e.here i))], i, ?_⟩
    rw [qJust, if_neg]
    · rfl
    · intro h1
      obtain ⟨t, h2, h3⟩ := isTok_true h1
      rw [h t h2] at h3; cases h3
  | .filter h, _ => .pure fun m => by
    rw [G.den]
    cases hs : e.source i with
    | none => exact ⟨_, _, _, by rw [qFilter, hs]; rfl⟩
    | some t => exact ⟨_, _, _, by rw [qFilter, hs]; simp only [h t hs]; rfl⟩
  | .filterMap h, _ => .pure fun m => by
    rw [G.den]
    cases hs : e.source i with
    | none => exact ⟨_, _, _, by rw [qFilterMap, hs]; rfl⟩
    | some t => exact ⟨_, _, _, by rw [qFilterMap, hs]; simp only [Option.bind_some, h t hs]; rfl⟩
  | .seq hk h, _ => .pure fun m => by
    rw [G.den]
    obtain ⟨j, y, h1⟩ := matchSeq_fails hk h
    exact ⟨_, _, _, by rw [qSeq, h1]; rfl⟩
  | .oneOf (items := items) h, _ => .pure fun m => by
    rw [G.den]
    cases hs : e.source i with
    | none => exact ⟨_, _, _, by rw [qOneOf, hs]; rfl⟩
    | some t =>
      have : (items.any fun x => S.eqI t x) = false := by
        rw [List.any_eq_false]
        intro x hx
        rw [h t hs x hx]; simp
      exact ⟨_, _, _, by rw [qOneOf, hs]; simp only [this]; rfl⟩
  | .noneOf (items := items) h, _ => .pure fun m => by
    rw [G.den]
    cases hs : e.source i with
    | none => exact ⟨_, _, _, by rw [qNoneOf, hs]⟩
    | some t =>
      obtain ⟨x, hx, h3⟩ := h t hs
      have : (items.any fun x => S.eqI t x) = true := List.any_eq_true.2 ⟨x, hx, h3⟩
      exact ⟨_, _, _, by rw [qNoneOf, hs]; simp only [this]; rfl⟩
  | .boxed h, hg => by
    rw [G.All] at hg
    exact (h.sound hD hg.2).mono fun m h1 => by rw [G.den]; exact h1
  | .withError h, hg => by
    rw [G.All] at hg
    exact (h.sound hD hg.2).mono fun m h1 => by rw [G.den]; exact h1
  | .to h, hg => by
    rw [G.All] at hg
    exact (h.sound hD hg.2).mono fun m ⟨x, es, j, h1⟩ => by
      rw [G.den]; exact ⟨x, es, j, by rw [qMap, h1]; rfl⟩
  | .some h, hg => by
    rw [G.All] at hg
    exact (h.sound hD hg.2).mono fun m ⟨x, es, j, h1⟩ => by
      rw [G.den]; exact ⟨x, es, j, by rw [qMap, h1]; rfl⟩
  | .map h, hg => by
    rw [G.All] at hg
    exact (h.sound hD hg.2).mono fun m ⟨x, es, j, h1⟩ => by
      rw [G.den]; exact ⟨x, es, j, by rw [qMap, h1]; rfl⟩
  | .mapWithSpan h, hg => by
    rw [G.All] at hg
    exact (h.sound hD hg.2).mono fun m ⟨x, es, j, h1⟩ => by
      rw [G.den]; exact ⟨x, es, j, by rw [qMapWithSpan, h1]; rfl⟩
  | .mapErr h, hg => by
    rw [G.All] at hg
    exact (h.sound hD hg.2).mono fun m ⟨x, es, j, h1⟩ => by
      rw [G.den]; exact ⟨x, _, j, by rw [qMapErr, h1]; rfl⟩
  | .mapErrWithSpan h, hg => by
    rw [G.All] at hg
    exact (h.sound hD hg.2).mono fun m ⟨x, es, j, h1⟩ => by
      rw [G.den]; exact ⟨x, _, j, by rw [qMapErrWithSpan, h1]; rfl⟩
  | .tryMap h, hg => by
    rw [G.All] at hg
    exact (h.sound hD hg.2).mono fun m ⟨x, es, j, h1⟩ => by
      rw [G.den]; exact ⟨x, es, j, by rw [qTryMap, h1]; rfl⟩
  | .tryMapErr (f := f) (es := es) h h', hg => by
    rw [G.All] at hg
    have hf : ∀ a sp, f a sp ≠ .err [] := hg.1.1
    exact (h.sound hD hg.2).mono fun m h1 => by
      rw [G.den]
      refine ⟨i, es, i, ?_⟩
      rw [qTryMap, h1]
      cases es with
      | nil => exact (hf _ _ h').elim
      | cons x xs => simp [tryMapStep, h']
  | .tryMapRecovered (f := f) (es := es) h h', hg => by
    rw [G.All] at hg
    have hf : ∀ a sp o, f a sp ≠ .recovered o [] := hg.1.2
    exact (h.sound hD hg.2).mono fun m h1 => by
      rw [G.den, FailsAny, qTryMap, h1]
      cases es with
      | nil => exact (hf _ _ _ h').elim
      | cons x xs => simp [tryMapStep, h']
  | .thenFirst h, hg => by
    rw [G.All] at hg
    exact (h.sound hD hg.2.1).mono fun m ⟨x, es, j, h1⟩ => by
      rw [G.den]; exact ⟨x, es, j, by rw [qConcat2, h1]; rfl⟩
  | .thenSecond h h', hg => by
    rw [G.All] at hg
    exact ((h.sound hD hg.2.1).and (h'.sound hD hg.2.2)).mono fun m ⟨h1, x, es, j, h2⟩ => by
      rw [G.den]; exact ⟨x, es, i, by rw [qConcat2, h1]; simp [concatLastSem, h2]⟩
  | .thenIgnoreFirst h, hg => by
    rw [G.All] at hg
    exact (h.sound hD hg.2.1).mono fun m ⟨x, es, j, h1⟩ => by
      rw [G.den]; exact ⟨x, es, j, by rw [qConcat2, h1]; rfl⟩
  | .thenIgnoreSecond h h', hg => by
    rw [G.All] at hg
    exact ((h.sound hD hg.2.1).and (h'.sound hD hg.2.2)).mono fun m ⟨h1, x, es, j, h2⟩ => by
      rw [G.den]; exact ⟨x, es, i, by rw [qConcat2, h1]; simp [concatLastSem, h2]⟩
  | .ignoreThenFirst h, hg => by
    rw [G.All] at hg
    exact (h.sound hD hg.2.1).mono fun m ⟨x, es, j, h1⟩ => by
      rw [G.den]; exact ⟨x, es, j, by rw [qConcat2, h1]; rfl⟩
  | .ignoreThenSecond h h', hg => by
    rw [G.All] at hg
    exact ((h.sound hD hg.2.1).and (h'.sound hD hg.2.2)).mono fun m ⟨h1, x, es, j, h2⟩ => by
      rw [G.den]; exact ⟨x, es, i, by rw [qConcat2, h1]; simp [concatLastSem, h2]⟩
  | .delimitedByLeft h, hg => by
    rw [G.All] at hg
    exact (h.sound hD hg.2.1).mono fun m ⟨x, es, j, h1⟩ => by
      rw [G.den]; exact ⟨x, es, j, by rw [qConcat3, h1]; rfl⟩
  | .delimitedByMiddle h h', hg => by
    rw [G.All] at hg
    exact ((h.sound hD hg.2.1).and (h'.sound hD hg.2.2.1)).mono fun m ⟨h1, x, es, j, h2⟩ => by
      rw [G.den]; exact ⟨x, es, i, by rw [qConcat3, h1]; simp [concatMidSem, h2]⟩
  | .delimitedByRight h h' h'', hg => by
    rw [G.All] at hg
    exact ((h.sound hD hg.2.1).and ((h'.sound hD hg.2.2.1).and (h''.sound hD hg.2.2.2))).mono
      fun m ⟨h1, h2, x, es, j, h3⟩ => by
      rw [G.den]
      exact ⟨x, es, i, by rw [qConcat3, h1]; simp [concatMidSem, concatLastSem, h2, h3]⟩
  | .paddedByLeft h, hg => by
    rw [G.All] at hg
    exact (h.sound hD hg.2.1).mono fun m ⟨x, es, j, h1⟩ => by
      rw [G.den]; exact ⟨x, es, j, by rw [qConcat3, h1]; rfl⟩
  | .paddedByMiddle h h', hg => by
    rw [G.All] at hg
    exact ((h.sound hD hg.2.1).and (h'.sound hD hg.2.2)).mono fun m ⟨h1, x, es, j, h2⟩ => by
      rw [G.den]; exact ⟨x, es, i, by rw [qConcat3, h1]; simp [concatMidSem, h2]⟩
  | .paddedByRight h h' h'', hg => by
    rw [G.All] at hg
    exact ((h.sound hD hg.2.1).and ((h'.sound hD hg.2.2).and (h''.sound hD hg.2.1))).mono
      fun m ⟨h1, h2, x, es, j, h3⟩ => by
      rw [G.den]
      exact ⟨x, es, i, by rw [qConcat3, h1]; simp [concatMidSem, concatLastSem, h2, h3]⟩
  | .chain h, hg => by
    rw [G.All] at hg
    exact (h.sound hD hg.2).mono fun m h1 => by rw [G.den]; exact h1.2
  | .or h h', hg => by
    rw [G.All] at hg
    exact ((h.sound hD hg.2.1).and (h'.sound hD hg.2.2)).mono fun m ⟨h0, x', es', j, h2⟩ => by
      rw [G.den]
      obtain ⟨x, es, h1⟩ := h0.stays (G.sem_rw hD m _ hg.2.1 hg.1)
      exact alternate_fails (fs := [(x, es, _), (x', es', _)])
        (by unfold altFirstSem; rw [h1]; simp only [altFirstSem]
            show (G.den e (callSem e D m) m _ false i >>= _) = _
            rw [h2]; rfl) (by simp)
  | .alters h, hg => by
    rw [G.All] at hg
    exact (h.sound hD hg.2 hg.1.2).mono fun m ⟨fs, j, h1, h2⟩ => by
      rw [G.den]
      obtain ⟨a, b, cs, hgs⟩ : ∃ a b cs, _ = GL.cons a (.cons b cs) := hg.1.1
      exact alternate_fails (fs := fs) (by simpa using h2 []) (by rw [h1, hgs]; simp [GL.toList])
  | .repeated h, hg => by
    rw [G.All] at hg
    have hc : ∀ m, _ → _ := hg.1.1
    obtain ⟨n, h1⟩ := h.sound hD hc ⟨hg.2, hg.1.2⟩ (fun g h => by cases h)
    exact ⟨n, fun m hm => by
      simp only [G.den]
      obtain ⟨x, es, h2⟩ := h1 m m hm hm i [] rfl
      exact ⟨x, es, i, h2⟩⟩
  | .separatedBy h, hg => by
    rw [G.All] at hg
    have hc : ∀ m, _ → _ := hg.1.1
    obtain ⟨n, h1⟩ := h.sound hD hc ⟨hg.2.1, hg.1.2.1⟩ (fun g h => by cases h; exact ⟨hg.2.2, hg.1.2.2⟩)
    exact ⟨n, fun m hm => by
      simp only [G.den]
      obtain ⟨x, es, h2⟩ := h1 m m hm hm i [] rfl
      exact ⟨x, es, i, h2⟩⟩
  | .toRecover h, hg => by
    rw [G.All] at hg
    exact (h.sound hD hg.2.1).mono fun m ⟨x, es, j, h1⟩ => by
      rw [G.den]; exact ⟨x, es, j, by rw [qToRecover, h1]; rfl⟩
  | .call (k := k) hk h, _ => by
    obtain ⟨n, h1⟩ := h.sound hD (hD k _ hk).1
    refine ⟨n + 1, fun m hm => ?_⟩
    obtain ⟨m, rfl⟩ : ∃ m', m = m' + 1 := ⟨m - 1, by omega⟩
    obtain ⟨x, es, j, h2⟩ := h1 m (by omega)
    rw [G.den]
    exact ⟨x, es, j, by rw [callSem, hk]; exact h2⟩

theorem AcceptsAll.sound (hD : D.Plain) {ε : ErrTy S} {α : Type} {gs : GL S N ε α} {i j : Nat}
    {os : List α} : AcceptsAll e D gs i os j → gs.All (plainL S N) → Evt fun m =>
      (∀ start out, concatRestSem false start (gs.den e (callSem e D m) m) out none i = .ok (.success (out ++ os), j)) ∧
      qConcat (gs.den e (callSem e D m) m) false i = .ok (.success os, j)
  | .nil, _ => .pure fun m => by rw [GL.den]; simp [concatRestSem, qConcat, finishSem]
  | .cons h h', hg => by
    rw [GL.All] at hg
    exact ((h.sound hD hg.1).and (h'.sound hD hg.2)).mono fun m ⟨h1, h2, _⟩ => by
      rw [GL.den]; simp [concatRestSem, qConcat, h1, h2]

theorem RejectsSome.sound (hD : D.Plain) {ε : ErrTy S} {α : Type} {gs : GL S N ε α} {i : Nat} :
    RejectsSome e D gs i → gs.All (plainL S N) → Evt fun m =>
      (∀ start out, ∃ x es,
        concatRestSem false start (gs.den e (callSem e D m) m) out none i = .ok (.failed x es, start)) ∧
      FailsAny (qConcat (gs.den e (callSem e D m) m)) i
  | .here h, hg => by
    rw [GL.All] at hg
    exact (h.sound hD hg.1).mono fun m ⟨x, es, j, h1⟩ => by
      rw [GL.den]
      exact ⟨fun start out => ⟨x, es, by simp [concatRestSem, h1]⟩, x, es, j, by simp [qConcat, h1]⟩
  | .later (o := o) h h', hg => by
    rw [GL.All] at hg
    exact ((h.sound hD hg.1).and (h'.sound hD hg.2)).mono fun m ⟨h1, h2, _⟩ => by
      rw [GL.den]
      refine ⟨fun start out => ?_, ?_⟩
      · obtain ⟨x, es, h3⟩ := h2 start (out ++ [o])
        exact ⟨x, es, by simp [concatRestSem, h1, h3]⟩
      · obtain ⟨x, es, h3⟩ := h2 i [o]
        exact ⟨x, es, i, by simp [qConcat, h1, h3]⟩

theorem AcceptsFirst.sound (hD : D.Plain) {ε : ErrTy S} {α : Type} {gs : GL S N ε α} {i j : Nat}
    {o : α} : AcceptsFirst e D gs i o j → gs.All (plainL S N) → gs.InitTidy → Evt fun m =>
      ∀ fails, altFirstSem (gs.den e (callSem e D m) m) fails i = .ok (.inl o, j)
  | .here h, hg, _ => by
    rw [GL.All] at hg
    exact (h.sound hD hg.1).mono fun m h1 => by
      rw [GL.den]
      intro fails
      simp [altFirstSem, h1]
  | .later h h', hg, ht => by
    rw [GL.All] at hg
    exact ((h.sound hD hg.1).and (h'.sound hD hg.2 (InitTidy.tail ht))).mono fun m ⟨h0, h2⟩ => by
      rw [GL.den]
      obtain ⟨x, es, h1⟩ := h0.stays (G.sem_rw hD m _ hg.1 (InitTidy.head ht h'.ne_nil))
      intro fails
      simp [altFirstSem, h1, h2]

theorem RejectsAll.sound (hD : D.Plain) {ε : ErrTy S} {α : Type} {gs : GL S N ε α} {i : Nat} :
    RejectsAll e D gs i → gs.All (plainL S N) → gs.InitTidy → Evt fun m => ∃ fs j, fs.length = gs.toList.length ∧
      ∀ fails, altFirstSem (gs.den e (callSem e D m) m) fails i = .ok (.inr (fails ++ fs), j)
  | .nil, _, _ => .pure fun m => by
    rw [GL.den]
    exact ⟨[], i, rfl, fun fails => by simp [altFirstSem]⟩
  | .cons (gs := gs) h h', hg, ht => by
    rw [GL.All] at hg
    refine ((h.sound hD hg.1).and (h'.sound hD hg.2 (InitTidy.tail ht))).mono fun m ⟨h0, fs, j, h2, h3⟩ => ?_
    rw [GL.den]
    by_cases hn : gs = .nil
    · obtain ⟨x, es, j', h1⟩ := h0
      subst hn
      rw [GL.den]
      exact ⟨[(x, es, _)], j', by simp [GL.toList], fun fails => by simp [altFirstSem, h1]; rfl⟩
    · obtain ⟨x, es, h1⟩ := h0.stays (G.sem_rw hD m _ hg.1 (InitTidy.head ht hn))
      exact ⟨(x, es, _) :: fs, j, by simp [GL.toList, h2], fun fails => by
        simp [altFirstSem, h1, h3]; rfl⟩

theorem Another.sound (hD : D.Plain) {ε : ErrTy S} {α β : Type} {c : RepCfg} {g : G S N ε α}
    {sep : Option (G S N ε β)} {k i j : Nat} {o : α} : Another e D c g sep k i o j →
      g.All (plainL S N) ∧ g.Tidy → sepAll sep → ¬ c.Full k → Evt fun m => ∀ start again (out : List α),
        out.length = k →
        repStepSem c (g.den e (callSem e D m) m) (sepAt e D m sep) false start again out none i = again (out ++ [o]) none j
  | .plain h, hg, _, hf => (h.sound hD hg.1).mono fun m h1 => by
      intro start again out hl
      subst hl
      rw [sepAt, Option.map_none, step_none (fun hh => hf hh.2), repItem_another hf h1]
  | .unwanted hw h, hg, _, hf => (h.sound hD hg.1).mono fun m h1 => by
      intro start again out hl
      subst hl
      rw [sepAt, Option.map_some, step_unwanted (fun hh => hf hh.2) hw, repItem_another hf h1]
  | .separated hw h h', hg, hs, hf => ((h.sound hD (hs _ rfl).1).and (h'.sound hD hg.1)).mono
      fun m ⟨h1, h2⟩ => by
      intro start again out hl
      subst hl
      rw [sepAt, Option.map_some, step_sep (fun hh => hf hh.2) hw h1, repItem_another hf h2]
  | .noLeading hw h h', hg, hs, hf => ((h.sound hD (hs _ rfl).1).and (h'.sound hD hg.1)).mono
      fun m ⟨h1, h2⟩ => by
      intro start again out hl
      rw [sepAt, Option.map_some, step_noLeading (fun hh => hf (hl ▸ hh.2)) hl hw (h1.stays (G.sem_rw hD m _ (hs _ rfl).1 (hs _ rfl).2)),
        repItem_another (hl ▸ hf) h2]

theorem NoOther.sound (hD : D.Plain) {ε : ErrTy S} {α β : Type} {c : RepCfg} {g : G S N ε α}
    {sep : Option (G S N ε β)} {k i j : Nat} : NoOther e D c g sep k i j →
      g.All (plainL S N) ∧ g.Tidy → sepAll sep → ¬ c.Full k → Evt fun m => ∀ start again (out : List α),
        out.length = k →
        (c.minimum ≤ k → repStepSem c (g.den e (callSem e D m) m) (sepAt e D m sep) false start again out none i =
          .ok (.success out, j)) ∧
        (k < c.minimum → ∃ x es, repStepSem c (g.den e (callSem e D m) m) (sepAt e D m sep) false start again out none i =
          .ok (.failed x es, start))
  | .plain h, hg, _, hf => (h.sound hD hg.1).mono fun m h1 => by
      intro start again out hl
      subst hl
      rw [sepAt, Option.map_none, step_none (fun hh => hf hh.2)]
      exact repItem_fail hf (h1.stays (G.sem_rw hD m _ hg.1 hg.2))
  | .unwanted hw h, hg, _, hf => (h.sound hD hg.1).mono fun m h1 => by
      intro start again out hl
      subst hl
      rw [sepAt, Option.map_some, step_unwanted (fun hh => hf hh.2) hw]
      exact repItem_fail hf (h1.stays (G.sem_rw hD m _ hg.1 hg.2))
  | .trailing hw ht h h', hg, hs, hf => ((h.sound hD (hs _ rfl).1).and (h'.sound hD hg.1)).mono
      fun m ⟨h1, h2⟩ => by
      intro start again out hl
      subst hl
      rw [sepAt, Option.map_some, step_sep (fun hh => hf hh.2) hw h1]
      have := repItem_fail (start := start) (again := again) (before := some i) hf
        (h2.stays (G.sem_rw hD m _ hg.1 hg.2))
      simp only [ht, if_true] at this
      exact this
  | .notTrailing hw ht h h', hg, hs, hf => ((h.sound hD (hs _ rfl).1).and (h'.sound hD hg.1)).mono
      fun m ⟨h1, h2⟩ => by
      intro start again out hl
      subst hl
      rw [sepAt, Option.map_some, step_sep (fun hh => hf hh.2) hw h1]
      have := repItem_fail (start := start) (again := again) (before := some i) hf
        (h2.stays (G.sem_rw hD m _ hg.1 hg.2))
      simp only [ht, Bool.false_eq_true, if_false] at this
      exact this
  | .noSeparator hk h, hg, hs, hf => (h.sound hD (hs _ rfl).1).mono fun m h1 => by
      intro start again out hl
      subst hl
      rw [sepAt, Option.map_some]
      exact step_noSep (fun hh => hf hh.2) hk (h1.stays (G.sem_rw hD m _ (hs _ rfl).1 (hs _ rfl).2))
  | .noLeading hw h h', hg, hs, hf => ((h.sound hD (hs _ rfl).1).and (h'.sound hD hg.1)).mono
      fun m ⟨h1, h2⟩ => by
      intro start again out hl
      rw [← hl] at hf ⊢
      rw [sepAt, Option.map_some, step_noLeading (fun hh => hf hh.2) hl hw (h1.stays (G.sem_rw hD m _ (hs _ rfl).1 (hs _ rfl).2))]
      have := repItem_fail (start := start) (again := again) (before := some i) hf
        (h2.stays (G.sem_rw hD m _ hg.1 hg.2))
      simp only [ite_self] at this
      exact this

theorem Trailer.sound (hD : D.Plain) {ε : ErrTy S} {β : Type} {c : RepCfg}
    {sep : Option (G S N ε β)} {k i j : Nat} : Trailer e D c sep k i j → sepAll sep → c.Full k →
      c.minimum ≤ k → Evt fun m => ∀ (α : Type) (item : PSem ε.E α) start again (out : List α),
        out.length = k →
        repStepSem c item (sepAt e D m sep) false start again out none i = .ok (.success out, j)
  | .plain, _, hf, _ => .pure fun m => by
      intro α item start again out hl
      subst hl
      cases ht : c.allowTrailing with
      | false => unfold repStepSem; simp [ht, atMax_iff.2 hf, finishSem]
      | true => rw [sepAt, Option.map_none, step_none (by simp [ht]), repItem_full ht hf]
  | .notAllowed hn, _, hf, _ => .pure fun m => by
      intro α item start again out hl
      subst hl
      cases ht : c.allowTrailing with
      | false => unfold repStepSem; simp [ht, atMax_iff.2 hf, finishSem]
      | true =>
        rw [sepAt, Option.map_some, step_unwanted (by simp [ht]) (fun hw => hn ⟨ht, hw⟩), repItem_full ht hf]
  | .trailing ht hw h, hs, hf, _ => (h.sound hD (hs _ rfl).1).mono fun m h1 => by
      intro α item start again out hl
      subst hl
      rw [sepAt, Option.map_some, step_sep (by simp [ht]) hw h1, repItem_full ht hf]
  | .absent ht hw h, hs, hf, hm => (h.sound hD (hs _ rfl).1).mono fun m h1 => by
      intro α item start again out hl
      subst hl
      rcases Nat.eq_zero_or_pos out.length with h0 | h0
      · have hlead : c.allowLeading = true := by
          rcases hw with hw | hw
          · omega
          · exact hw
        rw [sepAt, Option.map_some, step_noLeading (by simp [ht]) h0 hlead (h1.stays (G.sem_rw hD m _ (hs _ rfl).1 (hs _ rfl).2)), repItem_full ht hf]
      · rw [sepAt, Option.map_some]
        exact (step_noSep (by simp [ht]) h0 (h1.stays (G.sem_rw hD m _ (hs _ rfl).1 (hs _ rfl).2))).1 hm

theorem AcceptsItems.sound (hD : D.Plain) {ε : ErrTy S} {α β : Type} {c : RepCfg}
    {g : G S N ε α} {sep : Option (G S N ε β)} {k i j : Nat} {os : List α} :
    AcceptsItems e D c g sep k i os j → (∀ m, c.maximum = some m → c.minimum ≤ m) →
      g.All (plainL S N) ∧ g.Tidy → sepAll sep → ∃ n, ∀ m fuel, n ≤ m → n ≤ fuel → ∀ start (out : List α),
        out.length = k → repLoopSem c (g.den e (callSem e D m) m) (sepAt e D m sep) false start fuel out none i =
          .ok (.success (out ++ os), j)
  | .full hf h, hc, _, hs => by
    obtain ⟨n, h1⟩ := h.sound hD hs hf (Full.min_le hc hf)
    refine ⟨n + 1, fun m fuel hm hfu start out hl => ?_⟩
    obtain ⟨fuel, rfl⟩ : ∃ f', fuel = f' + 1 := ⟨fuel - 1, by omega⟩
    rw [repLoopSem_succ, h1 m (by omega) _ _ _ _ _ hl, List.append_nil]
  | .another hf h h', hc, hg, hs => by
    obtain ⟨n, h1⟩ := h.sound hD hg hs hf
    obtain ⟨n', h2⟩ := h'.sound hD hc hg hs
    refine ⟨max n n' + 1, fun m fuel hm hfu start out hl => ?_⟩
    obtain ⟨fuel, rfl⟩ : ∃ f', fuel = f' + 1 := ⟨fuel - 1, by omega⟩
    rw [repLoopSem_succ, h1 m (by omega) _ _ _ hl, h2 m fuel (by omega) (by omega) _ _ (by simp [hl])]
    simp
  | .done hf h hm, _, hg, hs => by
    obtain ⟨n, h1⟩ := h.sound hD hg hs hf
    refine ⟨n + 1, fun m fuel hm' hfu start out hl => ?_⟩
    obtain ⟨fuel, rfl⟩ : ∃ f', fuel = f' + 1 := ⟨fuel - 1, by omega⟩
    rw [repLoopSem_succ, (h1 m (by omega) _ _ _ hl).1 hm, List.append_nil]

theorem RejectsItems.sound (hD : D.Plain) {ε : ErrTy S} {α β : Type} {c : RepCfg}
    {g : G S N ε α} {sep : Option (G S N ε β)} {k i : Nat} :
    RejectsItems e D c g sep k i → (∀ m, c.maximum = some m → c.minimum ≤ m) →
      g.All (plainL S N) ∧ g.Tidy → sepAll sep → ∃ n, ∀ m fuel, n ≤ m → n ≤ fuel → ∀ start (out : List α),
        out.length = k → ∃ x es,
          repLoopSem c (g.den e (callSem e D m) m) (sepAt e D m sep) false start fuel out none i =
            .ok (.failed x es, start)
  | .another hf h h', hc, hg, hs => by
    obtain ⟨n, h1⟩ := h.sound hD hg hs hf
    obtain ⟨n', h2⟩ := h'.sound hD hc hg hs
    refine ⟨max n n' + 1, fun m fuel hm hfu start out hl => ?_⟩
    obtain ⟨fuel, rfl⟩ : ∃ f', fuel = f' + 1 := ⟨fuel - 1, by omega⟩
    rw [repLoopSem_succ, h1 m (by omega) _ _ _ hl]
    exact h2 m fuel (by omega) (by omega) _ _ (by simp [hl])
  | .tooFew hf h hm, _, hg, hs => by
    obtain ⟨n, h1⟩ := h.sound hD hg hs hf
    refine ⟨n + 1, fun m fuel hm' hfu start out hl => ?_⟩
    obtain ⟨fuel, rfl⟩ : ∃ f', fuel = f' + 1 := ⟨fuel - 1, by omega⟩
    rw [repLoopSem_succ]
    exact (h1 m (by omega) _ _ _ hl).2 hm

end

end

end PPC
