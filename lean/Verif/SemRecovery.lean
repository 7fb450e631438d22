import Verif.ParserBase

/-!
# The two modes of the semantics

* With recovery disabled nothing recovers (`NR`).
* What succeeds with recovery disabled succeeds with recovery enabled, with the same
  output and end position (`SM`).

Both hold for every grammar.
-/

namespace PPC

variable {S : Sig}

/-- Does not recover when recovery is disabled. -/
def NR {E α : Type} (q : PSem E α) : Prop :=
  ∀ i a es j, q false i ≠ .ok (.recovered a es, j)

/-- Success without recovery is the same with recovery. -/
def SM {E α : Type} (q : PSem E α) : Prop :=
  ∀ i a j, q false i = .ok (.success a, j) → q true i = .ok (.success a, j)

/-- A parser that ignores the flag. -/
theorem SM.of_eq {E α : Type} {q : PSem E α} (h : ∀ i, q true i = q false i) : SM q :=
  fun i a j hq => by rw [h i, hq]

/-! ## Primitives -/

theorem nr_empty {E : Type} : NR (qEmpty (E := E)) := by
  intro i a es j h; cases h

theorem nr_none {E α : Type} : NR (qNone (E := E) (α := α)) := by
  intro i a es j h; cases h

theorem nr_end {e : Env S} {ε : ErrTy S} : NR (qEnd e ε) := by
  intro i a es j h
  unfold qEnd at h
  split at h <;> cases h

theorem nr_just {e : Env S} {ε : ErrTy S} {t : S.I} : NR (qJust e ε t) := by
  intro i a es j h
  unfold qJust at h
  split at h <;> cases h

theorem nr_filter {e : Env S} {ε : ErrTy S} {p : S.I → Bool} : NR (qFilter e ε p) := by
  intro i a es j h
  unfold qFilter at h
  split at h
  · split at h <;> cases h
  · cases h

theorem nr_filterMap {α : Type} {e : Env S} {ε : ErrTy S} {f : S.I → Option α} :
    NR (qFilterMap e ε f) := by
  intro i a es j h
  unfold qFilterMap at h
  split at h <;> cases h

theorem nr_seq {α : Type} {e : Env S} {ε : ErrTy S} {v : α} {items : List S.I} :
    NR (qSeq e ε v items) := by
  intro i a es j h
  unfold qSeq at h
  split at h <;> cases h

theorem nr_oneOf {e : Env S} {ε : ErrTy S} {items : List S.I} : NR (qOneOf e ε items) := by
  intro i a es j h
  unfold qOneOf at h
  split at h
  · split at h <;> cases h
  · cases h

theorem nr_noneOf {e : Env S} {ε : ErrTy S} {items : List S.I} : NR (qNoneOf e ε items) := by
  intro i a es j h
  unfold qNoneOf at h
  split at h
  · split at h <;> cases h
  · cases h

/-! ## Mapping -/

theorem nr_map {E α β : Type} {f : α → β} {q : PSem E α} (hq : NR q) : NR (qMap f q) := by
  intro i a es j h
  simp only [qMap, Out.bind_eq_ok] at h
  obtain ⟨⟨r, k⟩, h1, h2⟩ := h
  cases r <;> cases h2
  exact hq _ _ _ _ h1

theorem nr_mapWithSpan {E α β : Type} {e : Env S} {f : α → S.Span → β} {q : PSem E α} (hq : NR q) :
    NR (qMapWithSpan e f q) := by
  intro i a es j h
  simp only [qMapWithSpan, Out.bind_eq_ok] at h
  obtain ⟨⟨r, k⟩, h1, h2⟩ := h
  cases r <;> cases h2
  exact hq _ _ _ _ h1

theorem nr_mapErr {E X α : Type} {f : X → E} {q : PSem X α} (hq : NR q) : NR (qMapErr f q) := by
  intro i a es j h
  simp only [qMapErr, Out.bind_eq_ok] at h
  obtain ⟨⟨r, k⟩, h1, h2⟩ := h
  cases r <;> cases h2
  exact hq _ _ _ _ h1

theorem nr_mapErrWithSpan {E X α : Type} {e : Env S} {f : X → S.Span → E} {q : PSem X α}
    (hq : NR q) : NR (qMapErrWithSpan e f q) := by
  intro i a es j h
  simp only [qMapErrWithSpan, Out.bind_eq_ok] at h
  obtain ⟨⟨r, k⟩, h1, h2⟩ := h
  cases r <;> cases h2
  exact hq _ _ _ _ h1

theorem tryMapStep_false {E α β : Type} {e : Env S} {f : α → S.Span → TryMapResult β E}
    {i j : Nat} {a : α} {b : β} {es : List E} {k : Nat} :
    tryMapStep e f false i j a ≠ .ok (.recovered b es, k) := by
  intro h
  unfold tryMapStep at h
  split at h
  · cases h
  · split at h <;> cases h
  · split at h
    · cases h
    · simp at h

theorem nr_tryMap {E α β : Type} {e : Env S} {f : α → S.Span → TryMapResult β E} {q : PSem E α}
    (hq : NR q) : NR (qTryMap e f q) := by
  intro i a es j h
  simp only [qTryMap, Out.bind_eq_ok] at h
  obtain ⟨⟨r, k⟩, h1, h2⟩ := h
  cases r with
  | success x => exact tryMapStep_false h2
  | recovered x es' => exact hq _ _ _ _ h1
  | failed x es' => cases h2

/-! ## Sequencing -/

theorem finishSem_none {α E : Type} {en : Bool} {o : α} {j : Nat} :
    finishSem en o (none : Option (List E)) j = .ok (.success o, j) := rfl

theorem nr_concatRest {E α : Type} {start : Nat} : ∀ (qs : List (PSem E α)) (out : List α) (i : Nat),
    (∀ q ∈ qs, NR q) → ∀ a es j,
      concatRestSem false start qs out none i ≠ .ok (.recovered a es, j)
  | [], out, i, _, a, es, j, h => by
    rw [concatRestSem, finishSem_none] at h; cases h
  | q :: qs, out, i, hq, a, es, j, h => by
    simp only [concatRestSem, Out.bind_eq_ok] at h
    obtain ⟨⟨r, k⟩, h1, h2⟩ := h
    cases r with
    | success x => exact nr_concatRest qs _ _ (fun q' h' => hq q' (by simp [h'])) _ _ _ h2
    | recovered x es' => exact hq q (by simp) _ _ _ _ h1
    | failed x es' => cases h2

theorem nr_concat {E α : Type} {qs : List (PSem E α)} (hq : ∀ q ∈ qs, NR q) : NR (qConcat qs) := by
  intro i a es j h
  cases qs with
  | nil => cases h
  | cons q qs =>
    simp only [qConcat, Out.bind_eq_ok] at h
    obtain ⟨⟨r, k⟩, h1, h2⟩ := h
    cases r with
    | success x => exact nr_concatRest qs _ _ (fun q' h' => hq q' (by simp [h'])) _ _ _ h2
    | recovered x es' => exact hq q (by simp) _ _ _ _ h1
    | failed x es' => cases h2

theorem nr_concatLast {E β γ : Type} {start : Nat} {f : β → γ} {qb : PSem E β} (hb : NR qb)
    {i : Nat} {a : γ} {es : List E} {j : Nat} :
    concatLastSem false start f qb none i ≠ .ok (.recovered a es, j) := by
  intro h
  simp only [concatLastSem, Out.bind_eq_ok] at h
  obtain ⟨⟨r, k⟩, h1, h2⟩ := h
  cases r with
  | success x => cases h2
  | recovered x es' => exact hb _ _ _ _ h1
  | failed x es' => cases h2

theorem nr_concat2 {E α β γ : Type} {f : α × β → γ} {qa : PSem E α} {qb : PSem E β} (ha : NR qa)
    (hb : NR qb) : NR (qConcat2 f qa qb) := by
  intro i a es j h
  simp only [qConcat2, Out.bind_eq_ok] at h
  obtain ⟨⟨r, k⟩, h1, h2⟩ := h
  cases r with
  | success x => exact nr_concatLast hb h2
  | recovered x es' => exact ha _ _ _ _ h1
  | failed x es' => cases h2

theorem nr_concat3 {E α β γ δ : Type} {f : α × β × γ → δ} {qa : PSem E α} {qb : PSem E β}
    {qc : PSem E γ} (ha : NR qa) (hb : NR qb) (hc : NR qc) : NR (qConcat3 f qa qb qc) := by
  intro i a es j h
  simp only [qConcat3, concatMidSem, Out.bind_eq_ok] at h
  obtain ⟨⟨r, k⟩, h1, h2⟩ := h
  cases r with
  | success x =>
    simp only [Out.bind_eq_ok] at h2
    obtain ⟨⟨r', k'⟩, h3, h4⟩ := h2
    cases r' with
    | success y => exact nr_concatLast hc h4
    | recovered y es' => exact hb _ _ _ _ h3
    | failed y es' => cases h4
  | recovered x es' => exact ha _ _ _ _ h1
  | failed x es' => cases h2

/-! ## Repetition -/

theorem nr_repItem {E α : Type} {cfg : RepCfg} {item : PSem E α} (hi : NR item) {start : Nat}
    {again : List α → Option (List E) → Nat → Out (Res (List α) E × Nat)}
    (ha : ∀ out i a es j, again out none i ≠ .ok (.recovered a es, j))
    {out : List α} {before : Option Nat} {i : Nat} {a : List α} {es : List E} {j : Nat} :
    repItemSem cfg item false start again out none before i ≠ .ok (.recovered a es, j) := by
  intro h
  unfold repItemSem at h
  split at h
  · cases h
  · simp only [Bool.false_and, Out.bind_eq_ok] at h
    obtain ⟨⟨r, k⟩, h1, h2⟩ := h
    cases r with
    | success x => exact ha _ _ _ _ _ h2
    | recovered x es' => exact hi _ _ _ _ h1
    | failed x es' =>
      simp only at h2
      split at h2 <;> cases h2

theorem nr_repLoop {E α β : Type} {cfg : RepCfg} {item : PSem E α} {sep : Option (PSem E β)}
    (hi : NR item) (hs : ∀ q, sep = some q → NR q) {start : Nat} :
    ∀ (fuel : Nat) (out : List α) (i : Nat) (a : List α) (es : List E) (j : Nat),
      repLoopSem cfg item sep false start fuel out none i ≠ .ok (.recovered a es, j)
  | 0, _, _, _, _, _, h => by cases h
  | fuel + 1, out, i, a, es, j, h => by
    unfold repLoopSem at h
    split at h
    · cases h
    · simp only at h
      split at h
      · rename_i q _ _
        simp only [Bool.false_and, Out.bind_eq_ok] at h
        obtain ⟨⟨r, k⟩, h1, h2⟩ := h
        cases r with
        | success x => exact nr_repItem hi (nr_repLoop hi hs fuel) h2
        | recovered x es' => exact hs _ rfl _ _ _ _ h1
        | failed x es' =>
          simp only at h2
          split at h2
          · exact nr_repItem hi (nr_repLoop hi hs fuel) h2
          · split at h2 <;> cases h2
      · exact nr_repItem hi (nr_repLoop hi hs fuel) h

theorem nr_repeat {E α β : Type} {fuel : Nat} {cfg : RepCfg} {item : PSem E α}
    {sep : Option (PSem E β)} (hi : NR item) (hs : ∀ q, sep = some q → NR q) :
    NR (qRepeat fuel cfg item sep) :=
  fun i a es j => nr_repLoop hi hs fuel [] i a es j

/-! ## Choice -/

theorem altCombine_failed {α : Type} {ε : ErrTy S} {fails : List (Nat × List ε.E)} {i : Nat}
    {r : Res α ε.E} {j : Nat} (h : altCombineSem ε fails i = .ok (r, j)) :
    j = i ∧ ∃ x es, r = .failed x es ∧ x ∈ fails.map Prod.fst := by
  unfold altCombineSem at h
  simp only at h
  split at h
  · cases h
  · rename_i x es rest
    split at h
    · split at h
      · cases h; exact ⟨rfl, _, _, rfl, by simp⟩
      · split at h
        · cases h; exact ⟨rfl, _, _, rfl, by simp⟩
        · cases h
    · split at h
      · cases h; exact ⟨rfl, _, _, rfl, by simp⟩
      · cases h

theorem nr_alternate {α : Type} {ε : ErrTy S} {qs : List (PSem ε.E α)} :
    NR (qAlternate ε qs) := by
  intro i a es j h
  simp only [qAlternate, Out.bind_eq_ok] at h
  obtain ⟨⟨r, k⟩, h1, h2⟩ := h
  cases r with
  | inl o => cases h2
  | inr fails =>
    simp only at h2
    split at h2
    · cases h2
    · simp only [Bool.false_eq_true, if_false] at h2
      obtain ⟨_, _, _, h3, _⟩ := altCombine_failed h2
      cases h3

theorem nr_toRecover {E α : Type} {q : PSem E α} {s : SSem E α} (hq : NR q) :
    NR (qToRecover q s) := by
  intro i a es j h
  simp only [qToRecover, Out.bind_eq_ok] at h
  obtain ⟨⟨r, k⟩, h1, h2⟩ := h
  cases r with
  | success x => cases h2
  | recovered x es' => exact hq _ _ _ _ h1
  | failed x es' => simp at h2

/-! ## Every grammar -/

section

variable {N : Names S} {e : Env S} {ρ : QEnv S N}

mutual

/-- With recovery disabled no parser recovers. -/
theorem G.nr (hρ : ∀ k, NR (ρ k)) (n : Nat) : ∀ {ε : ErrTy S} {α : Type} (g : G S N ε α),
    NR (g.den e ρ n)
  | _, _, .empty => by rw [G.den]; exact nr_empty
  | _, _, .none _ => by rw [G.den]; exact nr_none
  | _, _, .eof => by rw [G.den]; exact nr_end
  | _, _, .just t => by rw [G.den]; exact nr_just
  | _, _, .filter p => by rw [G.den]; exact nr_filter
  | _, _, .filterMap f => by rw [G.den]; exact nr_filterMap
  | _, _, .seq v items => by rw [G.den]; exact nr_seq
  | _, _, .oneOf items => by rw [G.den]; exact nr_oneOf
  | _, _, .noneOf items => by rw [G.den]; exact nr_noneOf
  | _, _, .boxed g => by rw [G.den]; exact G.nr hρ n g
  | _, _, .withError g => by rw [G.den]; exact G.nr hρ n g
  | _, _, .to g v => by rw [G.den]; exact nr_map (G.nr hρ n g)
  | _, _, .some g => by rw [G.den]; exact nr_map (G.nr hρ n g)
  | _, _, .map f g => by rw [G.den]; exact nr_map (G.nr hρ n g)
  | _, _, .mapWithSpan f g => by rw [G.den]; exact nr_mapWithSpan (G.nr hρ n g)
  | _, _, .mapErr f g => by rw [G.den]; exact nr_mapErr (G.nr hρ n g)
  | _, _, .mapErrWithSpan f g => by rw [G.den]; exact nr_mapErrWithSpan (G.nr hρ n g)
  | _, _, .tryMap f g => by rw [G.den]; exact nr_tryMap (G.nr hρ n g)
  | _, _, .then_ a b => by rw [G.den]; exact nr_concat2 (G.nr hρ n a) (G.nr hρ n b)
  | _, _, .thenIgnore a b => by rw [G.den]; exact nr_concat2 (G.nr hρ n a) (G.nr hρ n b)
  | _, _, .ignoreThen a b => by rw [G.den]; exact nr_concat2 (G.nr hρ n a) (G.nr hρ n b)
  | _, _, .delimitedBy l m r => by
    rw [G.den]; exact nr_concat3 (G.nr hρ n l) (G.nr hρ n m) (G.nr hρ n r)
  | _, _, .paddedBy p m => by
    rw [G.den]; exact nr_concat3 (G.nr hρ n p) (G.nr hρ n m) (G.nr hρ n p)
  | _, _, .chain gs => by rw [G.den]; exact nr_concat (GL.nr hρ n gs)
  | _, _, .or a b => by rw [G.den]; exact nr_alternate
  | _, _, .orNot g => by rw [G.den]; exact nr_alternate
  | _, _, .alters gs => by rw [G.den]; exact nr_alternate
  | _, _, .repeated cfg item => by
    rw [G.den]; exact nr_repeat (G.nr hρ n item) (fun q h => by cases h)
  | _, _, .separatedBy cfg item sep => by
    rw [G.den]
    refine nr_repeat (G.nr hρ n item) (fun q h => ?_)
    cases h
    exact G.nr hρ n sep
  | _, _, .toRecover g st => by rw [G.den]; exact nr_toRecover (G.nr hρ n g)
  | _, _, .call k => by rw [G.den]; exact hρ k

theorem GL.nr (hρ : ∀ k, NR (ρ k)) (n : Nat) : ∀ {ε : ErrTy S} {α : Type} (gs : GL S N ε α),
    ∀ q ∈ gs.den e ρ n, NR q
  | _, _, .nil, q, h => by rw [GL.den] at h; cases h
  | _, _, .cons g gs, q, h => by
    rw [GL.den] at h
    rcases List.mem_cons.1 h with h | h
    · rw [h]; exact G.nr hρ n g
    · exact GL.nr hρ n gs q h

end

theorem callSem_nr (D : Defs S N) : ∀ (n : Nat) (k : N.K), NR (callSem e D n k)
  | 0, k, i, a, es, j, h => by cases h
  | n + 1, k, i, a, es, j, h => by
    rw [callSem] at h
    cases hk : D k with
    | none => rw [hk] at h; cases h
    | some g => rw [hk] at h; exact G.nr (callSem_nr D n) n g _ _ _ _ h

theorem G.sem_nr (D : Defs S N) (n : Nat) {ε : ErrTy S} {α : Type} (g : G S N ε α) :
    NR (g.sem e D n) :=
  G.nr (callSem_nr D n) n g

end

/-! ## Success is the same in both modes -/

theorem sm_map {E α β : Type} {f : α → β} {q : PSem E α} (hq : SM q) : SM (qMap f q) := by
  intro i a j h
  simp only [qMap, Out.bind_eq_ok] at h ⊢
  obtain ⟨⟨r, k⟩, h1, h2⟩ := h
  cases r <;> cases h2
  exact ⟨_, hq _ _ _ h1, rfl⟩

theorem sm_mapWithSpan {E α β : Type} {e : Env S} {f : α → S.Span → β} {q : PSem E α} (hq : SM q) :
    SM (qMapWithSpan e f q) := by
  intro i a j h
  simp only [qMapWithSpan, Out.bind_eq_ok] at h ⊢
  obtain ⟨⟨r, k⟩, h1, h2⟩ := h
  cases r <;> cases h2
  exact ⟨_, hq _ _ _ h1, rfl⟩

theorem sm_mapErr {E X α : Type} {f : X → E} {q : PSem X α} (hq : SM q) : SM (qMapErr f q) := by
  intro i a j h
  simp only [qMapErr, Out.bind_eq_ok] at h ⊢
  obtain ⟨⟨r, k⟩, h1, h2⟩ := h
  cases r <;> cases h2
  exact ⟨_, hq _ _ _ h1, rfl⟩

theorem sm_mapErrWithSpan {E X α : Type} {e : Env S} {f : X → S.Span → E} {q : PSem X α}
    (hq : SM q) : SM (qMapErrWithSpan e f q) := by
  intro i a j h
  simp only [qMapErrWithSpan, Out.bind_eq_ok] at h ⊢
  obtain ⟨⟨r, k⟩, h1, h2⟩ := h
  cases r <;> cases h2
  exact ⟨_, hq _ _ _ h1, rfl⟩

/-- `try_map`'s function returned `Ok`. -/
theorem tryMapStep_success {E α β : Type} {e : Env S} {f : α → S.Span → TryMapResult β E}
    {en : Bool} {i j : Nat} {a : α} {b : β} {k : Nat} :
    tryMapStep e f en i j a = .ok (.success b, k) ↔ f a (e.spanOf i j) = .ok b ∧ k = j := by
  unfold tryMapStep
  split
  · rename_i o ho
    rw [ho]
    constructor
    · intro h; cases h; exact ⟨rfl, rfl⟩
    · rintro ⟨h, rfl⟩; cases h; rfl
  · rename_i es ho
    rw [ho]
    constructor
    · intro h; split at h <;> cases h
    · rintro ⟨h, -⟩; cases h
  · rename_i o es ho
    rw [ho]
    constructor
    · intro h
      split at h
      · cases h
      · split at h <;> cases h
    · rintro ⟨h, -⟩; cases h

theorem sm_tryMap {E α β : Type} {e : Env S} {f : α → S.Span → TryMapResult β E} {q : PSem E α}
    (hn : NR q) (hq : SM q) : SM (qTryMap e f q) := by
  intro i a j h
  simp only [qTryMap, Out.bind_eq_ok] at h ⊢
  obtain ⟨⟨r, k⟩, h1, h2⟩ := h
  cases r with
  | success x => exact ⟨_, hq _ _ _ h1, tryMapStep_success.2 (tryMapStep_success.1 h2)⟩
  | recovered x es' => exact (hn _ _ _ _ h1).elim
  | failed x es' => cases h2

theorem sm_concatRest {E α : Type} {start : Nat} : ∀ (qs : List (PSem E α)) (out : List α) (i : Nat),
    (∀ q ∈ qs, NR q ∧ SM q) → ∀ a j,
      concatRestSem false start qs out none i = .ok (.success a, j) →
      concatRestSem true start qs out none i = .ok (.success a, j)
  | [], out, i, _, a, j, h => by
    rw [concatRestSem, finishSem_none] at h ⊢; exact h
  | q :: qs, out, i, hq, a, j, h => by
    simp only [concatRestSem, Out.bind_eq_ok] at h ⊢
    obtain ⟨⟨r, k⟩, h1, h2⟩ := h
    have hq1 := hq q (by simp)
    cases r with
    | success x =>
      exact ⟨_, hq1.2 _ _ _ h1, sm_concatRest qs _ _ (fun q' h' => hq q' (by simp [h'])) _ _ h2⟩
    | recovered x es' => exact (hq1.1 _ _ _ _ h1).elim
    | failed x es' => cases h2

theorem sm_concat {E α : Type} {qs : List (PSem E α)} (hq : ∀ q ∈ qs, NR q ∧ SM q) :
    SM (qConcat qs) := by
  intro i a j h
  cases qs with
  | nil => exact h
  | cons q qs =>
    simp only [qConcat, Out.bind_eq_ok] at h ⊢
    obtain ⟨⟨r, k⟩, h1, h2⟩ := h
    have hq1 := hq q (by simp)
    cases r with
    | success x =>
      exact ⟨_, hq1.2 _ _ _ h1, sm_concatRest qs _ _ (fun q' h' => hq q' (by simp [h'])) _ _ h2⟩
    | recovered x es' => exact (hq1.1 _ _ _ _ h1).elim
    | failed x es' => cases h2

theorem sm_concatLast {E β γ : Type} {start : Nat} {f : β → γ} {qb : PSem E β} (hn : NR qb)
    (hb : SM qb) {i : Nat} {a : γ} {j : Nat}
    (h : concatLastSem false start f qb none i = .ok (.success a, j)) :
    concatLastSem true start f qb none i = .ok (.success a, j) := by
  simp only [concatLastSem, Out.bind_eq_ok] at h ⊢
  obtain ⟨⟨r, k⟩, h1, h2⟩ := h
  cases r with
  | success x => exact ⟨_, hb _ _ _ h1, h2⟩
  | recovered x es' => exact (hn _ _ _ _ h1).elim
  | failed x es' => cases h2

theorem sm_concat2 {E α β γ : Type} {f : α × β → γ} {qa : PSem E α} {qb : PSem E β} (na : NR qa)
    (nb : NR qb) (ha : SM qa) (hb : SM qb) : SM (qConcat2 f qa qb) := by
  intro i a j h
  simp only [qConcat2, Out.bind_eq_ok] at h ⊢
  obtain ⟨⟨r, k⟩, h1, h2⟩ := h
  cases r with
  | success x => exact ⟨_, ha _ _ _ h1, sm_concatLast nb hb h2⟩
  | recovered x es' => exact (na _ _ _ _ h1).elim
  | failed x es' => cases h2

theorem sm_concat3 {E α β γ δ : Type} {f : α × β × γ → δ} {qa : PSem E α} {qb : PSem E β}
    {qc : PSem E γ} (na : NR qa) (nb : NR qb) (nc : NR qc) (ha : SM qa) (hb : SM qb) (hc : SM qc) :
    SM (qConcat3 f qa qb qc) := by
  intro i a j h
  simp only [qConcat3, concatMidSem, Out.bind_eq_ok] at h ⊢
  obtain ⟨⟨r, k⟩, h1, h2⟩ := h
  cases r with
  | success x =>
    simp only [Out.bind_eq_ok] at h2
    obtain ⟨⟨r', k'⟩, h3, h4⟩ := h2
    cases r' with
    | success y =>
      refine ⟨_, ha _ _ _ h1, ?_⟩
      simp only [Out.bind_eq_ok]
      exact ⟨_, hb _ _ _ h3, sm_concatLast nc hc h4⟩
    | recovered y es' => exact (nb _ _ _ _ h3).elim
    | failed y es' => cases h4
  | recovered x es' => exact (na _ _ _ _ h1).elim
  | failed x es' => cases h2

theorem sm_repItem {E α : Type} {cfg : RepCfg} {item : PSem E α} (hn : NR item) (hi : SM item)
    {start : Nat} {again again' : List α → Option (List E) → Nat → Out (Res (List α) E × Nat)}
    (ha : ∀ out i a j, again out none i = .ok (.success a, j) →
      again' out none i = .ok (.success a, j))
    {out : List α} {before : Option Nat} {i : Nat} {a : List α} {j : Nat}
    (h : repItemSem cfg item false start again out none before i = .ok (.success a, j)) :
    repItemSem cfg item true start again' out none before i = .ok (.success a, j) := by
  unfold repItemSem at h ⊢
  split
  · rename_i hc; rw [if_pos hc] at h; exact h
  · rename_i hc
    rw [if_neg hc] at h
    simp only [Bool.false_and, Bool.true_and, Out.bind_eq_ok] at h ⊢
    obtain ⟨⟨r, k⟩, h1, h2⟩ := h
    cases r with
    | success x =>
      refine ⟨(.success x, k), ?_, ha _ _ _ _ h2⟩
      cases decide (out.length < cfg.minimum)
      · exact h1
      · exact hi _ _ _ h1
    | recovered x es' => exact (hn _ _ _ _ h1).elim
    | failed x es' =>
      simp only at h2
      split at h2
      · rename_i hm
        refine ⟨(.failed x es', k), ?_, ?_⟩
        · rw [decide_eq_false (by omega)]; exact h1
        · simp only [if_pos hm]; exact h2
      · cases h2

theorem sm_repLoop {E α β : Type} {cfg : RepCfg} {item : PSem E α} {sep : Option (PSem E β)}
    (hn : NR item) (hi : SM item) (hs : ∀ q, sep = some q → NR q ∧ SM q) {start : Nat} :
    ∀ (fuel : Nat) (out : List α) (i : Nat) (a : List α) (j : Nat),
      repLoopSem cfg item sep false start fuel out none i = .ok (.success a, j) →
      repLoopSem cfg item sep true start fuel out none i = .ok (.success a, j)
  | 0, _, _, _, _, h => by cases h
  | fuel + 1, out, i, a, j, h => by
    have ih := sm_repLoop (cfg := cfg) hn hi hs (start := start) fuel
    unfold repLoopSem at h ⊢
    split
    · rename_i hc; rw [if_pos hc] at h; exact h
    · rename_i hc
      rw [if_neg hc] at h
      cases sep with
      | none => simp only at h ⊢; exact sm_repItem hn hi ih h
      | some q =>
        obtain ⟨nq, sq⟩ := hs q rfl
        cases ho : (!out.isEmpty || cfg.allowLeading) with
        | false => rw [ho] at h; simp only at h ⊢; exact sm_repItem hn hi ih h
        | true =>
          rw [ho] at h
          simp only [Bool.false_and, Bool.true_and, Out.bind_eq_ok] at h ⊢
          obtain ⟨⟨r, k⟩, h1, h2⟩ := h
          cases r with
          | success x =>
            refine ⟨(.success x, k), ?_, sm_repItem hn hi ih h2⟩
            cases (decide (out.length < cfg.minimum) && !out.isEmpty)
            · exact h1
            · exact sq _ _ _ h1
          | recovered x es' => exact (nq _ _ _ _ h1).elim
          | failed x es' =>
            simp only at h2
            split at h2
            · rename_i he
              refine ⟨(.failed x es', k), ?_, ?_⟩
              · rw [he]; simpa using h1
              · simp only [if_pos he]; exact sm_repItem hn hi ih h2
            · rename_i he
              split at h2
              · rename_i hm
                refine ⟨(.failed x es', k), ?_, ?_⟩
                · rw [decide_eq_false (by omega)]; exact h1
                · simp only [if_neg he, if_pos hm]; exact h2
              · cases h2

theorem sm_repeat {E α β : Type} {fuel : Nat} {cfg : RepCfg} {item : PSem E α}
    {sep : Option (PSem E β)} (hn : NR item) (hi : SM item) (hs : ∀ q, sep = some q → NR q ∧ SM q) :
    SM (qRepeat fuel cfg item sep) :=
  fun i a j h => sm_repLoop hn hi hs fuel [] i a j h

theorem sm_alternate {α : Type} {ε : ErrTy S} {qs : List (PSem ε.E α)} :
    SM (qAlternate ε qs) := by
  intro i a j h
  simp only [qAlternate, Out.bind_eq_ok] at h ⊢
  obtain ⟨⟨r, k⟩, h1, h2⟩ := h
  cases r with
  | inl o => exact ⟨_, h1, h2⟩
  | inr fails =>
    simp only at h2
    split at h2
    · cases h2
    · simp only [Bool.false_eq_true, if_false] at h2
      obtain ⟨_, _, _, h3, _⟩ := altCombine_failed h2
      cases h3

theorem sm_toRecover {E α : Type} {q : PSem E α} {s : SSem E α} (hq : SM q) :
    SM (qToRecover q s) := by
  intro i a j h
  simp only [qToRecover, Out.bind_eq_ok] at h ⊢
  obtain ⟨⟨r, k⟩, h1, h2⟩ := h
  cases r with
  | success x => cases h2; exact ⟨_, hq _ _ _ h1, rfl⟩
  | recovered x es' => cases h2
  | failed x es' => simp at h2

section

variable {N : Names S} {e : Env S} {ρ : QEnv S N}

mutual

/-- Success without recovery is the same success with recovery, for every parser. -/
theorem G.sm (nρ : ∀ k, NR (ρ k)) (hρ : ∀ k, SM (ρ k)) (n : Nat) :
    ∀ {ε : ErrTy S} {α : Type} (g : G S N ε α), SM (g.den e ρ n)
  | _, _, .empty => by rw [G.den]; exact .of_eq fun _ => rfl
  | _, _, .none _ => by rw [G.den]; exact .of_eq fun _ => rfl
  | _, _, .eof => by rw [G.den]; exact .of_eq fun _ => rfl
  | _, _, .just t => by rw [G.den]; exact .of_eq fun _ => rfl
  | _, _, .filter p => by rw [G.den]; exact .of_eq fun _ => rfl
  | _, _, .filterMap f => by rw [G.den]; exact .of_eq fun _ => rfl
  | _, _, .seq v items => by rw [G.den]; exact .of_eq fun _ => rfl
  | _, _, .oneOf items => by rw [G.den]; exact .of_eq fun _ => rfl
  | _, _, .noneOf items => by rw [G.den]; exact .of_eq fun _ => rfl
  | _, _, .boxed g => by rw [G.den]; exact G.sm nρ hρ n g
  | _, _, .withError g => by rw [G.den]; exact G.sm nρ hρ n g
  | _, _, .to g v => by rw [G.den]; exact sm_map (G.sm nρ hρ n g)
  | _, _, .some g => by rw [G.den]; exact sm_map (G.sm nρ hρ n g)
  | _, _, .map f g => by rw [G.den]; exact sm_map (G.sm nρ hρ n g)
  | _, _, .mapWithSpan f g => by rw [G.den]; exact sm_mapWithSpan (G.sm nρ hρ n g)
  | _, _, .mapErr f g => by rw [G.den]; exact sm_mapErr (G.sm nρ hρ n g)
  | _, _, .mapErrWithSpan f g => by rw [G.den]; exact sm_mapErrWithSpan (G.sm nρ hρ n g)
  | _, _, .tryMap f g => by rw [G.den]; exact sm_tryMap (G.nr nρ n g) (G.sm nρ hρ n g)
  | _, _, .then_ a b => by
    rw [G.den]; exact sm_concat2 (G.nr nρ n a) (G.nr nρ n b) (G.sm nρ hρ n a) (G.sm nρ hρ n b)
  | _, _, .thenIgnore a b => by
    rw [G.den]; exact sm_concat2 (G.nr nρ n a) (G.nr nρ n b) (G.sm nρ hρ n a) (G.sm nρ hρ n b)
  | _, _, .ignoreThen a b => by
    rw [G.den]; exact sm_concat2 (G.nr nρ n a) (G.nr nρ n b) (G.sm nρ hρ n a) (G.sm nρ hρ n b)
  | _, _, .delimitedBy l m r => by
    rw [G.den]
    exact sm_concat3 (G.nr nρ n l) (G.nr nρ n m) (G.nr nρ n r) (G.sm nρ hρ n l) (G.sm nρ hρ n m)
      (G.sm nρ hρ n r)
  | _, _, .paddedBy p m => by
    rw [G.den]
    exact sm_concat3 (G.nr nρ n p) (G.nr nρ n m) (G.nr nρ n p) (G.sm nρ hρ n p) (G.sm nρ hρ n m)
      (G.sm nρ hρ n p)
  | _, _, .chain gs => by rw [G.den]; exact sm_concat (GL.sm nρ hρ n gs)
  | _, _, .or a b => by rw [G.den]; exact sm_alternate
  | _, _, .orNot g => by rw [G.den]; exact sm_alternate
  | _, _, .alters gs => by rw [G.den]; exact sm_alternate
  | _, _, .repeated cfg item => by
    rw [G.den]; exact sm_repeat (G.nr nρ n item) (G.sm nρ hρ n item) (fun q h => by cases h)
  | _, _, .separatedBy cfg item sep => by
    rw [G.den]
    refine sm_repeat (G.nr nρ n item) (G.sm nρ hρ n item) (fun q h => ?_)
    cases h
    exact ⟨G.nr nρ n sep, G.sm nρ hρ n sep⟩
  | _, _, .toRecover g st => by rw [G.den]; exact sm_toRecover (G.sm nρ hρ n g)
  | _, _, .call k => by rw [G.den]; exact hρ k

theorem GL.sm (nρ : ∀ k, NR (ρ k)) (hρ : ∀ k, SM (ρ k)) (n : Nat) :
    ∀ {ε : ErrTy S} {α : Type} (gs : GL S N ε α), ∀ q ∈ gs.den e ρ n, NR q ∧ SM q
  | _, _, .nil, q, h => by rw [GL.den] at h; cases h
  | _, _, .cons g gs, q, h => by
    rw [GL.den] at h
    rcases List.mem_cons.1 h with h | h
    · rw [h]; exact ⟨G.nr nρ n g, G.sm nρ hρ n g⟩
    · exact GL.sm nρ hρ n gs q h

end

theorem callSem_sm (D : Defs S N) : ∀ (n : Nat) (k : N.K), SM (callSem e D n k)
  | 0, k, i, a, j, h => by cases h
  | n + 1, k, i, a, j, h => by
    rw [callSem] at h ⊢
    cases hk : D k with
    | none => rw [hk] at h; cases h
    | some g => rw [hk] at h; exact G.sm (callSem_nr D n) (callSem_sm D n) n g _ _ _ h

theorem G.sem_sm (D : Defs S N) (n : Nat) {ε : ErrTy S} {α : Type} (g : G S N ε α) :
    SM (g.sem e D n) :=
  G.sm (callSem_nr D n) (callSem_sm D n) n g

end

end PPC
