import Verif.SpecRecovery

/-!
# Recovery strategies: the semantics of the programs is the specification
-/

namespace PPC

variable {S : Sig} {N : Names S} {e : Env S} {D : Defs S N} {n : Nat}

/-- Every position mentioned by the state exists. -/
structure RState.Ok {E : Type} (e : Env S) (x : RState E) : Prop where
  pos : Valid e x.pos
  fa : Valid e x.failedAt

/-- `s`, run on `x`, is the relation `R` and stays within the input. -/
def Agrees {E α : Type} (e : Env S) (q : PSem E α) (st : Nat) (s : SSem E α) (R : RStep E α) : Prop :=
  ∀ x : RState E, x.Ok e →
    (∀ o (y : RState E), s q st x.failedAt x.errors x.pos = .ok ((o, y.failedAt, y.errors), y.pos) ↔ R x o y) ∧
    (∀ o (y : RState E), R x o y → y.Ok e)

theorem Valid.stepOver {i : Nat} (h : Valid e i) : Valid e (e.stepOver i) := by
  unfold Env.stepOver
  split
  · rename_i hs
    intro j hj
    by_cases hji : j = i
    · subst hji; exact hs
    · exact h j (by omega)
  · exact h

theorem next_eq_stepOver {i : Nat} : e.next i = e.stepOver i := rfl

theorem agrees_orElse {E α : Type} {q : PSem E α} {st : Nat} {s t : SSem E α} {R T : RStep E α}
    (hs : Agrees e q st s R) (ht : Agrees e q st t T) : Agrees e q st (s.orElse t) (After R T) := by
  intro x hx
  obtain ⟨h1, h1'⟩ := hs x hx
  constructor
  · intro o y
    unfold SSem.orElse
    rw [Out.bind_eq_ok]
    constructor
    · rintro ⟨⟨⟨o1, fa1, es1⟩, j1⟩, h2, h3⟩
      have h4 := (h1 o1 ⟨fa1, es1, j1⟩).1 h2
      cases o1 with
      | none => exact .inr ⟨_, h4, ((ht _ (h1' _ _ h4)).1 o y).1 h3⟩
      | some v =>
        simp only at h3
        cases y
        cases h3
        exact .inl ⟨v, rfl, h4⟩
    · rintro (⟨v, rfl, h2⟩ | ⟨z, h2, h3⟩)
      · exact ⟨((some v, y.failedAt, y.errors), y.pos), (h1 _ _).2 h2, rfl⟩
      · exact ⟨((none, z.failedAt, z.errors), z.pos), (h1 _ _).2 h2, ((ht _ (h1' _ _ h2)).1 o y).2 h3⟩
  · rintro o y (⟨v, rfl, h2⟩ | ⟨z, h2, h3⟩)
    · exact h1' _ _ h2
    · exact (ht _ (h1' _ _ h2)).2 _ _ h3

theorem agrees_becomes {E α : Type} {q : PSem E α} {st : Nat} {s : SSem E α}
    {f : RState E → RState E}
    (h : ∀ x : RState E, s q st x.failedAt x.errors x.pos =
      .ok ((none, (f x).failedAt, (f x).errors), (f x).pos))
    (hf : ∀ x : RState E, x.Ok e → (f x).Ok e) : Agrees e q st s (Becomes f) := by
  intro x hx
  constructor
  · intro o y
    rw [h x]
    unfold Becomes
    constructor
    · intro h
      have h1 := Out.ok.inj h
      obtain ⟨h2, h3⟩ := Prod.mk.inj h1
      obtain ⟨h4, h5⟩ := Prod.mk.inj h2
      obtain ⟨h6, h7⟩ := Prod.mk.inj h5
      refine ⟨h4.symm, ?_⟩
      cases y
      cases hfx : f x
      simp only [hfx] at h3 h6 h7
      rw [h3, h6, h7]
    · rintro ⟨rfl, rfl⟩; rfl
  · rintro o y ⟨rfl, rfl⟩
    exact hf x hx

theorem agrees_returns {E α : Type} {q : PSem E α} {st : Nat} {s : SSem E α} {f : RState E → α}
    (h : ∀ x : RState E, s q st x.failedAt x.errors x.pos =
      .ok ((some (f x), x.failedAt, x.errors), x.pos)) : Agrees e q st s (Returns f) := by
  intro x hx
  constructor
  · intro o y
    rw [h x]
    unfold Returns
    constructor
    · intro h
      cases x; cases y
      simp only at h
      have h1 := Out.ok.inj h
      obtain ⟨h2, rfl⟩ := Prod.mk.inj h1
      obtain ⟨h4, h5⟩ := Prod.mk.inj h2
      obtain ⟨rfl, rfl⟩ := Prod.mk.inj h5
      exact ⟨h4.symm, rfl⟩
    · rintro ⟨rfl, rfl⟩; rfl
  · rintro o y ⟨rfl, rfl⟩
    exact hx

theorem tokIs_true {p : S.I → Bool} {i : Nat} {d : Bool} : e.tokIs p d i = true ↔
    e.Holds p i ∨ (e.source i = none ∧ d = true) := by
  unfold Env.tokIs Env.Holds
  cases e.source i <;> simp

theorem tokIs_default_true {p : S.I → Bool} {i : Nat} : e.tokIs p true i = true ↔
    e.source i = none ∨ e.Holds p i := by
  rw [tokIs_true]; constructor
  · rintro (h | h)
    · exact .inr h
    · exact .inl h.1
  · rintro (h | h)
    · exact .inr ⟨h, rfl⟩
    · exact .inl h

theorem tokIs_default_true' {p : S.I → Bool} {i : Nat} : ¬ (e.tokIs p true i = true) ↔
    e.HoldsNot p i := by
  unfold Env.tokIs Env.HoldsNot
  cases e.source i <;> simp

theorem holdsNot_not {p : S.I → Bool} {i : Nat} (h : e.HoldsNot p i) :
    ¬(e.source i = none ∨ e.Holds p i) := by
  obtain ⟨t, h1, h2⟩ := h
  rintro (h | ⟨t', h3, h4⟩)
  · rw [h1] at h; cases h
  · rw [h1] at h3; cases h3; rw [h2] at h4; cases h4

theorem holdsNot_stepOver {p : S.I → Bool} {i : Nat} (h : e.HoldsNot p i) : e.stepOver i = i + 1 := by
  obtain ⟨t, h1, h2⟩ := h
  unfold Env.stepOver
  rw [h1]; rfl

theorem findSem_iff {p : S.I → Bool} : ∀ {fuel i j : Nat},
    findSem e p fuel i = .ok j ↔ FirstHit e p i j ∧ j < i + fuel := by
  intro fuel
  induction fuel with
  | zero =>
    intro i j
    simp only [findSem]
    constructor
    · intro h; cases h
    · rintro ⟨⟨h, _⟩, h2⟩; omega
  | succ fuel ih =>
    intro i j
    unfold findSem
    by_cases hc : e.tokIs p true i = true
    · rw [if_pos hc]
      have hc' := tokIs_default_true.1 hc
      constructor
      · intro h; cases h
        exact ⟨⟨Nat.le_refl _, fun k h1 h2 => by omega, hc'⟩, by omega⟩
      · rintro ⟨⟨h1, h2, h3⟩, h4⟩
        by_cases hij : i = j
        · rw [hij]
        · exact (holdsNot_not (h2 i (Nat.le_refl _) (by omega)) hc').elim
    · rw [if_neg hc]
      have hc' := tokIs_default_true'.1 hc
      rw [next_eq_stepOver, holdsNot_stepOver hc', ih]
      constructor
      · rintro ⟨⟨h1, h2, h3⟩, h4⟩
        refine ⟨⟨by omega, fun k h5 h6 => ?_, h3⟩, by omega⟩
        by_cases hk : k = i
        · subst hk; exact hc'
        · exact h2 k (by omega) h6
      · rintro ⟨⟨h1, h2, h3⟩, h4⟩
        have hij : i ≠ j := by
          rintro rfl
          exact holdsNot_not hc' h3
        exact ⟨⟨by omega, fun k h5 h6 => h2 k (by omega) h6, h3⟩, by omega⟩

theorem firstHit_valid {p : S.I → Bool} {i j : Nat} (h : FirstHit e p i j) (hi : Valid e i) : Valid e j := by
  intro k hk
  by_cases hki : k < i
  · exact hi k hki
  · obtain ⟨t, h1, _⟩ := h.2.1 k (by omega) hk
    rw [h1]; rfl

theorem scanSem_iff {E : Type} {sc : Scanner S E} : ∀ {fuel : Nat} {st : sc.σ} {es : List E} {i : Nat}
    {es' : List E} {j : Nat},
    scanSem e sc fuel st es i = .ok (es', j) ↔ Scans e sc st es i es' j ∧ j < i + fuel := by
  have hmono : ∀ {st : sc.σ} {es : List E} {i : Nat} {es' : List E} {j : Nat},
      Scans e sc st es i es' j → i ≤ j := by
    intro st es i es' j h
    induction h with
    | stop => exact Nat.le_refl _
    | more _ _ _ ih => omega
    | eof => exact Nat.le_refl _
  intro fuel
  induction fuel with
  | zero =>
    intro st es i es' j
    simp only [scanSem]
    constructor
    · intro h; cases h
    · rintro ⟨h, h2⟩
      have := hmono h
      omega
  | succ fuel ih =>
    intro st es i es' j
    unfold scanSem
    cases ht : e.source i with
    | none =>
      simp only
      rw [locationAt_eq]
      constructor
      · intro h; cases h; exact ⟨.eof ht, by omega⟩
      · rintro ⟨h, _⟩
        cases h with
        | stop h1 => rw [ht] at h1; cases h1
        | more h1 => rw [ht] at h1; cases h1
        | eof => rfl
    | some t =>
      simp only
      rw [← tokenSpan_eq]
      cases hs : sc.scan t (tokenSpan e i) st es with
      | error m =>
        simp only
        constructor
        · intro h; cases h
        · rintro ⟨h, _⟩
          cases h with
          | stop h1 h2 => rw [ht] at h1; cases h1; rw [hs] at h2; cases h2
          | more h1 h2 => rw [ht] at h1; cases h1; rw [hs] at h2; cases h2
          | eof h1 => rw [ht] at h1; cases h1
      | ok r =>
        obtain ⟨b, st', es1⟩ := r
        cases b with
        | true =>
          simp only
          constructor
          · intro h; cases h; exact ⟨.stop ht hs, by omega⟩
          · rintro ⟨h, _⟩
            cases h with
            | stop h1 h2 => rw [ht] at h1; cases h1; rw [hs] at h2; cases h2; rfl
            | more h1 h2 => rw [ht] at h1; cases h1; rw [hs] at h2; cases h2
            | eof h1 => rw [ht] at h1; cases h1
        | false =>
          simp only
          rw [ih]
          constructor
          · rintro ⟨h, h2⟩; exact ⟨.more ht hs h, by omega⟩
          · rintro ⟨h, h3⟩
            cases h with
            | stop h1 h2 => rw [ht] at h1; cases h1; rw [hs] at h2; cases h2
            | more h1 h2 h4 => rw [ht] at h1; cases h1; rw [hs] at h2; cases h2; exact ⟨h4, by omega⟩
            | eof h1 => rw [ht] at h1; cases h1

theorem Scans.valid {E : Type} {sc : Scanner S E} {st : sc.σ} {es : List E} {i : Nat}
    {es' : List E} {j : Nat} (h : Scans e sc st es i es' j) : Valid e i → Valid e j := by
  induction h with
  | stop => exact id
  | @more _ _ _ _ _ i0 _ _ h1 _ _ ih =>
    intro hi
    refine ih ?_
    intro k hk
    by_cases hki : k = i0
    · subst hki; rw [h1]; rfl
    · exact hi k (by omega)
  | eof => exact id

theorem whileNot_agrees {E α : Type} {q : PSem E α} {st : Nat} {p : S.I → Bool} {t : SSem E α}
    {R : RStep E α} (ht : Agrees e q st t R) : ∀ {fuel : Nat} (x : RState E), x.Ok e →
    (∀ o (y : RState E), whileNotSem e p t q st fuel x.failedAt x.errors x.pos =
        .ok ((o, y.failedAt, y.errors), y.pos) ↔ ∃ m, m < fuel ∧ WhileNot e p R m x o y) := by
  intro fuel
  induction fuel with
  | zero =>
    intro x hx o y
    simp only [whileNotSem]
    constructor
    · intro h; cases h
    · rintro ⟨m, h, _⟩; omega
  | succ fuel ih =>
    intro x hx o y
    unfold whileNotSem
    by_cases hc : e.tokIs p true x.pos = true
    · rw [if_pos hc]
      have hc' := tokIs_default_true.1 hc
      constructor
      · intro h
        cases x; cases y
        simp only [giveUp] at h
        cases h
        exact ⟨0, by omega, .stop hc'⟩
      · rintro ⟨m, h1, h2⟩
        cases h2 with
        | stop => rfl
        | done h3 => exact (holdsNot_not h3 hc').elim
        | next h3 => exact (holdsNot_not h3 hc').elim
    · rw [if_neg hc]
      have hc' := tokIs_default_true'.1 hc
      obtain ⟨h1, h1'⟩ := ht x hx
      rw [Out.bind_eq_ok]
      constructor
      · rintro ⟨⟨⟨o1, fa1, es1⟩, j1⟩, h2, h3⟩
        have h4 := (h1 o1 ⟨fa1, es1, j1⟩).1 h2
        cases o1 with
        | none =>
          simp only at h3
          have hz := h1' _ _ h4
          obtain ⟨m, h5, h6⟩ := (ih ⟨fa1, es1, e.stepOver j1⟩ ⟨hz.pos.stepOver, hz.fa⟩ o y).1 h3
          exact ⟨m + 1, by omega, .next hc' h4 h6⟩
        | some v =>
          simp only at h3
          cases y
          cases h3
          exact ⟨0, by omega, .done hc' h4⟩
      · rintro ⟨m, h2, h3⟩
        cases h3 with
        | stop h4 => exact (holdsNot_not hc' h4).elim
        | done h4 h5 => exact ⟨((_, y.failedAt, y.errors), y.pos), (h1 _ _).2 h5, rfl⟩
        | next h4 h5 h6 =>
          rename_i m z
          have hz := h1' _ _ h5
          exact ⟨((none, z.failedAt, z.errors), z.pos), (h1 _ _).2 h5,
            (ih ⟨z.failedAt, z.errors, e.stepOver z.pos⟩ ⟨hz.pos.stepOver, hz.fa⟩ o y).2
              ⟨m, by omega, h6⟩⟩

theorem whileNot_ok {E α : Type} {p : S.I → Bool} {R : RStep E α} {m : Nat} {x : RState E} {o : Option α}
    {y : RState E} (h : WhileNot e p R m x o y)
    (hR : ∀ x : RState E, x.Ok e → ∀ o (y : RState E), R x o y → y.Ok e) : x.Ok e → y.Ok e := by
  induction h with
  | stop => exact id
  | done _ h => exact fun hx => hR _ hx _ _ h
  | next _ h _ ih =>
    intro hx
    have hz := hR _ hx _ _ h
    exact ih ⟨hz.pos.stepOver, hz.fa⟩

theorem tryParser_agrees {ε : ErrTy S} {α : Type} {g : G S N ε α} {q : PSem ε.E α} {st : Nat}
    {exact silent : Bool} :
    Agrees e q st (fun _ _ fa es i => runInSem (g.sem e D n) exact silent fa es i)
      (TryParser e D n g exact silent) := by
  intro x hx
  have hok : ∀ o (y : RState ε.E), TryParser e D n g exact silent x o y → y.Ok e := by
    rintro o y (⟨v, j, h1, rfl, rfl⟩ | ⟨v, es, j, h1, rfl, rfl⟩ | ⟨k, es, j, h1, h2, rfl, rfl⟩)
    · exact ⟨h1.valid hx.pos, hx.fa⟩
    · exact ⟨h1.valid hx.pos, hx.fa⟩
    · have := (G.sem_valid D n g _ hx.pos ((parsesAt_iff hx.pos).1 h1)).2.2 _ _ rfl
      exact ⟨h1.valid hx.pos, this.2⟩
  refine ⟨fun o y => ?_, hok⟩
  unfold runInSem
  rw [Out.bind_eq_ok]
  constructor
  · rintro ⟨⟨r, j⟩, h1, h2⟩
    have h1' := (parsesAt_iff hx.pos).2 h1
    cases y
    cases r with
    | success v => cases h2; exact .inl ⟨v, _, h1', rfl, rfl⟩
    | recovered v es => cases h2; exact .inr (.inl ⟨v, es, _, h1', rfl, rfl⟩)
    | failed k es =>
      simp only [Out.bind_eq_ok] at h2
      obtain ⟨fa', h3, h4⟩ := h2
      unfold saveAtSem at h3
      split at h3
      · cases h3
      · rename_i hk
        cases h3
        cases h4
        exact .inr (.inr ⟨_, es, _, h1', by omega, rfl, rfl⟩)
  · rintro (⟨v, j, h1, rfl, rfl⟩ | ⟨v, es, j, h1, rfl, rfl⟩ | ⟨k, es, j, h1, h2, rfl, rfl⟩)
    · exact ⟨_, (parsesAt_iff hx.pos).1 h1, rfl⟩
    · exact ⟨_, (parsesAt_iff hx.pos).1 h1, rfl⟩
    · refine ⟨_, (parsesAt_iff hx.pos).1 h1, ?_⟩
      simp only [Out.bind_eq_ok]
      refine ⟨k, ?_, rfl⟩
      unfold saveAtSem
      rw [if_neg (by omega)]

theorem RState.Ok.next {E : Type} {x : RState E} (hx : x.Ok e) :
    RState.Ok e { x with pos := e.stepOver x.pos } := ⟨hx.pos.stepOver, hx.fa⟩

/-- The semantics of incomplete strategies is their specification. -/
theorem IS.agrees {st : Nat} (hst : Valid e st) : ∀ {ε : ErrTy S} {α : Type} (g : G S N ε α) (s : IS S N ε α),
    Agrees e (g.sem e D n) st (s.den e (callSem e D n) n) (Runs e D n st g s)
  | _, _, _, .attemptTo => agrees_becomes (fun _ => rfl) (fun _ h => h)
  | _, _, g, .restart s => agrees_orElse (IS.agrees hst g s)
      (agrees_becomes (fun _ => rfl) (fun _ h => ⟨hst, h.fa⟩))
  | _, _, g, .seekToFailed s => agrees_orElse (IS.agrees hst g s)
      (agrees_becomes (fun _ => rfl) (fun _ h => ⟨h.fa, h.fa⟩))
  | _, _, g, .skip s => agrees_orElse (IS.agrees hst g s)
      (agrees_becomes (fun _ => rfl) (fun _ h => h.next))
  | _, _, g, .skipIf s p => agrees_orElse (IS.agrees hst g s) (by
      intro x hx
      constructor
      · intro o y
        simp only [giveUp]
        by_cases hc : e.tokIs p false x.pos = true
        · rw [if_pos hc]
          have hc' : e.Holds p x.pos := by
            rcases tokIs_true.1 hc with h | ⟨_, h⟩
            · exact h
            · cases h
          constructor
          · intro h; cases y; cases h; exact ⟨rfl, .inl ⟨hc', rfl⟩⟩
          · rintro ⟨rfl, ⟨_, rfl⟩ | ⟨h, _⟩⟩
            · rfl
            · exact (h hc').elim
        · rw [if_neg hc]
          have hc' : ¬e.Holds p x.pos := fun h => hc (tokIs_true.2 (.inl h))
          constructor
          · intro h; cases x; cases y; cases h; exact ⟨rfl, .inr ⟨hc', rfl⟩⟩
          · rintro ⟨rfl, ⟨h, _⟩ | ⟨_, rfl⟩⟩
            · exact (hc' h).elim
            · rfl
      · rintro o y ⟨rfl, ⟨⟨t, h, _⟩, rfl⟩ | ⟨_, rfl⟩⟩
        · have := hx.next
          unfold Env.stepOver at this
          rw [h] at this
          exact this
        · exact hx)
  | _, _, g, .find s p => agrees_orElse (IS.agrees hst g s) (by
      intro x hx
      constructor
      · intro o y
        simp only [Out.bind_eq_ok, findSem_iff, giveUp]
        constructor
        · rintro ⟨j, ⟨h1, h2⟩, h3⟩
          cases y; cases h3
          exact ⟨rfl, _, h1, h2, rfl⟩
        · rintro ⟨rfl, j, h1, h2, rfl⟩
          exact ⟨j, ⟨h1, h2⟩, rfl⟩
      · rintro o y ⟨rfl, j, h1, h2, rfl⟩
        exact ⟨firstHit_valid h1 hx.pos, hx.fa⟩)
  | _, _, g, .scan s sc => agrees_orElse (IS.agrees hst g s) (by
      intro x hx
      constructor
      · intro o y
        simp only [Out.bind_eq_ok, giveUp]
        constructor
        · rintro ⟨⟨es, j⟩, h1, h3⟩
          obtain ⟨h1, h2⟩ := scanSem_iff.1 h1
          cases y; cases h3
          exact ⟨rfl, _, _, h1, h2, rfl⟩
        · rintro ⟨rfl, es, j, h1, h2, rfl⟩
          exact ⟨⟨es, j⟩, scanSem_iff.2 ⟨h1, h2⟩, rfl⟩
      · rintro o y ⟨rfl, es, j, h1, h2, rfl⟩
        exact ⟨h1.valid hx.pos, hx.fa⟩)
  | _, _, g, .maybe s t => agrees_orElse (IS.agrees hst g s) (by
      intro x hx
      obtain ⟨h1, h1'⟩ := IS.agrees hst g t x hx
      constructor
      · intro o y
        simp only [Out.bind_eq_ok]
        constructor
        · rintro ⟨⟨⟨o1, fa1, es1⟩, j1⟩, h2, h3⟩
          have h4 := (h1 o1 ⟨fa1, es1, j1⟩).1 h2
          cases y
          cases o1 with
          | none => cases h3; exact .inr ⟨rfl, _, h4, rfl⟩
          | some v => cases h3; exact .inl ⟨rfl, h4⟩
        · rintro (⟨h2, h3⟩ | ⟨rfl, z, h2, rfl⟩)
          · refine ⟨_, (h1 _ _).2 h3, ?_⟩
            simp only [h2, if_true]
          · exact ⟨_, (h1 _ _).2 h2, rfl⟩
      · rintro o y (⟨h2, h3⟩ | ⟨rfl, z, h2, rfl⟩)
        · exact h1' _ _ h3
        · exact ⟨hx.pos, (h1' _ _ h2).fa⟩)
  | _, _, g, .whileNot s p t => agrees_orElse (IS.agrees hst g s) (by
      intro x hx
      refine ⟨whileNot_agrees (IS.agrees hst g t) x hx, ?_⟩
      rintro o y ⟨m, h1, h2⟩
      exact whileNot_ok h2 (fun x hx => (IS.agrees hst g t x hx).2) hx)
  | _, _, g, .retry s exact silent => agrees_orElse (IS.agrees hst g s) (by
      intro x hx
      exact tryParser_agrees (q := g.sem e D n) (st := st) x hx)
  | _, _, g, .tryToParse s h exact silent => agrees_orElse (IS.agrees hst g s) tryParser_agrees
  | _, _, g, .pushError s f => agrees_orElse (IS.agrees hst g s)
      (agrees_becomes (fun _ => rfl) (fun _ h => ⟨h.pos, h.fa⟩))
  | _, _, g, .pushErrorHere s f => agrees_orElse (IS.agrees hst g s)
      (agrees_becomes (fun x => by simp only [giveUp, locationAt_eq]) (fun _ h => ⟨h.pos, h.fa⟩))
  | _, _, g, .pushErrorUpToHere s f => agrees_orElse (IS.agrees hst g s)
      (agrees_becomes (fun x => by simp only [giveUp, spanOf_eq]) (fun _ h => ⟨h.pos, h.fa⟩))
  | _, _, g, .pushErrorForToken s f => agrees_orElse (IS.agrees hst g s)
      (agrees_becomes (fun x => by simp only [giveUp, tokenSpan_eq]) (fun _ h => ⟨h.pos, h.fa⟩))
  | _, _, g, .updateErrors s f => agrees_orElse (IS.agrees hst g s)
      (agrees_becomes (fun _ => rfl) (fun _ h => ⟨h.pos, h.fa⟩))
  | _, _, g, .updateErrorsHere s f => agrees_orElse (IS.agrees hst g s)
      (agrees_becomes (fun x => by simp only [giveUp, locationAt_eq]) (fun _ h => ⟨h.pos, h.fa⟩))
  | _, _, g, .updateErrorsUpToHere s f => agrees_orElse (IS.agrees hst g s)
      (agrees_becomes (fun x => by simp only [giveUp, spanOf_eq]) (fun _ h => ⟨h.pos, h.fa⟩))
  | _, _, g, .updateErrorsForToken s f => agrees_orElse (IS.agrees hst g s)
      (agrees_becomes (fun x => by simp only [giveUp, tokenSpan_eq]) (fun _ h => ⟨h.pos, h.fa⟩))
  | _, _, g, .boxed s => IS.agrees hst g s

/-- The semantics of complete strategies is their specification. -/
theorem CS.agrees {st : Nat} (hst : Valid e st) {ε : ErrTy S} {α : Type} (g : G S N ε α) (s : CS S N ε α) :
    Agrees e (g.sem e D n) st (s.den e (callSem e D n) n) (RunsAll e D n st g s) := by
  cases s with
  | ret s v => exact agrees_orElse (IS.agrees hst g s) (agrees_returns fun _ => rfl)
  | retWith s f => exact agrees_orElse (IS.agrees hst g s) (agrees_returns fun _ => rfl)
  | retWithSpan s f =>
    exact agrees_orElse (IS.agrees hst g s) (agrees_returns fun x => by rw [spanOf_eq])
  | orFail s => exact IS.agrees hst g s

end PPC
