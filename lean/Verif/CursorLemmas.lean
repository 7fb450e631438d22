import Verif.Cursor

/-! # Helper lemmas about the ideal cursor and programs -/

namespace PPC

variable {S : Sig}

namespace Prog

@[simp] theorem pure_eq {α : Type} (a : α) : (pure a : Prog S α) = ret a := rfl
@[simp] theorem bind_eq {α β : Type} (p : Prog S α) (f : α → Prog S β) :
    (p >>= f) = p.bind f := rfl
@[simp] theorem map_eq {α β : Type} (p : Prog S α) (f : α → β) :
    (f <$> p) = p.bind (fun a => ret (f a)) := rfl
@[simp] theorem ret_bind {α β : Type} (a : α) (f : α → Prog S β) : (ret a).bind f = f a := rfl
@[simp] theorem panic_bind {α β : Type} (m : String) (f : α → Prog S β) :
    (panic m : Prog S α).bind f = panic m := rfl
@[simp] theorem oof_bind {α β : Type} (f : α → Prog S β) :
    (oof : Prog S α).bind f = oof := rfl
@[simp] theorem op_bind {α β : Type} (o : Op S) (k : o.Resp → Prog S α) (f : α → Prog S β) :
    (op o k).bind f = op o fun x => (k x).bind f := rfl

theorem bind_assoc {α β γ : Type} (p : Prog S α) (f : α → Prog S β) (g : β → Prog S γ) :
    (p.bind f).bind g = p.bind fun a => (f a).bind g := by
  induction p with
  | ret a => rfl
  | panic m => rfl
  | oof => rfl
  | op o k ih => simp [ih]

theorem bind_ret {α : Type} (p : Prog S α) : p.bind ret = p := by
  induction p with
  | ret a => rfl
  | panic m => rfl
  | oof => rfl
  | op o k ih => simp [ih]

theorem run_bind {α β σ : Type} (step : (o : Op S) → σ → Out (o.Resp × σ))
    (p : Prog S α) (f : α → Prog S β) (s : σ) :
    (p.bind f).run step s = (p.run step s >>= fun x => (f x.1).run step x.2) := by
  induction p generalizing s with
  | ret a => rfl
  | panic m => rfl
  | oof => rfl
  | op o k ih => simp [run, ih, Out.bind_assoc']

end Prog

namespace Cursor

/-- Consistency of a cursor with its source: only existing positions. -/
structure WF (e : Env S) (c : Cursor) : Prop where
  good : ∀ j, j + 1 < c.hi → (e.source j).isSome = true
  posLe : c.pos ≤ c.limit e
  liveOk : ∀ m, c.live m = true → m.index ≤ c.limit e ∧ m.id < c.nextId

theorem limit_le_hi (e : Env S) (c : Cursor) : c.limit e ≤ c.hi := by
  unfold limit; split <;> omega

theorem hi_le_limit (e : Env S) (c : Cursor) : c.hi ≤ c.limit e + 1 := by
  unfold limit; split <;> omega

theorem limit_congr (e : Env S) {c c' : Cursor} (h : c'.hi = c.hi) :
    c'.limit e = c.limit e := by
  simp [limit, sawEof, h]

theorem WF.some_of_lt {e : Env S} {c : Cursor} (h : c.WF e) {j : Nat} (hj : j < c.limit e) :
    (e.source j).isSome = true := by
  by_cases h1 : j + 1 < c.hi
  · exact h.good j h1
  · have := limit_le_hi e c
    have h2 : c.hi = j + 1 := by omega
    unfold limit sawEof at hj
    simp [h2] at hj
    split at hj
    · omega
    · rename_i h3
      cases hs : e.source j <;> simp_all

theorem WF.posHi {e : Env S} {c : Cursor} (h : c.WF e) : c.pos ≤ c.hi :=
  Nat.le_trans h.posLe (limit_le_hi e c)

theorem WF.source_some_iff {e : Env S} {c : Cursor} (h : c.WF e) {j : Nat} (hj : j < c.hi) :
    (e.source j).isSome = true ↔ j < c.limit e := by
  constructor
  · intro hs
    have := hi_le_limit e c
    by_cases h1 : j < c.limit e
    · exact h1
    · exfalso
      have h2 : c.hi = j + 1 := by omega
      have h3 : ¬ (j < c.limit e) := h1
      unfold limit sawEof at h3
      simp [h2] at h3
      split at h3
      · rename_i h4
        simp [h4] at hs
      · omega
  · exact h.some_of_lt

@[simp] theorem look_pos (c : Cursor) : c.look.pos = c.pos := rfl
@[simp] theorem look_live (c : Cursor) : c.look.live = c.live := rfl
@[simp] theorem look_nextId (c : Cursor) : c.look.nextId = c.nextId := rfl
theorem look_hi (c : Cursor) : c.look.hi = max c.hi (c.pos + 1) := rfl

theorem look_of_lt {c : Cursor} (h : c.pos < c.hi) : c.look = c := by
  unfold look
  have : max c.hi (c.pos + 1) = c.hi := by omega
  rw [this]

theorem WF.limit_look {e : Env S} {c : Cursor} (h : c.WF e) :
    c.look.limit e = if c.pos < c.hi then c.limit e else e.next c.pos := by
  split
  · rename_i h1; rw [look_of_lt h1]
  · rename_i h1
    have h2 : c.hi = c.pos := by have := h.posHi; omega
    unfold limit sawEof Env.next
    rw [look_hi, h2]
    have : max c.pos (c.pos + 1) = c.pos + 1 := by omega
    rw [this]
    cases hs : e.source c.pos <;> simp [hs]

theorem WF.limit_le_look {e : Env S} {c : Cursor} (h : c.WF e) :
    c.limit e ≤ c.look.limit e := by
  rw [h.limit_look]
  split
  · omega
  · have h2 : c.hi = c.pos := by have := h.posHi; omega
    have := limit_le_hi e c
    unfold Env.next; split <;> omega

theorem WF.lookWF {e : Env S} {c : Cursor} (h : c.WF e) : c.look.WF e where
  good := by
    intro j hj
    rw [look_hi] at hj
    by_cases h1 : c.pos < c.hi
    · exact h.good j (by omega)
    · have h2 : c.hi = c.pos := by have := h.posHi; omega
      have := h.posLe
      exact h.some_of_lt (by omega)
  posLe := Nat.le_trans h.posLe h.limit_le_look
  liveOk := fun m hm => ⟨Nat.le_trans (h.liveOk m hm).1 h.limit_le_look, (h.liveOk m hm).2⟩

/-- After looking, the current position holds a token iff it is below the limit. -/
theorem WF.look_lt {e : Env S} {c : Cursor} (h : c.WF e) (hs : (e.source c.pos).isSome = true) :
    c.pos + 1 ≤ c.look.limit e := by
  have := (h.lookWF).source_some_iff (j := c.pos) (by rw [look_hi]; omega)
  exact this.1 hs

theorem WF.init (e : Env S) : Cursor.init.WF e where
  good := by intro j hj; simp [Cursor.init] at hj
  posLe := by simp [Cursor.init]
  liveOk := by intro m hm; simp [Cursor.init] at hm

theorem WF.setPos {e : Env S} {c : Cursor} (h : c.WF e) {p : Nat} (hp : p ≤ c.limit e) :
    ({ c with pos := p } : Cursor).WF e where
  good := h.good
  posLe := hp
  liveOk := h.liveOk

theorem WF.saveIdxWF {e : Env S} {c : Cursor} (h : c.WF e) {i : Nat} (hi : i ≤ c.limit e) :
    (c.saveIdx i).2.WF e where
  good := h.good
  posLe := h.posLe
  liveOk := by
    intro m hm
    simp only [saveIdx, Bool.or_eq_true, decide_eq_true_eq] at hm ⊢
    rcases hm with rfl | hm
    · exact ⟨hi, Nat.lt_succ_self _⟩
    · exact ⟨(h.liveOk m hm).1, Nat.lt_succ_of_lt (h.liveOk m hm).2⟩

theorem WF.dropWF {e : Env S} {c : Cursor} (h : c.WF e) (m : SavedState) :
    ({ c with live := fun x => x ≠ m && c.live x } : Cursor).WF e where
  good := h.good
  posLe := h.posLe
  liveOk := by
    intro x hx
    simp only [Bool.and_eq_true] at hx
    exact h.liveOk x hx.2

theorem WF.advanceWF {e : Env S} {c : Cursor} (h : c.WF e)
    (hs : (e.source c.pos).isSome = true) :
    ({ c.look with pos := c.pos + 1 } : Cursor).WF e :=
  h.lookWF.setPos (h.look_lt hs)

theorem WF.advanceByWF {e : Env S} : ∀ (k : Nat) {c : Cursor}, c.WF e →
    (advanceBy e k c).2.WF e
  | 0, _, h => h
  | k + 1, c, h => by
    unfold advanceBy
    split
    · rename_i hs; exact WF.advanceByWF k (h.advanceWF hs)
    · exact h.lookWF

/-- Every API call preserves well-formedness. -/
theorem WF.step {e : Env S} {c : Cursor} (h : c.WF e) (o : Op S) {r : o.Resp} {c' : Cursor}
    (hs : Cursor.step e o c = .ok (r, c')) : c'.WF e := by
  cases o with
  | save =>
    simp only [Cursor.step, Out.ok.injEq] at hs
    have := h.saveIdxWF h.posLe
    rw [hs] at this; exact this
  | saveAt i =>
    simp only [Cursor.step] at hs
    split at hs
    · cases hs
    · split at hs
      · rename_i h2
        simp only [Out.ok.injEq] at hs
        have := h.saveIdxWF h2
        rw [hs] at this; exact this
      · cases hs
  | drop m =>
    simp only [Cursor.step] at hs
    split at hs
    · simp only [Out.ok.injEq, Prod.mk.injEq] at hs; obtain ⟨_, rfl⟩ := hs; exact h.dropWF m
    · cases hs
  | restore m =>
    simp only [Cursor.step] at hs
    split at hs
    · rename_i hl
      simp only [Out.ok.injEq, Prod.mk.injEq] at hs; obtain ⟨_, rfl⟩ := hs
      exact h.setPos (h.liveOk m hl).1
    · cases hs
  | token =>
    simp only [Cursor.step, Out.ok.injEq, Prod.mk.injEq] at hs; obtain ⟨_, rfl⟩ := hs
    exact h.lookWF
  | tokenAt m =>
    simp only [Cursor.step] at hs
    split at hs
    · split at hs
      · simp only [Out.ok.injEq, Prod.mk.injEq] at hs; obtain ⟨_, rfl⟩ := hs; exact h.lookWF
      · split at hs
        · simp only [Out.ok.injEq, Prod.mk.injEq] at hs; obtain ⟨_, rfl⟩ := hs; exact h
        · cases hs
    · cases hs
  | index =>
    simp only [Cursor.step, Out.ok.injEq, Prod.mk.injEq] at hs; obtain ⟨_, rfl⟩ := hs; exact h
  | location =>
    simp only [Cursor.step, Out.ok.injEq, Prod.mk.injEq] at hs; obtain ⟨_, rfl⟩ := hs; exact h
  | locationAt m =>
    simp only [Cursor.step] at hs
    split at hs
    · split at hs
      · simp only [Out.ok.injEq, Prod.mk.injEq] at hs; obtain ⟨_, rfl⟩ := hs; exact h
      · cases hs
    · cases hs
  | span =>
    simp only [Cursor.step, Out.ok.injEq, Prod.mk.injEq] at hs; obtain ⟨_, rfl⟩ := hs
    exact h.lookWF
  | spanningBackTo m =>
    simp only [Cursor.step] at hs
    split at hs
    · split at hs
      · simp only [Out.ok.injEq, Prod.mk.injEq] at hs; obtain ⟨_, rfl⟩ := hs; exact h
      · cases hs
    · cases hs
  | advance =>
    simp only [Cursor.step] at hs
    split at hs
    · rename_i h1
      simp only [Out.ok.injEq, Prod.mk.injEq] at hs; obtain ⟨_, rfl⟩ := hs; exact h.advanceWF h1
    · simp only [Out.ok.injEq, Prod.mk.injEq] at hs; obtain ⟨_, rfl⟩ := hs; exact h.lookWF
  | advanceTo i =>
    simp only [Cursor.step] at hs
    split at hs
    · cases hs
    · split at hs
      · cases hs
      · simp only [Out.ok.injEq] at hs
        have := WF.advanceByWF (e := e) (i - c.pos) h
        rw [hs] at this; exact this

end Cursor

end PPC
