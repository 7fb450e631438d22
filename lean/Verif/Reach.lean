import Verif.Refine

/-!
# Histories of a stream

Specification vocabulary for the stream properties: which calls a client may make,
and which stream states can arise.
-/

namespace PPC

variable {S : Sig}

/-- Number of tokens that have been read from the source (the end-of-input answer
is not a token). -/
def Stream.tokensRead (s : Stream S) : Nat := if s.sourceAtEof then s.pulled - 1 else s.pulled

/-- Calls covered by the properties:
* a saved state that is passed must still be owned by the client (Rust's ownership
  rules guarantee this: `&SavedState` cannot outlive the value);
* `save_at(i)` at an index up to which the input was read already;
* `advance_to(i)` not past an end of input that was seen already.

See `C08` for the two restrictions that Rust does not enforce. -/
def Legal : Op S → Stream S → Prop
  | .drop m, s => s.live m = true
  | .restore m, s => s.live m = true
  | .tokenAt m, s => s.live m = true
  | .locationAt m, s => s.live m = true
  | .spanningBackTo m, s => s.live m = true
  | .saveAt i, s => i ≤ s.tokensRead
  | .advanceTo i, s => ¬(s.sourceAtEof = true ∧ s.pulled ≤ i)
  | _, _ => True

/-- The states of a stream created from `e` that legal histories lead to. -/
inductive Reach (al : Alloc) (e : Env S) : Stream S → Prop
  | new : Reach al e (Stream.newWithLocation al e.source e.start)
  | step {s s' : Stream S} (o : Op S) {r : o.Resp} (h : Reach al e s) (hl : Legal o s)
      (hs : Stream.step o s = .ok (r, s')) : Reach al e s'

section

variable {e : Env S} {st : Nat} {s : Stream S} {c : Cursor}

theorem Sim.tokensRead (h : Sim e st s c) : s.tokensRead = c.limit e := by
  unfold Stream.tokensRead Cursor.limit
  rw [h.eof, h.pulled]

theorem Sim.not_stuck (h : Sim e st s c) {o : Op S} (hl : Legal o s) :
    Cursor.step e o c ≠ .stuck := by
  cases o with
  | save => simp [Cursor.step]
  | saveAt i =>
    simp only [Legal, h.tokensRead] at hl
    simp only [Cursor.step, if_pos hl]
    split <;> simp
  | drop m => simp only [Legal, h.live] at hl; simp [Cursor.step, hl]
  | restore m => simp only [Legal, h.live] at hl; simp [Cursor.step, hl]
  | token => simp [Cursor.step]
  | tokenAt m =>
    simp only [Legal, h.live] at hl
    simp only [Cursor.step, hl, if_true]
    split
    · simp
    · split <;> simp
  | index => simp [Cursor.step]
  | location => simp [Cursor.step]
  | locationAt m =>
    simp only [Legal, h.live] at hl
    simp only [Cursor.step, hl, if_true]
    split <;> simp
  | span => simp [Cursor.step]
  | spanningBackTo m =>
    simp only [Legal, h.live] at hl
    simp only [Cursor.step, hl, if_true]
    split <;> simp
  | advance => simp only [Cursor.step]; split <;> simp
  | advanceTo i =>
    simp only [Legal, h.eof, h.pulled] at hl
    simp only [Cursor.step]
    split
    · simp
    · rw [if_neg (by simpa using hl)]; simp

/-- A legal call that returns keeps the simulation; the answer is the ideal one. -/
theorem Sim.legal_step (h : Sim e st s c) {o : Op S} (hl : Legal o s) {r : o.Resp}
    {s' : Stream S} (hs : Stream.step o s = .ok (r, s')) :
    ∃ st' c', Cursor.step e o c = .ok (r, c') ∧ Sim e st' s' c' := by
  have h1 := h.step o
  have h2 := h.not_stuck hl
  rw [hs] at h1
  cases hc : Cursor.step e o c with
  | ok x =>
    rw [hc] at h1
    obtain ⟨st', s'', h3, h4⟩ := h1
    cases h3
    exact ⟨st', _, rfl, h4⟩
  | panic m => rw [hc] at h1; cases h1
  | oof => rw [hc] at h1; cases h1
  | stuck => exact (h2 hc).elim

/-- Every reachable stream is in simulation with an ideal cursor. -/
theorem Reach.sim {al : Alloc} (h : Reach al e s) : ∃ st c, Sim e st s c := by
  induction h with
  | new => exact ⟨0, _, Sim.init e al⟩
  | step o _ hl hs ih =>
    obtain ⟨st, c, h1⟩ := ih
    obtain ⟨st', c', _, h2⟩ := h1.legal_step hl hs
    exact ⟨st', c', h2⟩

theorem Sim.legal_of_not_stuck (h : Sim e st s c) {o : Op S} (hc : Cursor.step e o c ≠ .stuck)
    (hp : ∀ m, Cursor.step e o c ≠ .panic m) : Legal o s := by
  cases o with
  | saveAt i =>
    simp only [Legal, h.tokensRead]
    simp only [Cursor.step] at hc hp
    by_cases h1 : i < c.pos
    · exact (hp _ (if_pos h1)).elim
    · rw [if_neg h1] at hc
      by_cases h2 : i ≤ c.limit e
      · exact h2
      · exact (hc (if_neg h2)).elim
  | advanceTo i =>
    simp only [Legal, h.eof, h.pulled]
    simp only [Cursor.step] at hc hp
    by_cases h1 : i < c.pos
    · exact (hp _ (if_pos h1)).elim
    · rw [if_neg h1] at hc
      by_cases h2 : (c.sawEof e && decide (c.hi ≤ i)) = true
      · exact (hc (if_pos h2)).elim
      · simpa using h2
  | _ => first | trivial | (simp only [Legal, h.live]; simp only [Cursor.step] at hc; split at hc <;> simp_all)

/-- Running a client program whose ideal run returns only makes legal calls. -/
theorem Reach.run {al : Alloc} {α : Type} (p : Prog S α) : ∀ {st : Nat} {s : Stream S} {c : Cursor},
    Reach al e s → Sim e st s c → ∀ {x c'}, p.run (Cursor.step e) c = .ok (x, c') →
    ∃ st' s', p.run Stream.step s = .ok (x, s') ∧ Sim e st' s' c' ∧ Reach al e s' := by
  induction p with
  | ret a => intro st s c h hs x c' hr; cases hr; exact ⟨st, s, rfl, hs, h⟩
  | panic m => intro st s c h hs x c' hr; cases hr
  | oof => intro st s c h hs x c' hr; cases hr
  | op o k ih =>
    intro st s c h hs x c' hr
    simp only [Prog.run] at hr ⊢
    cases hc : Cursor.step e o c with
    | ok y =>
      rw [hc] at hr
      have h1 := hs.step o
      rw [hc] at h1
      obtain ⟨st', s', h2, h3⟩ := h1
      have hl : Legal o s := hs.legal_of_not_stuck (by rw [hc]; simp) (by rw [hc]; simp)
      rw [h2]
      exact ih y.1 (Reach.step o h hl h2) h3 hr
    | panic m => rw [hc] at hr; cases hr
    | oof => rw [hc] at hr; cases hr
    | stuck => rw [hc] at hr; cases hr

end

end PPC
