import Verif.Reach

/-!
# Size of the token buffer

Helper lemmas for C03: an invariant bounding the buffer, on top of the simulation.
-/

namespace PPC

variable {S : Sig}

/-- The look-back window of a stream state is at most `W`: every saved state that the
client still owns was saved at most `W` tokens before the cursor. -/
def Stream.Window (W : Nat) (s : Stream S) : Prop :=
  ∀ m, s.live m = true → s.index ≤ m.index + W

/-- The states that legal histories lead to in which the look-back window never
exceeds `W`. -/
inductive ReachW (al : Alloc) (e : Env S) (W : Nat) : Stream S → Prop
  | new : ReachW al e W (Stream.newWithLocation al e.source e.start)
  | step {s s' : Stream S} (o : Op S) {r : o.Resp} (h : ReachW al e W s) (hl : Legal o s)
      (hs : Stream.step o s = .ok (r, s')) (hw : s'.Window W) : ReachW al e W s'

theorem ReachW.reach {al : Alloc} {e : Env S} {W : Nat} {s : Stream S} (h : ReachW al e W s) :
    Reach al e s := by
  induction h with
  | new => exact .new
  | step o _ hl hs _ ih => exact .step o ih hl hs

theorem ReachW.window {al : Alloc} {e : Env S} {W : Nat} {s : Stream S} (h : ReachW al e W s) :
    s.Window W := by
  cases h with
  | new => intro m hm; simp [Stream.newWithLocation] at hm
  | step _ _ _ _ hw => exact hw

/-- Bound on buffer and capacity. Only the end-of-input marker may exceed it. -/
structure BufOk (al : Alloc) (B : Nat) (s : Stream S) : Prop where
  len : s.buffer.length ≤ B + (if s.sourceAtEof then 1 else 0)
  cap : s.sourceAtEof = false → s.bufCap ≤ B ∧ s.buffer.length ≤ s.bufCap
  al : s.alloc = al

section

variable {e : Env S} {st : Nat} {s s' : Stream S} {c : Cursor} {al : Alloc} {B W : Nat}

theorem Stream.dropOld_facts (h : s.dropOld = .ok s') :
    s'.live = s.live ∧ s'.index = s.index ∧ s'.bufCap = s.bufCap ∧ s'.alloc = s.alloc ∧
    s'.sourceAtEof = s.sourceAtEof ∧ s'.buffer.length ≤ s.buffer.length ∧
    s'.sourceLocation = s.sourceLocation ∧ s'.pulled = s.pulled ∧ s'.source = s.source := by
  unfold Stream.dropOld at h
  split at h
  · revert h
    unfold Stream.startOfBuffer
    simp only
    split
    · simp only [Out.ok_bind]
      split
      · split
        · split
          · split
            · intro h; cases h; simp
            · intro h; cases h
          · intro h; cases h
        · intro h; cases h; simp
      · intro h; cases h
    · intro h; cases h
  · cases h; simp

/-- At capacity, what is kept is what lies in the look-back window. -/
theorem Stream.dropOld_window (hst : s.startOfBuffer = .ok st)
    (hst2 : s.index = st + s.indexInBuffer)
    (hfull : s.indexInBuffer = s.buffer.length) (hcap : s.buffer.length = s.bufCap)
    (hw : s.Window W) (h : s.dropOld = .ok s') : s'.buffer.length ≤ W := by
  unfold Stream.dropOld at h
  rw [if_pos hcap] at h
  have hs : ({ s with markers := s.markers.filter s.live } : Stream S).startOfBuffer = .ok st := hst
  simp only [hs, Out.ok_bind] at h
  obtain ⟨_, hor⟩ := Sim.minIndex_spec s.index (s.markers.filter s.live)
  have hb : s.index ≤ Stream.minIndex s.index (s.markers.filter s.live) + W := by
    rcases hor with ⟨_, h5⟩ | ⟨m, hm, h5⟩
    · omega
    · rw [h5]; exact hw m (List.mem_filter.1 hm).2
  generalize Stream.minIndex s.index (s.markers.filter s.live) = b at *
  split at h
  · split at h
    · split at h
      · split at h
        · cases h; simp only [List.length_drop]; omega
        · cases h
      · cases h
    · cases h; show s.buffer.length ≤ W; omega
  · cases h

theorem Sim.not_sawEof_of_full (h : Sim e st s c) (hfull : s.indexInBuffer = s.buffer.length) :
    s.sourceAtEof = false := by
  rw [h.eof]
  have h1 := h.pos; have h2 := h.start; have h3 := h.len
  cases hc : c.sawEof e with
  | false => rfl
  | true =>
    exfalso
    have := h.wf.posLe
    simp only [Cursor.limit, hc, if_true] at this
    simp only [Cursor.sawEof, Bool.and_eq_true, decide_eq_true_eq] at hc
    omega

theorem BufOk.makeNextAvailable (hb : BufOk al B s) (h : Sim e st s c) (hw : s.Window W)
    (hWB : W + 1 ≤ B) (hg : ∀ k, k ≤ W → al.growB k ≤ B) {b : Bool}
    (hm : s.makeNextAvailable = .ok (b, s')) :
    BufOk al B s' ∧ s'.live = s.live ∧ s'.index = s.index := by
  unfold Stream.makeNextAvailable at hm
  split at hm
  · split at hm <;> (cases hm; exact ⟨hb, rfl, rfl⟩)
  · rename_i hge
    have hfull : s.indexInBuffer = s.buffer.length := by have := h.iib_le; omega
    have hne := h.not_sawEof_of_full hfull
    obtain ⟨hc1, hc2⟩ := hb.cap hne
    cases ht : s.source s.pulled with
    | some t =>
      rw [ht] at hm
      simp only at hm
      cases hd : ({ s with pulled := s.pulled + 1, sourceLocation := S.advance s.sourceLocation t } : Stream S).dropOld with
      | ok s1 =>
        rw [hd] at hm
        simp only [Out.ok_bind] at hm
        cases hm
        obtain ⟨f1, f2, f3, f4, f5, f6, -, -, -⟩ := Stream.dropOld_facts hd
        simp only at f1 f2 f3 f4 f5 f6
        have hcap' : s1.buffer.length = s1.bufCap → s1.buffer.length ≤ W := by
          intro heq
          refine Stream.dropOld_window (st := st) (W := W) ?_ ?_ ?_ ?_ ?_ hd
          · exact h.startOfBuffer
          · exact h.start
          · exact hfull
          · show s.buffer.length = s.bufCap; omega
          · exact hw
        have hbc : (if s1.buffer.length = s1.bufCap
            then max (s1.alloc.growB s1.bufCap) (s1.buffer.length + 1) else s1.bufCap) ≤ B ∧
            s1.buffer.length + 1 ≤ (if s1.buffer.length = s1.bufCap
            then max (s1.alloc.growB s1.bufCap) (s1.buffer.length + 1) else s1.bufCap) := by
          split
          · rename_i heq
            have h7 := hcap' heq
            have h8 := hg s1.bufCap (by omega)
            rw [f4, hb.al]
            omega
          · omega
        refine ⟨⟨?_, ?_, ?_⟩, ?_, ?_⟩
        · simp only [Stream.pushBuffer, List.length_append, List.length_singleton]; omega
        · intro _
          simp only [Stream.pushBuffer, List.length_append, List.length_singleton]
          exact hbc
        · simp only [Stream.pushBuffer]; rw [f4, hb.al]
        · exact f1
        · exact f2
      | panic m => rw [hd] at hm; cases hm
      | oof => rw [hd] at hm; cases hm
      | stuck => rw [hd] at hm; cases hm
    | none =>
      rw [ht] at hm
      cases hm
      refine ⟨⟨?_, ?_, hb.al⟩, rfl, rfl⟩
      · simp only [Stream.pushBuffer, List.length_append, List.length_singleton, if_true]; omega
      · intro h; simp at h

theorem BufOk.congr (hb : BufOk al B s) (h1 : s'.buffer = s.buffer) (h2 : s'.bufCap = s.bufCap)
    (h3 : s'.sourceAtEof = s.sourceAtEof) (h4 : s'.alloc = s.alloc) : BufOk al B s' :=
  ⟨by rw [h1, h3]; exact hb.len, by rw [h1, h2, h3]; exact hb.cap, by rw [h4]; exact hb.al⟩

theorem BufOk.token (hb : BufOk al B s) (h : Sim e st s c) (hw : s.Window W)
    (hWB : W + 1 ≤ B) (hg : ∀ k, k ≤ W → al.growB k ≤ B) {t : Option S.I}
    (hm : s.token = .ok (t, s')) : BufOk al B s' := by
  unfold Stream.token at hm
  obtain ⟨st', s1, h1, h2, h3⟩ := h.makeNextAvailable
  rw [h1] at hm
  simp only [Out.ok_bind, Stream.bufferAt, h2.buf _ h3] at hm
  cases hm
  exact (hb.makeNextAvailable h hw hWB hg h1).1

theorem BufOk.advance (hb : BufOk al B s) (h : Sim e st s c) (hw : s.Window W)
    (hWB : W + 1 ≤ B) (hg : ∀ k, k ≤ W → al.growB k ≤ B) {b : Bool}
    (hm : s.advance = .ok (b, s')) :
    BufOk al B s' ∧ s'.live = s.live ∧ s.index ≤ s'.index := by
  unfold Stream.advance at hm
  obtain ⟨st', s1, h1, h2, h3⟩ := h.makeNextAvailable
  rw [h1] at hm
  obtain ⟨g1, g2, g3⟩ := hb.makeNextAvailable h hw hWB hg h1
  simp only [Out.ok_bind] at hm
  split at hm
  · cases hm; exact ⟨g1.congr rfl rfl rfl rfl, g2, by simp only; omega⟩
  · cases hm; exact ⟨g1, g2, by omega⟩

theorem Stream.makeNextAvailable_live {b : Bool} (hm : s.makeNextAvailable = .ok (b, s')) :
    s'.live = s.live ∧ s'.index = s.index := by
  unfold Stream.makeNextAvailable at hm
  split at hm
  · split at hm <;> (cases hm; exact ⟨rfl, rfl⟩)
  · cases ht : s.source s.pulled with
    | some t =>
      rw [ht] at hm
      simp only at hm
      cases hd : ({ s with pulled := s.pulled + 1, sourceLocation := S.advance s.sourceLocation t } : Stream S).dropOld with
      | ok s1 =>
        rw [hd] at hm
        simp only [Out.ok_bind] at hm
        cases hm
        obtain ⟨f1, f2, -⟩ := Stream.dropOld_facts hd
        exact ⟨f1, f2⟩
      | panic m => rw [hd] at hm; cases hm
      | oof => rw [hd] at hm; cases hm
      | stuck => rw [hd] at hm; cases hm
    | none => rw [ht] at hm; cases hm; exact ⟨rfl, rfl⟩

theorem Stream.advance_live {b : Bool} (hm : s.advance = .ok (b, s')) :
    s'.live = s.live ∧ s.index ≤ s'.index := by
  unfold Stream.advance at hm
  cases h1 : s.makeNextAvailable with
  | ok x =>
    obtain ⟨b1, s1⟩ := x
    obtain ⟨g1, g2⟩ := Stream.makeNextAvailable_live h1
    rw [h1] at hm
    simp only [Out.ok_bind] at hm
    split at hm
    · cases hm; exact ⟨g1, by simp only; omega⟩
    · cases hm; exact ⟨g1, by omega⟩
  | panic m => rw [h1] at hm; cases hm
  | oof => rw [h1] at hm; cases hm
  | stuck => rw [h1] at hm; cases hm

theorem Stream.advanceLoop_live : ∀ (k : Nat) {s s' : Stream S} {b : Bool},
    s.advanceLoop k = .ok (b, s') → s'.live = s.live ∧ s.index ≤ s'.index
  | 0, s, s', b, h => by cases h; exact ⟨rfl, Nat.le_refl _⟩
  | k + 1, s, s', b, h => by
    unfold Stream.advanceLoop at h
    cases h1 : s.advance with
    | ok x =>
      obtain ⟨b1, s1⟩ := x
      obtain ⟨g1, g2⟩ := Stream.advance_live h1
      rw [h1] at h
      simp only [Out.ok_bind] at h
      split at h
      · obtain ⟨g3, g4⟩ := Stream.advanceLoop_live k h
        exact ⟨by rw [g3, g1], by omega⟩
      · cases h; exact ⟨g1, g2⟩
    | panic m => rw [h1] at h; cases h
    | oof => rw [h1] at h; cases h
    | stuck => rw [h1] at h; cases h

theorem BufOk.advanceLoop (hWB : W + 1 ≤ B) (hg : ∀ k, k ≤ W → al.growB k ≤ B) :
    ∀ (k : Nat) {st : Nat} {s s' : Stream S} {c : Cursor} {b : Bool}, BufOk al B s → Sim e st s c →
    s'.Window W → s.advanceLoop k = .ok (b, s') → BufOk al B s'
  | 0, st, s, s', c, b, hb, h, hw, hm => by cases hm; exact hb
  | k + 1, st, s, s', c, b, hb, h, hw, hm => by
    have hlive := Stream.advanceLoop_live _ hm
    have hws : s.Window W := by
      intro m hl
      have := hw m (by rw [hlive.1]; exact hl)
      omega
    unfold Stream.advanceLoop at hm
    obtain ⟨st', s1, h1, h2⟩ := h.advance
    have hb1 := (hb.advance h hws hWB hg h1).1
    rw [h1] at hm
    simp only [Out.ok_bind] at hm
    split at hm
    · exact BufOk.advanceLoop hWB hg k hb1 h2 hw hm
    · cases hm; exact hb1

theorem BufOk.step (hb : BufOk al B s) (h : Sim e st s c) (hw : s.Window W)
    (hWB : W + 1 ≤ B) (hg : ∀ k, k ≤ W → al.growB k ≤ B) {o : Op S} (hl : Legal o s) {r : o.Resp}
    (hs : Stream.step o s = .ok (r, s')) (hw' : s'.Window W) : BufOk al B s' := by
  cases o with
  | save =>
    obtain ⟨ms, mc, heq, -, -⟩ := Sim.save_shape s
    simp only [Stream.step] at hs
    rw [heq] at hs
    cases hs
    exact hb.congr rfl rfl rfl rfl
  | saveAt i =>
    simp only [Legal, h.tokensRead] at hl
    have h1 := h.pos; have h2 := h.start; have h3 := h.len; have h4 := h.iib_le
    have h5 := Cursor.limit_le_hi e c
    simp only [Stream.step, Stream.saveAt] at hs
    have hadv : ∀ b x, s.advanceTo i = .ok (b, x) → BufOk al B x := by
      intro b x hx
      unfold Stream.advanceTo at hx
      split at hx
      · split at hx
        · cases hx; exact hb
        · cases hx
      · simp only at hx
        have hm : min (s.buffer.length - s.indexInBuffer) (i - s.index) = i - s.index := by omega
        rw [hm, if_pos (by omega)] at hx
        cases hx
        exact hb.congr rfl rfl rfl rfl
    cases ha : s.advanceTo i with
    | ok x =>
      obtain ⟨b, x⟩ := x
      rw [ha] at hs
      simp only [Out.ok_bind] at hs
      obtain ⟨ms, mc, heq, -, -⟩ := Sim.save_shape x
      rw [heq] at hs
      cases hs
      exact (hadv _ _ ha).congr rfl rfl rfl rfl
    | panic m => rw [ha] at hs; cases hs
    | oof => rw [ha] at hs; cases hs
    | stuck => rw [ha] at hs; cases hs
  | drop m => cases hs; exact hb.congr rfl rfl rfl rfl
  | restore m =>
    simp only [Stream.step] at hs
    unfold Stream.restore at hs
    rw [h.startOfBuffer] at hs
    simp only [Out.ok_bind] at hs
    split at hs
    · split at hs
      · split at hs
        · cases hs; exact hb.congr rfl rfl rfl rfl
        · cases hs
      · split at hs
        · cases hs; exact hb
        · cases hs; exact hb.congr rfl rfl rfl rfl
    · cases hs
  | token => exact hb.token h hw hWB hg hs
  | tokenAt m =>
    simp only [Stream.step, Stream.tokenAt] at hs
    split at hs
    · exact hb.token h hw hWB hg hs
    · rw [h.startOfBuffer] at hs
      simp only [Out.ok_bind, Stream.bufferAt] at hs
      split at hs
      · split at hs
        · cases hs; exact hb
        · cases hs
      · cases hs
  | index => cases hs; exact hb
  | location => cases hs; exact hb
  | locationAt m =>
    simp only [Stream.step] at hs
    cases hx : s.locationAt m with
    | ok x => rw [hx] at hs; cases hs; exact hb
    | panic m => rw [hx] at hs; cases hs
    | oof => rw [hx] at hs; cases hs
    | stuck => rw [hx] at hs; cases hs
  | span =>
    simp only [Stream.step, Stream.span] at hs
    obtain ⟨st', s1, h1, h2⟩ := h.token
    rw [h1] at hs
    simp only [Out.ok_bind] at hs
    cases hs
    exact hb.token h hw hWB hg h1
  | spanningBackTo m =>
    simp only [Stream.step] at hs
    cases hx : s.spanningBackTo m with
    | ok x => rw [hx] at hs; cases hs; exact hb
    | panic m => rw [hx] at hs; cases hs
    | oof => rw [hx] at hs; cases hs
    | stuck => rw [hx] at hs; cases hs
  | advance => exact (hb.advance h hw hWB hg hs).1
  | advanceTo i =>
    simp only [Legal, h.eof, h.pulled] at hl
    simp only [Stream.step] at hs
    have h1 := h.pos; have h2 := h.start; have h3 := h.len; have h4 := h.iib_le
    unfold Stream.advanceTo at hs
    split at hs
    · split at hs
      · cases hs; exact hb
      · cases hs
    · rename_i hlt
      simp only at hs
      have hx : ∃ b, b = min (s.buffer.length - s.indexInBuffer) (i - s.index) := ⟨_, rfl⟩
      obtain ⟨b, hx⟩ := hx
      rw [← hx] at hs
      have hlim : c.pos + b ≤ c.limit e := by
        unfold Cursor.limit
        split
        · rename_i hc; simp [hc] at hl; omega
        · omega
      have hsim := h.setPos hlim (by omega)
      have hs' : ({ s with index := s.index + b, indexInBuffer := s.indexInBuffer + b } : Stream S)
          = { s with index := c.pos + b, indexInBuffer := c.pos + b - st } := by
        congr 1 <;> omega
      rw [hs'] at hs
      split at hs
      · cases hs; exact hb.congr rfl rfl rfl rfl
      · refine BufOk.advanceLoop hWB hg _ ?_ hsim hw' hs
        exact hb.congr rfl rfl rfl rfl

theorem ReachW.bufOk (h0 : al.cap0 ≤ B) (hWB : W + 1 ≤ B) (hg : ∀ k, k ≤ W → al.growB k ≤ B)
    (h : ReachW al e W s) : BufOk al B s := by
  induction h with
  | new => exact ⟨by simp [Stream.newWithLocation], fun _ => ⟨h0, by simp [Stream.newWithLocation]⟩, rfl⟩
  | step o hr hl hs hw ih =>
    obtain ⟨st, c, hsim⟩ := hr.reach.sim
    exact ih.step hsim hr.window hWB hg hl hs hw

end

end PPC
