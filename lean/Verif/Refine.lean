import Verif.CursorLemmas

/-!
# The concrete stream refines the ideal cursor

Simulation relation and its preservation by every API call.
-/

namespace PPC

variable {S : Sig}

/-- Simulation relation between a concrete stream and an ideal cursor. `st` is the
source index of the front of the buffer. -/
structure Sim (e : Env S) (st : Nat) (s : Stream S) (c : Cursor) : Prop where
  src : s.source = e.source
  wf : c.WF e
  pos : s.index = c.pos
  pulled : s.pulled = c.hi
  start : s.index = st + s.indexInBuffer
  len : st + s.buffer.length = c.hi
  buf : ∀ j, j < s.buffer.length → s.buffer[j]? = some (e.source (st + j), e.trackerAt (st + j))
  loc : s.sourceLocation = e.trackerAt c.hi
  eof : s.sourceAtEof = c.sawEof e
  live : s.live = c.live
  nextId : s.nextId = c.nextId
  marks : ∀ m, c.live m = true → m ∈ s.markers ∧ st ≤ m.index

namespace Sim

variable {e : Env S} {st : Nat} {s : Stream S} {c : Cursor}

theorem iib_le (h : Sim e st s c) : s.indexInBuffer ≤ s.buffer.length := by
  have := h.wf.posHi; have := h.pos; have := h.start; have := h.len; omega

theorem startOfBuffer (h : Sim e st s c) : s.startOfBuffer = .ok st := by
  have := h.start
  unfold Stream.startOfBuffer
  rw [if_pos (by omega)]
  congr 1; omega

theorem init (e : Env S) (al : Alloc) :
    Sim e 0 (Stream.newWithLocation al e.source e.start) Cursor.init where
  src := rfl
  wf := Cursor.WF.init e
  pos := rfl
  pulled := rfl
  start := rfl
  len := rfl
  buf := by intro j hj; simp [Stream.newWithLocation] at hj
  loc := rfl
  eof := by simp [Stream.newWithLocation, Cursor.sawEof, Cursor.init]
  live := rfl
  nextId := rfl
  marks := by intro m hm; simp [Cursor.init] at hm

theorem locationTracker (h : Sim e st s c) : s.locationTracker = e.trackerAt c.pos := by
  unfold Stream.locationTracker
  have h1 := h.pos; have h2 := h.start; have h3 := h.len; have h4 := h.iib_le
  by_cases hlt : s.indexInBuffer < s.buffer.length
  · rw [h.buf _ hlt]; simp only; rw [← h2, h1]
  · have : s.buffer[s.indexInBuffer]? = none := by simp; omega
    rw [this]; simp only; rw [h.loc]; congr 1; omega

theorem replaceLastDead_mem {live : SavedState → Bool} {new : SavedState} :
    ∀ {ms ms' : List SavedState}, Stream.replaceLastDead live new ms = some ms' →
      new ∈ ms' ∧ ∀ m ∈ ms, live m = true → m ∈ ms'
  | [], _, h => by simp [Stream.replaceLastDead] at h
  | a :: ms, ms', h => by
    unfold Stream.replaceLastDead at h
    split at h
    · rename_i ms'' heq
      simp only [Option.some.injEq] at h
      subst h
      have ih := replaceLastDead_mem heq
      refine ⟨by simp [ih.1], ?_⟩
      intro m hm hl
      rcases List.mem_cons.1 hm with rfl | hm
      · simp
      · simp [ih.2 m hm hl]
    · split at h
      · cases h
      · rename_i hl
        simp only [Option.some.injEq] at h
        subst h
        refine ⟨by simp, ?_⟩
        intro m hm hlm
        rcases List.mem_cons.1 hm with rfl | hm
        · exact absurd hlm hl
        · simp [hm]

/-- Everything about `save` except where markers are stored. -/
theorem save_shape (s : Stream S) : ∃ ms mc,
    s.save = (⟨s.nextId, s.index⟩,
      { s with
        live := fun m => m = ⟨s.nextId, s.index⟩ || s.live m
        nextId := s.nextId + 1
        markers := ms
        markCap := mc }) ∧
    ⟨s.nextId, s.index⟩ ∈ ms ∧ ∀ m ∈ s.markers, s.live m = true → m ∈ ms := by
  unfold Stream.save
  simp only
  split
  · split
    · rename_i ms heq
      exact ⟨ms, _, rfl, (replaceLastDead_mem heq).1, (replaceLastDead_mem heq).2⟩
    · exact ⟨_, _, rfl, by simp, by intro m hm _; simp [hm]⟩
  · exact ⟨_, _, rfl, by simp, by intro m hm _; simp [hm]⟩

/-- Saving at the current position. -/
theorem save (h : Sim e st s c) :
    s.save.1 = (c.saveIdx c.pos).1 ∧ Sim e st s.save.2 (c.saveIdx c.pos).2 := by
  obtain ⟨ms, mc, heq, hnew, hold⟩ := save_shape s
  have e1 : (⟨s.nextId, s.index⟩ : SavedState) = ⟨c.nextId, c.pos⟩ := by rw [h.nextId, h.pos]
  rw [heq]
  refine ⟨e1, ?_⟩
  exact {
    src := h.src
    wf := h.wf.saveIdxWF h.wf.posLe
    pos := h.pos
    pulled := h.pulled
    start := h.start
    len := h.len
    buf := h.buf
    loc := h.loc
    eof := h.eof
    live := by simp only [Cursor.saveIdx, h.live, e1]
    nextId := by simp only [Cursor.saveIdx, h.nextId]
    marks := by
      intro m hm
      simp only [Cursor.saveIdx, Bool.or_eq_true, decide_eq_true_eq] at hm
      rcases hm with rfl | hm
      · refine ⟨by rw [← e1]; exact hnew, ?_⟩
        show st ≤ c.pos
        have := h.pos; have := h.start; omega
      · obtain ⟨h1, h2⟩ := h.marks m hm
        exact ⟨hold m h1 (by rw [h.live]; exact hm), h2⟩ }

theorem dropState (h : Sim e st s c) (m : SavedState) :
    Sim e st (s.dropState m) { c with live := fun x => x ≠ m && c.live x } where
  src := h.src
  wf := h.wf.dropWF m
  pos := h.pos
  pulled := h.pulled
  start := h.start
  len := h.len
  buf := h.buf
  loc := h.loc
  eof := h.eof
  live := by simp only [Stream.dropState, h.live]
  nextId := h.nextId
  marks := by
    intro x hx
    simp only [Bool.and_eq_true] at hx
    exact h.marks x hx.2

/-- Moving the cursor inside the buffer. -/
theorem setPos (h : Sim e st s c) {p : Nat} (hp : p ≤ c.limit e) (hst : st ≤ p) :
    Sim e st { s with index := p, indexInBuffer := p - st } { c with pos := p } where
  src := h.src
  wf := h.wf.setPos hp
  pos := rfl
  pulled := h.pulled
  start := by simp only; omega
  len := h.len
  buf := h.buf
  loc := h.loc
  eof := h.eof
  live := h.live
  nextId := h.nextId
  marks := h.marks

theorem restore (h : Sim e st s c) {m : SavedState} (hm : c.live m = true) :
    ∃ s', s.restore m = .ok s' ∧ Sim e st s' { c with pos := m.index } := by
  have hl := h.wf.liveOk m hm
  have hmk := h.marks m hm
  have h2 := h.start; have h3 := h.len
  have h4 := Cursor.limit_le_hi e c
  refine ⟨_, ?_, h.setPos hl.1 hmk.2⟩
  unfold Stream.restore
  rw [h.startOfBuffer]
  simp only [Out.ok_bind]
  rw [if_pos (by omega)]
  split
  · rw [if_pos (by omega)]
    congr 2 <;> omega
  · split
    · cases s; simp_all
    · congr 2 <;> omega

theorem minIndex_foldl_le (ms : List SavedState) : ∀ (a : Nat),
    ms.foldl (fun a x => min a x.index) a ≤ a ∧
    (∀ m ∈ ms, ms.foldl (fun a x => min a x.index) a ≤ m.index) ∧
    (ms.foldl (fun a x => min a x.index) a = a ∨
      ∃ m ∈ ms, ms.foldl (fun a x => min a x.index) a = m.index) := by
  induction ms with
  | nil => intro a; simp
  | cons x xs ih =>
    intro a
    obtain ⟨h1, h2, h3⟩ := ih (min a x.index)
    refine ⟨by simp only [List.foldl_cons]; omega, ?_, ?_⟩
    · intro m hm
      simp only [List.foldl_cons]
      rcases List.mem_cons.1 hm with rfl | hm
      · omega
      · exact h2 m hm
    · simp only [List.foldl_cons]
      rcases h3 with h3 | ⟨m, hm, h3⟩
      · by_cases hle : a ≤ x.index
        · left; omega
        · right; exact ⟨x, by simp, by omega⟩
      · right; exact ⟨m, by simp [hm], h3⟩

/-- The oldest token that must be kept. -/
theorem minIndex_spec (d : Nat) (ms : List SavedState) :
    (∀ m ∈ ms, Stream.minIndex d ms ≤ m.index) ∧
    ((ms = [] ∧ Stream.minIndex d ms = d) ∨ ∃ m ∈ ms, Stream.minIndex d ms = m.index) := by
  cases ms with
  | nil => simp [Stream.minIndex]
  | cons x xs =>
    obtain ⟨h1, h2, h3⟩ := minIndex_foldl_le xs x.index
    refine ⟨?_, Or.inr ?_⟩
    · intro m hm
      rcases List.mem_cons.1 hm with rfl | hm
      · exact h1
      · exact h2 m hm
    · rcases h3 with h3 | ⟨m, hm, h3⟩
      · exact ⟨x, by simp, h3⟩
      · exact ⟨m, by simp [hm], h3⟩

/-- State just after pulling a real token and before it is pushed: the frontier
fields are one step ahead. -/
theorem dropOld (h : Sim e st s c) (hfull : s.indexInBuffer = s.buffer.length) :
    ∃ st' s', s.dropOld = .ok s' ∧ Sim e st' s' c ∧ s'.indexInBuffer = s'.buffer.length := by
  have h1 := h.pos; have h2 := h.start; have h3 := h.len
  unfold Stream.dropOld
  split
  · rename_i hcap
    have hstart : ({ s with markers := s.markers.filter s.live } : Stream S).startOfBuffer
        = .ok st := h.startOfBuffer
    simp only [hstart, Out.ok_bind]
    obtain ⟨hmin, hor⟩ := minIndex_spec s.index (s.markers.filter s.live)
    have hlo : st ≤ Stream.minIndex s.index (s.markers.filter s.live) := by
      rcases hor with ⟨_, h5⟩ | ⟨m, hm, h5⟩
      · omega
      · rw [h5]
        have := (List.mem_filter.1 hm).2
        exact (h.marks m (by rw [← h.live]; exact this)).2
    have hhi : Stream.minIndex s.index (s.markers.filter s.live) ≤ s.index := by
      rcases hor with ⟨_, h5⟩ | ⟨m, hm, h5⟩
      · omega
      · rw [h5]
        have h6 := (List.mem_filter.1 hm).2
        have := (h.wf.liveOk m (by rw [← h.live]; exact h6)).1
        have := Cursor.limit_le_hi e c
        omega
    generalize Stream.minIndex s.index (s.markers.filter s.live) = b at *
    rw [if_pos hlo]
    have hmarks : ∀ m, c.live m = true → m ∈ s.markers.filter s.live ∧ b ≤ m.index := by
      intro m hm
      have : m ∈ s.markers.filter s.live :=
        List.mem_filter.2 ⟨(h.marks m hm).1, by rw [h.live]; exact hm⟩
      exact ⟨this, hmin m this⟩
    split
    · rename_i hlt
      rw [if_pos (by omega), if_pos (by omega)]
      refine ⟨b, _, rfl, ?_, ?_⟩
      · exact {
          src := h.src
          wf := h.wf
          pos := h.pos
          pulled := h.pulled
          start := by simp only; omega
          len := by simp only [List.length_drop]; omega
          buf := by
            intro j hj
            simp only [List.length_drop] at hj
            simp only [List.getElem?_drop]
            rw [h.buf _ (by omega)]
            have : st + (b - st + j) = b + j := by omega
            rw [this]
          loc := h.loc
          eof := h.eof
          live := h.live
          nextId := h.nextId
          marks := hmarks }
      · simp only [List.length_drop]; omega
    · rename_i hge
      have hb : b = st := by omega
      refine ⟨st, _, rfl, ?_, hfull⟩
      exact { h with marks := by rw [← hb]; exact hmarks }
  · exact ⟨st, s, rfl, h, hfull⟩

theorem pushBuffer_some (h : Sim e st s c) (hfull : s.indexInBuffer = s.buffer.length)
    {t : S.I} (ht : e.source c.hi = some t) :
    Sim e st
      (({ s with pulled := s.pulled + 1,
                 sourceLocation := S.advance s.sourceLocation t } : Stream S).pushBuffer
        (some t, s.sourceLocation)) c.look := by
  have h1 := h.pos; have h2 := h.start; have h3 := h.len
  have hhi : c.hi = c.pos := by omega
  have hlook : c.look.hi = c.hi + 1 := by rw [Cursor.look_hi]; omega
  have hneof : c.sawEof e = false := by
    cases hc : c.sawEof e with
    | false => rfl
    | true =>
      exfalso
      have := h.wf.posLe
      simp only [Cursor.limit, hc, if_true] at this
      simp only [Cursor.sawEof, Bool.and_eq_true, decide_eq_true_eq] at hc
      omega
  exact {
    src := h.src
    wf := h.wf.lookWF
    pos := h.pos
    pulled := by rw [hlook]; simp only [Stream.pushBuffer, h.pulled]
    start := h.start
    len := by simp only [Stream.pushBuffer, List.length_append, List.length_singleton]; omega
    buf := by
      intro j hj
      simp only [Stream.pushBuffer, List.length_append, List.length_singleton] at hj
      simp only [Stream.pushBuffer]
      by_cases hj' : j < s.buffer.length
      · rw [List.getElem?_append_left hj']; exact h.buf j hj'
      · have : j = s.buffer.length := by omega
        subst this
        rw [List.getElem?_append_right (by omega), h3, ht, ← h.loc]; simp
    loc := by
      rw [hlook]; simp only [Stream.pushBuffer, Env.trackerAt, ht, h.loc]
    eof := by
      simp only [Stream.pushBuffer]
      rw [h.eof, hneof]
      simp [Cursor.sawEof, hlook, ht]
    live := h.live
    nextId := h.nextId
    marks := h.marks }

theorem pushBuffer_none (h : Sim e st s c) (hfull : s.indexInBuffer = s.buffer.length)
    (ht : e.source c.hi = none) :
    Sim e st
      { (({ s with pulled := s.pulled + 1 } : Stream S).pushBuffer
        (none, s.sourceLocation)) with sourceAtEof := true } c.look := by
  have h1 := h.pos; have h2 := h.start; have h3 := h.len
  have hhi : c.hi = c.pos := by omega
  have hlook : c.look.hi = c.hi + 1 := by rw [Cursor.look_hi]; omega
  exact {
    src := h.src
    wf := h.wf.lookWF
    pos := h.pos
    pulled := by rw [hlook]; simp only [Stream.pushBuffer, h.pulled]
    start := h.start
    len := by simp only [Stream.pushBuffer, List.length_append, List.length_singleton]; omega
    buf := by
      intro j hj
      simp only [Stream.pushBuffer, List.length_append, List.length_singleton] at hj
      simp only [Stream.pushBuffer]
      by_cases hj' : j < s.buffer.length
      · rw [List.getElem?_append_left hj']; exact h.buf j hj'
      · have : j = s.buffer.length := by omega
        subst this
        rw [List.getElem?_append_right (by omega), h3, ht, ← h.loc]; simp
    loc := by
      rw [hlook]; simp only [Stream.pushBuffer, Env.trackerAt, ht, h.loc]
    eof := by
      simp only [Cursor.sawEof, hlook]
      simp [ht]
    live := h.live
    nextId := h.nextId
    marks := h.marks }

/-- `make_next_available` says whether there is a token at the position. -/
theorem makeNextAvailable (h : Sim e st s c) :
    ∃ st' s', s.makeNextAvailable = .ok ((e.source c.pos).isSome, s') ∧
      Sim e st' s' c.look ∧ s'.indexInBuffer < s'.buffer.length := by
  have h1 := h.pos; have h2 := h.start; have h3 := h.len; have h4 := h.iib_le
  unfold Stream.makeNextAvailable
  split
  · rename_i hlt
    have hp : c.pos < c.hi := by omega
    have hiff := h.wf.source_some_iff hp
    have hlook := Cursor.look_of_lt hp
    rw [hlook]
    split
    · rename_i hlast
      refine ⟨st, s, ?_, h, hlt⟩
      congr 2
      rw [h.eof]
      have hp' : c.hi - 1 = c.pos := by omega
      have hne : c.hi ≠ 0 := by omega
      simp only [Cursor.sawEof, hp']
      cases e.source c.pos <;> simp [hne]
    · rename_i hlast
      refine ⟨st, s, ?_, h, hlt⟩
      congr 2
      rw [h.wf.good c.pos (by omega)]
  · rename_i hge
    have hfull : s.indexInBuffer = s.buffer.length := by omega
    have hhi : c.hi = c.pos := by omega
    have hsrc : s.source s.pulled = e.source c.hi := by rw [h.src, h.pulled]
    cases ht : e.source c.hi with
    | some t =>
      rw [ht] at hsrc
      simp only [hsrc]
      -- the bookkeeping of source position does not influence `dropOld`
      obtain ⟨st', s', hd, hsim, hfull'⟩ := h.dropOld hfull
      have hcomm : ({ s with pulled := s.pulled + 1,
                             sourceLocation := S.advance s.sourceLocation t } : Stream S).dropOld
          = .ok { s' with pulled := s.pulled + 1, sourceLocation := S.advance s.sourceLocation t } := by
        revert hd
        unfold Stream.dropOld Stream.startOfBuffer
        simp only
        split
        · split
          · simp only [Out.ok_bind]
            split
            · split
              · split
                · split
                  · intro hd; cases hd; rfl
                  · intro hd; cases hd
                · intro hd; cases hd
              · intro hd; cases hd; rfl
            · intro hd; cases hd
          · simp only [Out.panic_bind]; intro hd; cases hd
        · intro hd; cases hd; rfl
      have hsl : s'.sourceLocation = s.sourceLocation := by rw [hsim.loc, h.loc]
      have hpl : s'.pulled = s.pulled := by rw [hsim.pulled, h.pulled]
      refine ⟨st', _, ?_, hsim.pushBuffer_some hfull' ht, ?_⟩
      · rw [hcomm]
        simp only [Out.ok_bind]
        rw [← hhi, ht, hsl, hpl]; rfl
      · simp only [Stream.pushBuffer, List.length_append, List.length_singleton]; omega
    | none =>
      rw [ht] at hsrc
      simp only [hsrc]
      refine ⟨st, _, ?_, h.pushBuffer_none hfull ht, ?_⟩
      · rw [← hhi, ht]; rfl
      · simp only [Stream.pushBuffer, List.length_append, List.length_singleton]; omega

theorem token (h : Sim e st s c) :
    ∃ st' s', s.token = .ok (e.source c.pos, s') ∧ Sim e st' s' c.look := by
  obtain ⟨st', s', hm, hsim, hlt⟩ := h.makeNextAvailable
  refine ⟨st', s', ?_, hsim⟩
  unfold Stream.token Stream.bufferAt
  rw [hm]
  simp only [Out.ok_bind]
  rw [hsim.buf _ hlt]
  simp only [Out.ok_bind]
  rw [← hsim.start, hsim.pos]; rfl

theorem bufferAt (h : Sim e st s c) {i : Nat} (hst : st ≤ i) :
    s.bufferAt (i - st) =
      if i < c.hi then .ok (e.source i, e.trackerAt i) else .panic msgBounds := by
  unfold Stream.bufferAt
  have := h.len
  split
  · rename_i x hx
    have hlt : i - st < s.buffer.length := by
      have := List.getElem?_eq_some_iff.1 hx; exact this.1
    rw [h.buf _ hlt] at hx
    rw [if_pos (by omega)]
    have hi : st + (i - st) = i := by omega
    rw [hi] at hx
    simp only [Option.some.injEq] at hx
    rw [hx]
  · rename_i hx
    have : s.buffer.length ≤ i - st := by simpa using hx
    rw [if_neg (by omega)]

theorem locationTrackerAt (h : Sim e st s c) {m : SavedState} (hm : c.live m = true) :
    s.locationTrackerAt m =
      if m.index = c.pos ∨ m.index < c.hi then .ok (e.trackerAt m.index)
      else .panic msgBounds := by
  unfold Stream.locationTrackerAt
  rw [h.pos]
  split
  · rename_i heq
    rw [if_pos (Or.inl heq), h.locationTracker, heq]
  · rename_i hne
    have hst := (h.marks m hm).2
    rw [h.startOfBuffer]
    simp only [Out.ok_bind, if_pos hst, h.bufferAt hst, hne, false_or]
    split <;> rfl

theorem advance (h : Sim e st s c) :
    ∃ st' s', s.advance = .ok ((e.source c.pos).isSome, s') ∧
      Sim e st' s' (if (e.source c.pos).isSome then { c.look with pos := c.pos + 1 }
        else c.look) := by
  obtain ⟨st', s', hm, hsim, hlt⟩ := h.makeNextAvailable
  unfold Stream.advance
  rw [hm]
  simp only [Out.ok_bind]
  cases hs : (e.source c.pos).isSome with
  | false => exact ⟨st', s', rfl, by simpa using hsim⟩
  | true =>
    refine ⟨st', _, rfl, ?_⟩
    have h2 := hsim.start
    have h3 := hsim.pos
    rw [Cursor.look_pos] at h3
    have := hsim.setPos (h.wf.look_lt hs) (by omega)
    simp only [if_true]
    have e1 : s'.indexInBuffer + 1 = c.pos + 1 - st' := by omega
    rw [e1, h3]
    exact this

theorem advanceLoop : ∀ (k : Nat) {st : Nat} {s : Stream S} {c : Cursor}, Sim e st s c →
    ∃ st' s', s.advanceLoop k = .ok ((Cursor.advanceBy e k c).1, s') ∧
      Sim e st' s' (Cursor.advanceBy e k c).2
  | 0, st, s, c, h => ⟨st, s, rfl, h⟩
  | k + 1, st, s, c, h => by
    obtain ⟨st', s', ha, hsim⟩ := h.advance
    unfold Stream.advanceLoop Cursor.advanceBy
    rw [ha]
    simp only [Out.ok_bind]
    cases hs : (e.source c.pos).isSome with
    | false =>
      rw [hs] at hsim
      exact ⟨st', s', rfl, by simpa using hsim⟩
    | true =>
      rw [hs] at hsim
      simp only [if_true] at hsim ⊢
      exact advanceLoop k hsim

/-- Moving inside the examined part one token at a time. -/
theorem advanceBy_inside (hwf : c.WF e) : ∀ (k j : Nat), c.pos + k ≤ c.limit e →
    Cursor.advanceBy e (k + j) c = Cursor.advanceBy e j { c with pos := c.pos + k } := by
  intro k
  induction k generalizing c with
  | zero => intro j _; simp
  | succ k ih =>
    intro j hk
    have h0 : k + 1 + j = (k + j) + 1 := by omega
    rw [h0]
    conv => lhs; unfold Cursor.advanceBy
    have hs : (e.source c.pos).isSome = true := hwf.some_of_lt (by omega)
    have hl := Cursor.limit_le_hi e c
    rw [if_pos hs, Cursor.look_of_lt (by omega)]
    have hwf' := hwf.setPos (p := c.pos + 1) (by omega)
    rw [ih hwf' j (by show c.pos + 1 + k ≤ c.limit e; omega)]
    simp only
    congr 2; omega

theorem advanceTo (h : Sim e st s c) {i : Nat} (hi : c.pos ≤ i)
    (hok : ¬ (c.sawEof e = true ∧ c.hi ≤ i)) :
    ∃ st' s', s.advanceTo i = .ok ((Cursor.advanceBy e (i - c.pos) c).1, s') ∧
      Sim e st' s' (Cursor.advanceBy e (i - c.pos) c).2 := by
  have h1 := h.pos; have h2 := h.start; have h3 := h.len; have h4 := h.iib_le
  unfold Stream.advanceTo
  by_cases heq : i = c.pos
  · subst heq
    rw [if_pos (by omega), if_pos h1.symm]
    refine ⟨st, s, ?_, ?_⟩
    · simp [Cursor.advanceBy]
    · simpa [Cursor.advanceBy] using h
  · rw [if_neg (by omega), if_pos h4]
    simp only
    -- the number of buffered tokens skipped
    have hb : ∃ b, b = min (s.buffer.length - s.indexInBuffer) (i - s.index) := ⟨_, rfl⟩
    obtain ⟨b, hb⟩ := hb
    rw [← hb]
    have hlim : c.pos + b ≤ c.limit e := by
      unfold Cursor.limit
      split
      · rename_i hc; simp [hc] at hok; omega
      · omega
    have hsplit : i - c.pos = b + (i - s.index - b) := by omega
    rw [hsplit, advanceBy_inside h.wf b _ hlim]
    have hsim := h.setPos hlim (by omega)
    have hs' : ({ s with index := s.index + b, indexInBuffer := s.indexInBuffer + b } : Stream S)
        = { s with index := c.pos + b, indexInBuffer := c.pos + b - st } := by
      congr 1 <;> omega
    rw [hs']
    split
    · rename_i hz
      rw [hz]
      exact ⟨st, _, rfl, hsim⟩
    · exact advanceLoop _ hsim

theorem saveAt (h : Sim e st s c) {i : Nat} (hi : c.pos ≤ i) (hl : i ≤ c.limit e) :
    ∃ s', s.saveAt i = .ok ((c.saveIdx i).1, s') ∧ Sim e st s' (c.saveIdx i).2 := by
  have h1 := h.pos; have h2 := h.start; have h3 := h.len; have h4 := h.iib_le
  have hlim := Cursor.limit_le_hi e c
  -- `advance_to` stays inside the buffer
  have hadv : s.advanceTo i = .ok (true, { s with index := i, indexInBuffer := i - st }) := by
    unfold Stream.advanceTo
    by_cases heq : i = s.index
    · rw [if_pos (by omega), if_pos heq]
      subst heq
      have : s.index - st = s.indexInBuffer := by omega
      rw [this]
    · rw [if_neg (by omega), if_pos h4]
      have hb : min (s.buffer.length - s.indexInBuffer) (i - s.index) = i - s.index := by omega
      simp only [hb]
      rw [if_pos (by omega)]
      congr 3 <;> omega
  have hsim := (h.setPos hl (by omega)).save
  unfold Stream.saveAt
  rw [hadv]
  simp only [Out.ok_bind]
  refine ⟨_, by rw [hsim.1]; rfl, ?_⟩
  have hback := hsim.2.setPos (p := c.pos) h.wf.posLe (by omega)
  have hc : ({ (({ c with pos := i } : Cursor).saveIdx i).2 with pos := c.pos } : Cursor)
      = (c.saveIdx i).2 := rfl
  have hs : ({ (({ s with index := i, indexInBuffer := i - st } : Stream S).save.2) with
        index := s.index, indexInBuffer := s.indexInBuffer } : Stream S)
      = { (({ s with index := i, indexInBuffer := i - st } : Stream S).save.2) with
        index := c.pos, indexInBuffer := c.pos - st } := by
    have e1 : s.index - st = s.indexInBuffer := by omega
    rw [← h1, e1]
  rw [hs]
  rw [← hc]
  exact hback

theorem span (h : Sim e st s c) :
    ∃ st' s', s.span = .ok (e.spanOf c.pos (e.next c.pos), s') ∧ Sim e st' s' c.look := by
  obtain ⟨st', s', ht, hsim⟩ := h.token
  refine ⟨st', s', ?_, hsim⟩
  unfold Stream.span
  rw [ht]
  simp only [Out.ok_bind]
  rw [hsim.locationTracker, h.locationTracker, h.pos, hsim.pos]
  simp only [Cursor.look_pos, Env.spanOf, Env.next]
  cases hs : e.source c.pos with
  | none => simp
  | some t => simp [Env.trackerAt, hs]

/-- Outcomes related by a relation on results and states. -/
def OutRel (e : Env S) {α : Type} (a : Out (α × Stream S)) (b : Out (α × Cursor)) : Prop :=
  match b with
  | .ok (x, c') => ∃ st' s', a = .ok (x, s') ∧ Sim e st' s' c'
  | .panic m => a = .panic m
  | .oof => a = .oof
  | .stuck => True

/-- Every API call of the concrete stream refines the ideal one. -/
theorem step (h : Sim e st s c) (o : Op S) :
    OutRel e (Stream.step o s) (Cursor.step e o c) := by
  cases o with
  | save =>
    simp only [Stream.step, Cursor.step, OutRel]
    exact ⟨st, s.save.2, by rw [← h.save.1], h.save.2⟩
  | saveAt i =>
    simp only [Stream.step, Cursor.step]
    split
    · rename_i hlt
      have h1 := h.pos
      simp only [OutRel, Stream.saveAt, Stream.advanceTo]
      rw [if_pos (by omega), if_neg (by omega)]
      rfl
    · split
      · rename_i h1 h2
        obtain ⟨s', hs, hsim⟩ := h.saveAt (by omega) h2
        exact ⟨st, s', hs, hsim⟩
      · trivial
  | drop m =>
    simp only [Stream.step, Cursor.step]
    split
    · exact ⟨st, _, rfl, h.dropState m⟩
    · trivial
  | restore m =>
    simp only [Stream.step, Cursor.step]
    split
    · rename_i hm
      obtain ⟨s', hs, hsim⟩ := h.restore hm
      exact ⟨st, s', by rw [hs]; rfl, hsim⟩
    · trivial
  | token =>
    obtain ⟨st', s', hs, hsim⟩ := h.token
    exact ⟨st', s', hs, hsim⟩
  | tokenAt m =>
    simp only [Stream.step, Cursor.step]
    split
    · rename_i hm
      unfold Stream.tokenAt
      rw [h.pos]
      split
      · obtain ⟨st', s', hs, hsim⟩ := h.token
        exact ⟨st', s', hs, hsim⟩
      · have hst := (h.marks m hm).2
        rw [h.startOfBuffer]
        simp only [Out.ok_bind, if_pos hst, h.bufferAt hst]
        split
        · exact ⟨st, s, rfl, h⟩
        · rfl
    · trivial
  | index =>
    simp only [Stream.step, Cursor.step, OutRel]
    exact ⟨st, s, by rw [h.pos], h⟩
  | location =>
    simp only [Stream.step, Cursor.step, OutRel]
    refine ⟨st, s, ?_, h⟩
    simp only [Stream.location, h.locationTracker, h.pos, Env.locationAt]
  | locationAt m =>
    simp only [Stream.step, Cursor.step, Stream.locationAt]
    split
    · rename_i hm
      rw [h.locationTrackerAt hm]
      split
      · exact ⟨st, s, rfl, h⟩
      · rfl
    · trivial
  | span =>
    obtain ⟨st', s', hs, hsim⟩ := h.span
    exact ⟨st', s', hs, hsim⟩
  | spanningBackTo m =>
    simp only [Stream.step, Cursor.step, Stream.spanningBackTo]
    split
    · rename_i hm
      rw [h.locationTrackerAt hm]
      split
      · refine ⟨st, s, ?_, h⟩
        simp only [Out.ok_bind, h.locationTracker, h.pos, Env.spanOf]
      · rfl
    · trivial
  | advance =>
    simp only [Stream.step, Cursor.step]
    obtain ⟨st', s', hs, hsim⟩ := h.advance
    cases hb : (e.source c.pos).isSome with
    | true => rw [hb] at hs hsim; exact ⟨st', s', hs, by simpa using hsim⟩
    | false => rw [hb] at hs hsim; exact ⟨st', s', hs, by simpa using hsim⟩
  | advanceTo i =>
    simp only [Stream.step, Cursor.step]
    split
    · have h1 := h.pos
      simp only [OutRel, Stream.advanceTo]
      rw [if_pos (by omega), if_neg (by omega)]
    · split
      · trivial
      · rename_i h1 h2
        obtain ⟨st', s', hs, hsim⟩ := h.advanceTo (i := i) (by omega)
          (by simpa using h2)
        exact ⟨st', s', hs, hsim⟩

/-- Every client program refines. -/
theorem run {α : Type} (p : Prog S α) : ∀ {st : Nat} {s : Stream S} {c : Cursor},
    Sim e st s c → OutRel e (p.run Stream.step s) (p.run (Cursor.step e) c) := by
  induction p with
  | ret a => intro st s c h; exact ⟨st, s, rfl, h⟩
  | panic m => intro st s c h; rfl
  | oof => intro st s c h; rfl
  | op o k ih =>
    intro st s c h
    have hs := h.step o
    simp only [Prog.run]
    cases hc : Cursor.step e o c with
    | ok x =>
      rw [hc] at hs
      obtain ⟨st', s', hs', hsim⟩ := hs
      rw [hs']
      exact ih x.1 hsim
    | panic m =>
      rw [hc] at hs
      simp only [OutRel] at hs
      rw [hs]; rfl
    | oof =>
      rw [hc] at hs
      simp only [OutRel] at hs
      rw [hs]; rfl
    | stuck => trivial

end Sim

end PPC
