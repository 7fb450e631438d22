import Verif.SemPanics
import Verif.RunAt
import Verif.PropsStream
import Verif.PropsMemory

/-!
# C61: a panic can be caught and undone

A function of the user that panics ends a parse at any point (SpecPanic.lean). If the panic is caught, the stream can be
used as before, and states that were saved before the parse can be restored. It is different if the location tracker
panics while a token is read: that token is lost.
-/

namespace PPC

variable {S : Sig} {N : Names S} {al : Alloc} {e : Env S} {s s₁ s₂ : Stream S} {D : Defs S N} {n : Nat} {ε : ErrTy S}
  {α : Type} {g : G S N ε α} {en : Bool}

/-- C61: wherever a parser is stopped by a panic, unwinding succeeds. -/
theorem C61_unwinds (h : Reach al e s) (hs : StopsAt (g.prog D n en) s s₁) : ∃ s₂, UnwindsTo s.live s₁ s₂ :=
  (Tidy.prog.stopsAt h hs).1.unwinds s.live

/-- C61 (partial: the location tracker does not panic while a token is read): afterwards the stream is in a state that
could have been reached without the panic, and the saved states that are owned are those that were owned before the
parse. -/
theorem C61_consistent_partial (h : Reach al e s) (hs : StopsAt (g.prog D n en) s s₁) (hu : UnwindsTo s.live s₁ s₂) :
    Reach al e s₂ ∧ s₂.live = s.live := by
  obtain ⟨h1, h2⟩ := Tidy.prog.stopsAt h hs
  obtain ⟨h3, h4, -⟩ := hu.reach h1 h2
  exact ⟨h3, h4⟩

/-- C61 (partial: as before): a state that was saved before can be restored. Parsers then return what they return on any
stream that stands there. -/
theorem C61_undo_partial {m : SavedState} (h : Reach al e s) (hm : s.live m = true)
    (hs : StopsAt (g.prog D n en) s s₁) (hu : UnwindsTo s.live s₁ s₂) :
    ∃ s₃, Stream.step (.restore m) s₂ = .ok ((), s₃) ∧ s₃.index = m.index ∧
      ∀ {N' : Names S} {ε' : ErrTy S} {β : Type} (D' : Defs S N') (n' : Nat) (g' : G S N' ε' β) (en' : Bool)
        (r : Res β ε'.E) (j : Nat), ParsesAt e D' n' g' en' m.index r j →
        ∃ s₄, Parses D' n' g' en' s₃ r s₄ ∧ s₄.index = j := by
  obtain ⟨h1, h2⟩ := C61_consistent_partial h hs hu
  have hm' : s₂.live m = true := by rw [h2]; exact hm
  obtain ⟨s₃, h3, h4, -⟩ := C01_restore h1 hm'
  exact ⟨s₃, h3, h4, fun D' n' g' en' r j hp => hp al s₃ (.step (.restore m) h1 hm' h3) h4⟩

/-- C61 (partial: as before): the parse can also be continued where it was stopped; what was read is not read again. -/
theorem C61_continue_partial (h : Reach al e s) (hs : StopsAt (g.prog D n en) s s₁) (hu : UnwindsTo s.live s₁ s₂) :
    s₂.index = s₁.index ∧ ∃ s₃, Stream.step .token s₂ = .ok (e.source s₁.index, s₃) := by
  obtain ⟨h1, h2⟩ := Tidy.prog.stopsAt h hs
  obtain ⟨h3, -, h5⟩ := hu.reach h1 h2
  refine ⟨h5, ?_⟩
  obtain ⟨st, c, hsim⟩ := h3.sim
  obtain ⟨_, s₃, h6, _⟩ := hsim.token
  exact ⟨s₃, by rw [← h5, hsim.pos]; exact h6⟩

/-- C61 (partial: as before): the same while a stream of results is taken from a parser, and the tokens that are left. -/
theorem C61_streaming_partial {k m : Nat} (h : Reach al e s) (hs : StopsAt (streamThenTail (g.prog D n) k m) s s₁) :
    (∃ s₂, UnwindsTo s.live s₁ s₂) ∧ ∀ s₂, UnwindsTo s.live s₁ s₂ → Reach al e s₂ ∧ s₂.live = s.live := by
  obtain ⟨h1, h2⟩ := Tidy.streamThenTail.stopsAt h hs
  refine ⟨h1.unwinds s.live, fun s₂ hu => ?_⟩
  obtain ⟨h3, h4, -⟩ := hu.reach h1 h2
  exact ⟨h3, h4⟩

/-- The stream after `k` calls of a client. -/
def Prog.afterCalls {α : Type} : Nat → Prog S α → Stream S → Option (Stream S)
  | 0, _, s => some s
  | k + 1, .op o f, s =>
    match Stream.step o s with
    | .ok (r, s') => (f r).afterCalls k s'
    | _ => none
  | _ + 1, _, _ => none

theorem StopsAt.of_afterCalls {α : Type} : ∀ (k : Nat) {p : Prog S α} {s s' : Stream S}, p.afterCalls k s = some s' → StopsAt p s s'
  | 0, _, _, _, h => by cases h; exact .between
  | k + 1, .op o f, s, s', h => by
    simp only [Prog.afterCalls] at h
    split at h
    · rename_i hs; exact .later hs (StopsAt.of_afterCalls k h)
    · cases h
  | _ + 1, .ret _, _, _, h => by cases h
  | _ + 1, .panic _, _, _, h => by cases h
  | _ + 1, .oof, _, _, h => by cases h

/-- A concrete case: a pair of tokens whose second part, a predicate of the user, panics. One token was consumed and one
saved state is owned by the parser, besides one that was saved before. -/
example : ∃ (m : SavedState) (s s₁ : Stream exSig), Reach rustAlloc (exEnv [1, 2]) s ∧ s.live m = true ∧
    StopsAt ((.then_ (.just 1) (.filter fun t => t = 2) : ExG (Nat × Nat)).prog exNoDefs 0 true) s s₁ ∧
    s₁.index = 1 ∧ ∃ m', s₁.live m' = true ∧ s.live m' = false := by
  have h : ∃ s₁, ((.then_ (.just 1) (.filter fun t => t = 2) : ExG (Nat × Nat)).prog exNoDefs 0 true).afterCalls 4
      (exStart [1, 2]).save.2 = some s₁ ∧ s₁.index = 1 ∧ s₁.live ⟨1, 0⟩ = true := ⟨_, rfl, rfl, rfl⟩
  obtain ⟨s₁, h1, h2, h3⟩ := h
  exact ⟨⟨0, 0⟩, _, s₁, .step .save .new trivial rfl, rfl, .of_afterCalls 4 h1, h2, ⟨1, 0⟩, h3, rfl⟩

/-- C61 does not hold if the location tracker panics while a token is read, here the first token of any input with two
tokens: it is lost. The second token is then found in its place, and restoring a state saved at the start does not help. -/
theorem C61_tracker_fails {t₀ t₁ : S.I} (h0 : e.source 0 = some t₀) (h1 : e.source 1 = some t₁) :
    ∃ m s s', Stream.step .save (Stream.newWithLocation al e.source e.start) = .ok (m, s) ∧
      Stream.step (.restore m) s.loseToken = .ok ((), s') ∧ s'.index = 0 ∧
      (∃ s'', Stream.step .token s = .ok (some t₀, s'')) ∧ ∃ s'', Stream.step .token s' = .ok (some t₁, s'') := by
  obtain ⟨s, hs, hsrc, hp, hb, hj, hi, hmk⟩ : ∃ s : Stream S,
      Stream.step .save (Stream.newWithLocation al e.source e.start) = .ok (⟨0, 0⟩, s) ∧
      s.source = e.source ∧ s.pulled = 0 ∧ s.buffer = [] ∧ s.indexInBuffer = 0 ∧ s.index = 0 ∧
      s.markers = [⟨0, 0⟩] := by
    have hx : ∃ mc, (Stream.newWithLocation al e.source e.start).save = (⟨0, 0⟩,
        { Stream.newWithLocation al e.source e.start with
          live := fun m => m = ⟨0, 0⟩ || false, nextId := 1, markers := [⟨0, 0⟩], markCap := mc }) := by
      unfold Stream.save
      simp only
      split <;> exact ⟨_, rfl⟩
    obtain ⟨mc, hx⟩ := hx
    exact ⟨_, congrArg Out.ok hx, rfl, rfl, rfl, rfl, rfl, rfl⟩
  have hr : Reach al e s := .step .save .new trivial hs
  have hrest : Stream.step (.restore ⟨0, 0⟩) s.loseToken = .ok ((), s.loseToken) := by
    simp [Stream.step, Stream.restore, Stream.startOfBuffer, Stream.loseToken, hj, hi]
  have hd : ∀ x : Stream S, x.buffer = [] → x.indexInBuffer = 0 → x.index = 0 → x.markers = [⟨0, 0⟩] →
      ∃ x', x.dropOld = .ok x' ∧ x'.buffer = [] ∧ x'.indexInBuffer = 0 := by
    intro x h1 h2 h3 h4
    unfold Stream.dropOld
    split
    · have h5 : Stream.minIndex x.index (x.markers.filter x.live) = 0 := by
        rw [h3, h4]
        by_cases h6 : x.live ⟨0, 0⟩ = true
        · simp [List.filter, h6, Stream.minIndex]
        · simp [List.filter, h6, Stream.minIndex]
      refine ⟨{ x with markers := x.markers.filter x.live }, ?_, h1, h2⟩
      simp only [Stream.startOfBuffer, h2, h3] at h5 ⊢
      simp [h5]
    · exact ⟨x, rfl, h1, h2⟩
  refine ⟨_, s, _, hs, hrest, hi, ?_, ?_⟩
  · obtain ⟨st, c, hsim⟩ := hr.sim
    obtain ⟨_, s'', h2, _⟩ := hsim.token
    rw [← hsim.pos, hi, h0] at h2
    exact ⟨s'', h2⟩
  · obtain ⟨x', h2, h3, h4⟩ := hd { s.loseToken with pulled := 2, sourceLocation := S.advance s.sourceLocation t₁ }
      hb hj hi hmk
    have h5 : s.loseToken.makeNextAvailable = .ok (true, x'.pushBuffer (some t₁, s.sourceLocation)) := by
      have h6 : s.loseToken.source s.loseToken.pulled = some t₁ := by
        simp only [Stream.loseToken, hsrc, hp]; exact h1
      unfold Stream.makeNextAvailable
      rw [if_neg (by simp [Stream.loseToken, hb]), h6]
      simp only [Stream.loseToken, hp] at h2 ⊢
      rw [h2]
      rfl
    refine ⟨x'.pushBuffer (some t₁, s.sourceLocation), ?_⟩
    show s.loseToken.token = _
    unfold Stream.token
    rw [h5]
    simp [Stream.bufferAt, Stream.pushBuffer, h3, h4]

end PPC
