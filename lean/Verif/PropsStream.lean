import Verif.BufferBound
import Verif.Examples

/-!
# Properties of the token stream: C01 to C09

Vocabulary: `Reach al e s` (a stream created from `e` with allocator `al` can be in
state `s` after a legal history), `Legal` (Reach.lean), `Stream.step o s` (call `o` in
state `s`). `s.live m`: the client still owns the saved state `m`.
-/

namespace PPC

variable {S : Sig} {al : Alloc} {e : Env S} {s s' : Stream S}

/-! ## Specification vocabulary -/

/-- `Later P s s'`: some history of legal calls satisfying `P` leads from `s` to `s'`. -/
inductive Later (P : Op S → Prop) (s : Stream S) : Stream S → Prop
  | refl : Later P s s
  | step {s1 s2 : Stream S} (o : Op S) {r : o.Resp} (h : Later P s s1) (hl : Legal o s1) (hp : P o)
      (hs : Stream.step o s1 = .ok (r, s2)) : Later P s s2

/-- Calls other than dropping the saved state `m`. -/
def NotDropping (m : SavedState) : Op S → Prop
  | .drop m' => m' ≠ m
  | _ => True

/-- Calls other than `restore`. -/
def NotRestore : Op S → Prop
  | .restore _ => False
  | _ => True

/-- The calls of a client program are all legal. -/
def LegalRun {α : Type} : Prog S α → Stream S → Prop
  | .ret _, _ => True
  | .panic _, _ => True
  | .oof, _ => True
  | .op o k, s => Legal o s ∧ ∀ r s', Stream.step o s = .ok (r, s') → LegalRun (k r) s'

/-- The tokens before position `n`. -/
def tokensBefore (e : Env S) (n : Nat) : List S.I := (List.range n).filterMap e.source

/-- The location of position `n`: fold the tracker over the tokens before it. -/
def specLocation (e : Env S) (n : Nat) : S.Loc :=
  S.location ((tokensBefore e n).foldl S.advance e.start) n

/-- The span from position `a` to position `b`. -/
def specSpan (e : Env S) (a b : Nat) : S.Span :=
  S.spanningTo ((tokensBefore e a).foldl S.advance e.start) a
    ((tokensBefore e b).foldl S.advance e.start) b

/-- Position frontier examined by a call: one more than the largest index whose token
the call looks at. `token`, `span` and `advance` look at the current token, `token_at`
at that of the saved state, `advance_to` at all the tokens it moves over and, if it
reports that the input ended, at the end of input. -/
def examined : (o : Op S) → o.Resp → Stream S → Stream S → Nat
  | .token, _, s, _ => s.index + 1
  | .span, _, s, _ => s.index + 1
  | .advance, _, s, _ => s.index + 1
  | .tokenAt m, _, _, _ => m.index + 1
  | .advanceTo i, r, _, s' => if r then i else s'.index + 1
  | _, _, _, _ => 0

/-- Like `Reach`, recording the largest frontier examined by any call so far. -/
inductive ReachX (al : Alloc) (e : Env S) : Stream S → Nat → Prop
  | new : ReachX al e (Stream.newWithLocation al e.source e.start) 0
  | step {s s' : Stream S} {x : Nat} (o : Op S) {r : o.Resp} (h : ReachX al e s x)
      (hl : Legal o s) (hs : Stream.step o s = .ok (r, s')) :
      ReachX al e s' (max x (examined o r s s'))

/-! ## Auxiliary lemmas -/

theorem trackerAt_eq (e : Env S) (n : Nat) :
    e.trackerAt n = (tokensBefore e n).foldl S.advance e.start := by
  induction n with
  | zero => rfl
  | succ n ih =>
    unfold Env.trackerAt tokensBefore
    rw [List.range_succ, List.filterMap_append, List.foldl_append]
    unfold tokensBefore at ih
    rw [← ih]
    cases h : e.source n with
    | none => simp [h]
    | some t => simp [h]

theorem locationAt_eq (e : Env S) (n : Nat) : e.locationAt n = specLocation e n := by
  simp only [Env.locationAt, specLocation, trackerAt_eq]

theorem spanOf_eq (e : Env S) (a b : Nat) : e.spanOf a b = specSpan e a b := by
  simp only [Env.spanOf, specSpan, trackerAt_eq]

theorem Later.reach {P : Op S → Prop} (h : Later P s s') (hr : Reach al e s) : Reach al e s' := by
  induction h with
  | refl => exact hr
  | step o _ hl _ hs ih => exact .step o ih hl hs

theorem LegalRun.later {α : Type} (p : Prog S α) {x : α} : ∀ {s s' : Stream S}, LegalRun p s →
    p.run Stream.step s = .ok (x, s') → Later (fun _ => True) s s' := by
  have key : ∀ (p : Prog S α) {s0 s s' : Stream S}, Later (fun _ => True) s0 s → LegalRun p s →
      p.run Stream.step s = .ok (x, s') → Later (fun _ => True) s0 s' := by
    intro p
    induction p with
    | ret a => intro s0 s s' h0 _ hr; cases hr; exact h0
    | panic m => intro s0 s s' _ _ hr; cases hr
    | oof => intro s0 s s' _ _ hr; cases hr
    | op o k ih =>
      intro s0 s s' h0 hl hr
      simp only [Prog.run] at hr
      cases hs : Stream.step o s with
      | ok y =>
        rw [hs] at hr
        exact ih y.1 (.step o h0 hl.1 trivial hs) (hl.2 _ _ hs) hr
      | panic m => rw [hs] at hr; cases hr
      | oof => rw [hs] at hr; cases hr
      | stuck => rw [hs] at hr; cases hr
  intro s s' hl hr
  exact key p .refl hl hr

/-- A legal call in simulation returns what the ideal cursor returns. -/
theorem Sim.step_ok {st : Nat} {c : Cursor} (h : Sim e st s c) {o : Op S} {r : o.Resp} {c' : Cursor}
    (hc : Cursor.step e o c = .ok (r, c')) :
    ∃ st' s', Stream.step o s = .ok (r, s') ∧ Sim e st' s' c' := by
  have := h.step o
  rw [hc] at this
  exact this

theorem Cursor.step_live {o : Op S} {r : o.Resp} {c c' : Cursor}
    (h : Cursor.step e o c = .ok (r, c')) {m : SavedState} (hm : c.live m = true)
    (hd : NotDropping m o) : c'.live m = true := by
  cases o with
  | save => cases h; simp [hm]
  | saveAt i =>
    simp only [Cursor.step] at h
    split at h
    · cases h
    · split at h
      · cases h; simp [hm]
      · cases h
  | drop m' =>
    simp only [Cursor.step] at h
    split at h
    · cases h
      simp only [NotDropping] at hd
      simp only [hm, Bool.and_true, decide_eq_true_eq]
      exact fun h => hd h.symm
    · cases h
  | advanceTo i =>
    simp only [Cursor.step] at h
    split at h
    · cases h
    · split at h
      · cases h
      · have hadv : ∀ k (c : Cursor), (Cursor.advanceBy e k c).2.live = c.live := by
          intro k
          induction k with
          | zero => intro c; rfl
          | succ k ih =>
            intro c
            unfold Cursor.advanceBy
            split
            · rw [ih]; rfl
            · rfl
        have h1 := hadv (i - c.pos) c
        rw [Out.ok.inj h] at h1
        rw [h1]; exact hm
  | _ =>
    simp only [Cursor.step] at h
    first
    | (cases h; exact hm)
    | (split at h
       · first
         | (cases h; exact hm)
         | (split at h
            · cases h; exact hm
            · first
              | (cases h; done)
              | (split at h
                 · cases h; exact hm
                 · cases h))
       · first
         | (cases h; done)
         | (cases h; exact hm))

theorem advanceBy_facts (e : Env S) : ∀ (k : Nat) (c : Cursor),
    (Cursor.advanceBy e k c).1 = true ∧ (Cursor.advanceBy e k c).2.pos = c.pos + k ∧
      (Cursor.advanceBy e k c).2.hi = max c.hi (if k = 0 then 0 else c.pos + k) ∧
      (∀ j, c.pos ≤ j → j < c.pos + k → (e.source j).isSome = true) ∨
    (Cursor.advanceBy e k c).1 = false ∧
      c.pos ≤ (Cursor.advanceBy e k c).2.pos ∧ (Cursor.advanceBy e k c).2.pos < c.pos + k ∧
      e.source (Cursor.advanceBy e k c).2.pos = none ∧
      (∀ j, c.pos ≤ j → j < (Cursor.advanceBy e k c).2.pos → (e.source j).isSome = true) ∧
      (Cursor.advanceBy e k c).2.hi = max c.hi ((Cursor.advanceBy e k c).2.pos + 1) := by
  intro k
  induction k with
  | zero => intro c; left; simp [Cursor.advanceBy]; omega
  | succ k ih =>
    intro c
    unfold Cursor.advanceBy
    split
    · rename_i hs
      have ih' := ih ⟨c.pos + 1, max c.hi (c.pos + 1), c.nextId, c.live⟩
      simp only [Cursor.look]
      generalize Cursor.advanceBy e k ⟨c.pos + 1, max c.hi (c.pos + 1), c.nextId, c.live⟩ = y at ih' ⊢
      simp only at ih'
      rcases ih' with ⟨h1, h2, h3, h4⟩ | ⟨h1, h2, h3, h4, h5, h6⟩
      · left
        refine ⟨h1, ?_, ?_, ?_⟩
        · rw [h2]; omega
        · rw [h3]; split <;> simp <;> omega
        · intro j hj1 hj2
          by_cases hj : j = c.pos
          · subst hj; exact hs
          · exact h4 j (by omega) (by omega)
      · right
        refine ⟨h1, by omega, by omega, h4, ?_, ?_⟩
        · intro j hj1 hj2
          by_cases hj : j = c.pos
          · subst hj; exact hs
          · exact h5 j (by omega) hj2
        · rw [h6]; omega
    · rename_i hs
      right
      refine ⟨rfl, by simp, by simp, by simpa using hs, by simp; omega, rfl⟩

/-! ## C01: backtracking is exact -/

/-- **C01.** Whatever a client program does with a freshly created stream: if the ideal
cursor (which has no buffer) returns an answer, the stream returns the same answer, at
the same index and having pulled as much; if the ideal cursor panics, the stream
panics. (`stuck`: the client left the calls covered by the property, see `Cursor.step`.) -/
theorem C01_clients_agree_with_ideal_cursor {α : Type} (al : Alloc) (e : Env S) (p : Prog S α) :
    match p.run (Cursor.step e) Cursor.init with
    | .ok (x, c) => ∃ s, p.run Stream.step (Stream.newWithLocation al e.source e.start) = .ok (x, s) ∧
        s.index = c.pos ∧ s.pulled = c.hi ∧ s.live = c.live
    | .panic m => p.run Stream.step (Stream.newWithLocation al e.source e.start) = .panic m
    | .oof => p.run Stream.step (Stream.newWithLocation al e.source e.start) = .oof
    | .stuck => True := by
  have h := (Sim.init e al).run p
  cases hc : p.run (Cursor.step e) Cursor.init with
  | ok x =>
    rw [hc] at h
    obtain ⟨st', s', h1, h2⟩ := h
    exact ⟨s', h1, h2.pos, h2.pulled, h2.live⟩
  | panic m => rw [hc] at h; exact h
  | oof => rw [hc] at h; exact h
  | stuck => trivial

/-- A client that saves, reads three tokens, comes back and reads again; its ideal run is
defined. -/
example : (do
    let m ← Prog.save
    let _ ← Prog.advance
    let _ ← Prog.advance
    let a ← Prog.token
    Prog.restore m
    let b ← Prog.token
    return (a, b) : Prog exSig _).run (Cursor.step (exEnv [7, 8, 9])) Cursor.init
    = .ok ((some 9, some 7), ⟨0, 3, 1, fun x => x = ⟨0, 0⟩ || false⟩) := rfl

/-- **C01.** `save` returns a fresh saved state for the current index, owned by the client
from now on, and changes neither the cursor nor the ownership of others. -/
theorem C01_save (h : Reach al e s) :
    ∃ m s', Stream.step .save s = .ok (m, s') ∧ m.index = s.index ∧ s'.index = s.index ∧
      s'.pulled = s.pulled ∧ s.live m = false ∧ ∀ x, s'.live x = (x = m || s.live x) := by
  obtain ⟨st, c, hs⟩ := h.sim
  obtain ⟨ms, mc, heq, -, -⟩ := Sim.save_shape s
  have heq' : Stream.step .save s = .ok s.save := rfl
  rw [heq] at heq'
  refine ⟨_, _, heq', rfl, rfl, rfl, ?_, ?_⟩
  · cases hl : s.live ⟨s.nextId, s.index⟩ with
    | false => rfl
    | true =>
      have := (hs.wf.liveOk _ (by rw [← hs.live]; exact hl)).2
      rw [← hs.nextId] at this
      simp only at this
      omega
  · intro x; rfl

/-- **C01.** Restoring an owned saved state always works, whatever happened since it was
saved: the index is the saved one, ownership is unchanged, and the token, the location
and the span read next are those of that position in the source. -/
theorem C01_restore (h : Reach al e s) {m : SavedState} (hm : s.live m = true) :
    ∃ s1, Stream.step (.restore m) s = .ok ((), s1) ∧ s1.index = m.index ∧ s1.live = s.live ∧
      s1.pulled = s.pulled ∧
      (∃ s2, Stream.step .token s1 = .ok (e.source m.index, s2)) ∧
      (∃ s2, Stream.step .advance s1 = .ok ((e.source m.index).isSome, s2)) ∧
      (∃ s2, Stream.step .location s1 = .ok (specLocation e m.index, s2)) ∧
      (∃ s2, Stream.step .span s1 = .ok (specSpan e m.index
        (if (e.source m.index).isSome then m.index + 1 else m.index), s2)) := by
  obtain ⟨st, c, hs⟩ := h.sim
  have hm' : c.live m = true := by rw [← hs.live]; exact hm
  obtain ⟨s1, h1, h2⟩ := hs.restore hm'
  refine ⟨s1, by simp only [Stream.step]; rw [h1]; rfl, h2.pos, by rw [h2.live, hs.live],
    by rw [h2.pulled, hs.pulled], ?_, ?_, ?_, ?_⟩
  · obtain ⟨_, s2, h3, _⟩ := h2.token; exact ⟨s2, h3⟩
  · obtain ⟨_, s2, h3, _⟩ := h2.advance; exact ⟨s2, h3⟩
  · refine ⟨s1, ?_⟩
    simp only [Stream.step, Stream.location, h2.locationTracker, h2.pos]
    rw [← locationAt_eq]; rfl
  · obtain ⟨_, s2, h3, _⟩ := h2.span
    rw [← spanOf_eq]
    exact ⟨s2, h3⟩

/-- **C01.** Round trip: save, do anything legal except dropping that saved state, restore:
the stream is back at the index where it was, and its next token is the same. -/
theorem C01_round_trip (h : Reach al e s) {m : SavedState} {s1 s2 : Stream S}
    (h1 : Stream.step .save s = .ok (m, s1)) (h2 : Later (NotDropping m) s1 s2) :
    ∃ s3, Stream.step (.restore m) s2 = .ok ((), s3) ∧ s3.index = s.index ∧ s3.live = s2.live ∧
      ∀ t s', Stream.step .token s = .ok (t, s') → ∃ s4, Stream.step .token s3 = .ok (t, s4) := by
  obtain ⟨m', s1', hsv, hidx, -, -, -, hlv⟩ := C01_save h
  rw [h1] at hsv
  cases hsv
  have hr1 : Reach al e s1 := .step .save h trivial h1
  have hr2 := h2.reach hr1
  have hlive : s2.live m = true := by
    clear hr2
    induction h2 with
    | refl => simp [hlv]
    | step o h' hl hp hs ih =>
      obtain ⟨st, c, hsim⟩ := (h'.reach hr1).sim
      obtain ⟨st', c', hc, hsim'⟩ := hsim.legal_step hl hs
      rw [hsim'.live]
      exact Cursor.step_live hc (by rw [← hsim.live]; exact ih) hp
  obtain ⟨s3, h3, h4, h5, -, ⟨s4, h6⟩, -⟩ := C01_restore hr2 hlive
  refine ⟨s3, h3, by rw [h4, hidx], h5, ?_⟩
  intro t s' ht
  obtain ⟨st, c, hsim⟩ := h.sim
  obtain ⟨_, _, h7, _⟩ := hsim.token
  simp only [Stream.step] at ht
  rw [h7] at ht
  cases ht
  refine ⟨s4, ?_⟩
  rw [h6, hidx, hsim.pos]

/-- A reachable stream that has moved away from an owned saved state, with a buffer of
capacity 1 (so that the buffer had to grow and was scanned for garbage). -/
example : ∃ s : Stream exSig, Reach exAlloc (exEnv [7, 8, 9]) s ∧ s.index = 2 ∧
    s.live ⟨0, 0⟩ = true := by
  obtain ⟨s, -, h2, h3, -, h5⟩ := Reach.of_run (S := exSig) exAlloc (e := exEnv [7, 8, 9])
    (do let _ ← Prog.save; let _ ← Prog.advance; let _ ← Prog.advance; return ()) rfl
  exact ⟨s, h2, h3, by rw [h5]; rfl⟩

/-! ## C02: garbage collection never breaks a live saved state -/

/-- Calls that read or move the cursor, or use owned saved states, without naming an index
before the cursor. (`token_at`, `location_at`, `spanning_back_to` are the subject of C09.) -/
def Basic : Op S → Stream S → Prop
  | .saveAt i, s => s.index ≤ i
  | .advanceTo i, s => s.index ≤ i
  | .tokenAt _, _ => False
  | .locationAt _, _ => False
  | .spanningBackTo _, _ => False
  | _, _ => True

/-- **C02.** In every reachable state every such call returns normally: no assertion, index
computation or buffer access inside the stream fails. -/
theorem C02_no_internal_failure (h : Reach al e s) {o : Op S} (hl : Legal o s) (hb : Basic o s) :
    ∃ r s', Stream.step o s = .ok (r, s') := by
  obtain ⟨st, c, hs⟩ := h.sim
  have h1 := hs.step o
  have h2 := hs.not_stuck hl
  have h3 := hs.pos
  cases hc : Cursor.step e o c with
  | ok x =>
    rw [hc] at h1
    obtain ⟨_, s', h3, _⟩ := h1
    exact ⟨x.1, s', h3⟩
  | stuck => exact (h2 hc).elim
  | panic m =>
    exfalso
    cases o <;> simp only [Cursor.step, Basic] at hc hb <;>
      first
      | (cases hc; done)
      | (split at hc
         · first | (cases hc; done) | omega
         · first
           | (cases hc; done)
           | (split at hc <;> (cases hc; done)))
  | oof =>
    exfalso
    cases o <;> simp only [Cursor.step, Basic] at hc hb <;>
      first
      | (cases hc; done)
      | (split at hc
         · cases hc
         · first
           | (cases hc; done)
           | (split at hc <;> (cases hc; done)))

/-- **C02.** No call other than dropping it ends the ownership of a saved state; so (with
`C01_restore`) an owned saved state can be restored after any legal history. -/
theorem C02_owned_stays_restorable (h : Reach al e s) {m : SavedState} (hm : s.live m = true)
    (h2 : Later (NotDropping m) s s') :
    s'.live m = true ∧ ∃ s3, Stream.step (.restore m) s' = .ok ((), s3) ∧ s3.index = m.index := by
  have hlive : s'.live m = true := by
    induction h2 with
    | refl => exact hm
    | step o h' hl hp hs ih =>
      obtain ⟨st, c, hsim⟩ := (h'.reach h).sim
      obtain ⟨st', c', hc, hsim'⟩ := hsim.legal_step hl hs
      rw [hsim'.live]
      exact Cursor.step_live hc (by rw [← hsim.live]; exact ih) hp
  obtain ⟨s3, h3, h4, -⟩ := C01_restore (h2.reach h) hlive
  exact ⟨hlive, s3, h3, h4⟩

/-- A history in which garbage is collected while a saved state is owned: capacity 1, one
token dropped before saving, then two refills. -/
example : ∃ s s' : Stream exSig, Reach exAlloc (exEnv [7, 8, 9]) s ∧ s.live ⟨0, 1⟩ = true ∧
    Later (NotDropping ⟨0, 1⟩) s s' ∧ s'.index = 3 := by
  refine ⟨_, _, .step .save (.step .advance .new trivial rfl) trivial rfl, rfl,
    .step .advance (.step .advance .refl trivial trivial rfl) trivial trivial rfl, rfl⟩

/-! ## C03: the buffer is bounded by the look-back window -/

/-- **C03.** If the look-back window never exceeds `W`, the buffer never holds more than
`B + 1` entries (`B` while the end of input has not been seen), where the bound `B` only
has to cover the initial capacity, `W + 1`, and the capacities the allocator chooses when it
has to grow a buffer of at most `W` entries. The length of the input does not occur. -/
theorem C03_buffer_bounded {W B : Nat} (h0 : al.cap0 ≤ B) (hWB : W + 1 ≤ B)
    (hg : ∀ k, k ≤ W → al.growB k ≤ B) (h : ReachW al e W s) :
    s.buffer.length ≤ B + 1 ∧ (s.sourceAtEof = false → s.buffer.length ≤ B) := by
  have hb := h.bufOk h0 hWB hg
  refine ⟨Nat.le_trans hb.len (by split <;> omega), fun hf => ?_⟩
  have := hb.len
  simpa [hf] using this

/-- **C03.** With a doubling allocator that starts at a capacity of at most `c0`, the bound
is `max c0 (2 W + 1)`. -/
theorem C03_buffer_bounded_doubling {W c0 : Nat} (h0 : al.cap0 ≤ c0)
    (hg : ∀ k, al.growB k = 2 * k) (h : ReachW al e W s) :
    s.buffer.length ≤ max c0 (2 * W + 1) + 1 :=
  (C03_buffer_bounded (B := max c0 (2 * W + 1)) (by omega) (by omega)
    (fun k hk => by rw [hg]; omega) h).1

/-- **C03.** A stream without owned saved states that refills while its buffer is at
capacity drops everything already consumed: only the new token is left. -/
theorem C03_refill_drops_consumed (h : Reach al e s) (hno : ∀ m, s.live m = false)
    (hcap : s.buffer.length = s.bufCap) {t : S.I} (ht : e.source s.index = some t)
    (hpull : s.index = s.pulled) :
    ∃ s', Stream.step .token s = .ok (some t, s') ∧ s'.buffer.length = 1 ∧ s'.index = s.index := by
  obtain ⟨st, c, hs⟩ := h.sim
  have h1 := hs.pos; have h2 := hs.start; have h3 := hs.len; have h4 := hs.pulled
  have hfull : s.indexInBuffer = s.buffer.length := by omega
  obtain ⟨st', s', ht', hsim'⟩ := hs.token
  rw [← h1, ht] at ht'
  refine ⟨s', ht', ?_, by rw [hsim'.pos]; exact h1.symm⟩
  unfold Stream.token Stream.makeNextAvailable at ht'
  rw [if_neg (by omega)] at ht'
  have hsrc : s.source s.pulled = some t := by rw [hs.src, ← hpull]; exact ht
  rw [hsrc] at ht'
  simp only at ht'
  cases hd : ({ s with pulled := s.pulled + 1, sourceLocation := S.advance s.sourceLocation t } : Stream S).dropOld with
  | ok s1 =>
    rw [hd] at ht'
    simp only [Out.ok_bind] at ht'
    have hlen : s1.buffer.length ≤ 0 := by
      refine Stream.dropOld_window (st := st) (W := 0) ?_ ?_ ?_ ?_ ?_ hd
      · exact hs.startOfBuffer
      · exact hs.start
      · exact hfull
      · exact hcap
      · intro m hm; rw [show ({ s with pulled := s.pulled + 1, sourceLocation := S.advance s.sourceLocation t } : Stream S).live m = s.live m from rfl, hno] at hm; cases hm
    cases hb : (s1.pushBuffer (some t, s.sourceLocation)).bufferAt (s1.pushBuffer (some t, s.sourceLocation)).indexInBuffer with
    | ok x =>
      rw [hb] at ht'
      have ht'' := Prod.mk.inj (Out.ok.inj ht')
      rw [← ht''.2]
      simp only [Stream.pushBuffer, List.length_append, List.length_singleton]
      omega
    | panic m => rw [hb] at ht'; cases ht'
    | oof => rw [hb] at ht'; cases ht'
    | stuck => rw [hb] at ht'; cases ht'
  | panic m => rw [hd] at ht'; cases ht'
  | oof => rw [hd] at ht'; cases ht'
  | stuck => rw [hd] at ht'; cases ht'

/-- Reading on and on without saving keeps the window at 0, so the bound applies to
arbitrarily long inputs: here to any number of tokens from an endless source. -/
example (n : Nat) : ∃ s : Stream exSig, ReachW exAlloc ⟨fun i => some i, ()⟩ 0 s ∧ s.index = n ∧
    s.buffer.length ≤ 2 := by
  suffices h : ∃ s : Stream exSig, ReachW exAlloc ⟨fun i => some i, ()⟩ 0 s ∧ s.index = n ∧
      ∀ m, s.live m = false by
    obtain ⟨s, h1, h2, _⟩ := h
    exact ⟨s, h1, h2, C03_buffer_bounded_doubling (c0 := 1) (by simp [exAlloc]) (fun k => rfl) h1⟩
  induction n with
  | zero => exact ⟨_, .new, rfl, fun _ => rfl⟩
  | succ n ih =>
    obtain ⟨s, h1, h2, h3⟩ := ih
    obtain ⟨st, c, hs⟩ := h1.reach.sim
    obtain ⟨st', s', h4, h5⟩ := hs.advance
    simp only [Option.isSome_some, if_true] at h4 h5
    refine ⟨s', .step .advance h1 trivial h4 ?_, ?_, ?_⟩
    · intro m hm; rw [(Stream.advance_live h4).1, h3] at hm; cases hm
    · rw [h5.pos, ← hs.pos, h2]
    · intro m; rw [(Stream.advance_live h4).1]; exact h3 m

/-- A refill at capacity without saved states (hypotheses of the last theorem). -/
example : ∃ s : Stream exSig, Reach exAlloc (exEnv [7, 8]) s ∧ (∀ m, s.live m = false) ∧
    s.buffer.length = s.bufCap ∧ (exEnv [7, 8]).source s.index = some 8 ∧ s.index = s.pulled ∧
    s.buffer.length = 1 :=
  ⟨_, .step .advance .new trivial rfl, fun _ => rfl, rfl, rfl, rfl, rfl⟩

/-! ## C04: the source is pulled lazily, in order, once, never after its end -/

/-- **C04.** The number of `next()` calls made on the source is the examined frontier: one
more than the largest index whose token was examined, and 0 if none was. -/
theorem C04_pulled_lazily {x : Nat} (h : ReachX al e s x) : s.pulled = x ∧ Reach al e s := by
  induction h with
  | new => exact ⟨rfl, .new⟩
  | @step s s' x o r h' hl hs ih =>
    obtain ⟨ih, hr⟩ := ih
    refine ⟨?_, .step o hr hl hs⟩
    obtain ⟨st, c, hsim⟩ := hr.sim
    obtain ⟨st', c', hc, hsim'⟩ := hsim.legal_step hl hs
    have h1 := hsim.pos; have h2 := hsim.pulled; have h3 := hsim'.pos; have h4 := hsim'.pulled
    rw [h4]
    have hz : ∀ y, max y 0 = y := fun y => by omega
    have hph := hsim.wf.posHi
    cases o with
    | save => cases hc; simp only [examined, hz]; omega
    | saveAt i =>
      simp only [Cursor.step] at hc
      split at hc
      · cases hc
      · split at hc
        · cases hc; simp only [examined, hz]; omega
        · cases hc
    | drop m =>
      simp only [Cursor.step] at hc
      split at hc <;> cases hc
      simp only [examined, hz]; omega
    | restore m =>
      simp only [Cursor.step] at hc
      split at hc <;> cases hc
      simp only [examined, hz]; omega
    | token => cases hc; simp only [examined, Cursor.look]; omega
    | tokenAt m =>
      simp only [Cursor.step] at hc
      split at hc
      · split at hc
        · cases hc; simp only [examined, Cursor.look]; omega
        · split at hc
          · cases hc; simp only [examined]; omega
          · cases hc
      · cases hc
    | index => cases hc; simp only [examined, hz]; omega
    | location => cases hc; simp only [examined, hz]; omega
    | locationAt m =>
      simp only [Cursor.step] at hc
      split at hc
      · split at hc <;> cases hc
        simp only [examined, hz]; omega
      · cases hc
    | span => cases hc; simp only [examined, Cursor.look]; omega
    | spanningBackTo m =>
      simp only [Cursor.step] at hc
      split at hc
      · split at hc <;> cases hc
        simp only [examined, hz]; omega
      · cases hc
    | advance =>
      simp only [Cursor.step] at hc
      split at hc <;> (cases hc; simp only [examined, Cursor.look]; omega)
    | advanceTo i =>
      simp only [Cursor.step] at hc
      split at hc
      · cases hc
      · split at hc
        · cases hc
        · have hf := advanceBy_facts e (i - c.pos) c
          have hcc : Cursor.advanceBy e (i - c.pos) c = (r, c') := Out.ok.inj hc
          rw [hcc] at hf
          simp only at hf
          rcases hf with ⟨f1, f2, f3, -⟩ | ⟨f1, f2, f3, f4, f5, f6⟩
          · subst f1
            rw [f3]
            simp only [examined, if_true]
            split <;> omega
          · subst f1
            rw [f6]
            simp only [examined, Bool.false_eq_true, if_false]
            omega

/-- **C04.** In order, once, and never after its end: the `k`-th call is only made if all
earlier answers were tokens; what the stream holds is a contiguous piece of the answers in
order, ending with the latest one. (That every answer is asked for once is part of the
model: `next()` is only called through the counter `pulled`.) -/
theorem C04_in_order_and_not_after_end (h : Reach al e s) :
    (∀ j, j + 1 < s.pulled → (e.source j).isSome = true) ∧
    s.buffer.length ≤ s.pulled ∧
    ∀ j, j < s.buffer.length →
      (s.buffer[j]?).map Prod.fst = some (e.source (s.pulled - s.buffer.length + j)) := by
  obtain ⟨st, c, hs⟩ := h.sim
  have h3 := hs.len; have h4 := hs.pulled
  refine ⟨fun j hj => hs.wf.good j (by omega), by omega, fun j hj => ?_⟩
  rw [hs.buf j hj]
  have : s.pulled - s.buffer.length = st := by omega
  rw [this]; rfl

/-- Looking at one token pulls one; advancing to index 2 pulls two; looking at the end pulls
the end of input once. -/
example : ∃ s : Stream exSig, ReachX exAlloc (exEnv [7, 8]) s 3 ∧ s.pulled = 3 ∧
    s.sourceAtEof = true := by
  have h1 : ReachX exAlloc (exEnv [7, 8]) _ _ := .step .token .new trivial rfl
  have h2 := ReachX.step (.advanceTo 2) h1 (fun h => absurd h.1 (by decide)) rfl
  exact ⟨_, .step .token h2 trivial rfl, rfl, rfl⟩

/-- **C04 (negation outside the covered calls).** `advance_to` past an end of input that was
already seen calls the source again after it returned `None`. -/
theorem C04_not_after_end_fails : ∃ s s' : Stream exSig,
    Reach exAlloc (exEnv []) s ∧ s.sourceAtEof = true ∧
    Stream.step (.advanceTo 2) s = .ok (false, s') ∧ s'.pulled = s.pulled + 1 :=
  ⟨_, _, .step .token .new trivial rfl, rfl, rfl, rfl⟩

/-! ## C05: end of input is sticky -/

/-- **C05.** At end of input, and after any further legal history without `restore`, the
index is unchanged, `token` is `None`, `eof` is true and `advance` is false. -/
theorem C05_eof_sticky (h : Reach al e s) (hend : e.source s.index = none)
    (hl : Later NotRestore s s') :
    s'.index = s.index ∧
    (∃ s2, Stream.step .token s' = .ok (none, s2) ∧ s2.index = s.index) ∧
    (∃ s2, Prog.eof.run Stream.step s' = .ok (true, s2) ∧ s2.index = s.index) ∧
    (∃ s2, Stream.step .advance s' = .ok (false, s2) ∧ s2.index = s.index) := by
  have hidx : s'.index = s.index := by
    induction hl with
    | refl => rfl
    | step o h' hl hp hs ih =>
      obtain ⟨st, c, hsim⟩ := (h'.reach h).sim
      obtain ⟨st', c', hc, hsim'⟩ := hsim.legal_step hl hs
      have h1 := hsim.pos
      rw [hsim'.pos]
      have hend' : e.source c.pos = none := by rw [← h1, ih]; exact hend
      rw [← ih]
      cases o with
      | restore m => exact hp.elim
      | advance =>
        simp only [Cursor.step, hend', Option.isSome_none, Bool.false_eq_true, if_false] at hc
        cases hc; exact h1.symm
      | advanceTo i =>
        simp only [Cursor.step] at hc
        split at hc
        · cases hc
        · split at hc
          · cases hc
          · have hcc : c' = (Cursor.advanceBy e (i - c.pos) c).2 := by rw [Out.ok.inj hc]
            rw [hcc]
            cases i - c.pos with
            | zero => exact h1.symm
            | succ k => simp [Cursor.advanceBy, hend']; exact h1.symm
      | save => cases hc; exact h1.symm
      | saveAt i =>
        simp only [Cursor.step] at hc
        split at hc
        · cases hc
        · split at hc <;> cases hc
          exact h1.symm
      | drop m => simp only [Cursor.step] at hc; split at hc <;> cases hc; exact h1.symm
      | token => cases hc; exact h1.symm
      | tokenAt m =>
        simp only [Cursor.step] at hc
        split at hc
        · split at hc
          · cases hc; exact h1.symm
          · split at hc <;> cases hc; exact h1.symm
        · cases hc
      | index => cases hc; exact h1.symm
      | location => cases hc; exact h1.symm
      | locationAt m =>
        simp only [Cursor.step] at hc
        split at hc
        · split at hc <;> cases hc; exact h1.symm
        · cases hc
      | span => cases hc; exact h1.symm
      | spanningBackTo m =>
        simp only [Cursor.step] at hc
        split at hc
        · split at hc <;> cases hc; exact h1.symm
        · cases hc
  obtain ⟨st, c, hsim⟩ := (hl.reach h).sim
  have h1 := hsim.pos
  have hend' : e.source c.pos = none := by rw [← h1, hidx]; exact hend
  refine ⟨hidx, ?_, ?_, ?_⟩
  · obtain ⟨_, s2, h3, h4⟩ := hsim.token
    exact ⟨s2, by simp only [Stream.step]; rw [h3, hend'], by rw [h4.pos, ← hidx, h1]; rfl⟩
  · obtain ⟨_, s2, h3, h4⟩ := hsim.token
    refine ⟨s2, ?_, by rw [h4.pos, ← hidx, h1]; rfl⟩
    simp only [Prog.eof, Prog.token, Prog.run, Prog.bind_eq, Prog.op_bind, Prog.ret_bind, Prog.pure_eq, Stream.step]
    rw [h3, hend']; rfl
  · obtain ⟨_, s2, h3, h4⟩ := hsim.advance
    simp only [hend', Option.isSome_none, Bool.false_eq_true, if_false] at h3 h4
    exact ⟨s2, h3, by rw [h4.pos, ← hidx, h1]; rfl⟩

/-- A stream at the end of a two-token input, and a later state after more calls. -/
example : ∃ s s' : Stream exSig, Reach exAlloc (exEnv [7, 8]) s ∧ s.index = 2 ∧
    (exEnv [7, 8]).source s.index = none ∧ Later NotRestore s s' :=
  ⟨_, _, .step .advance (.step .advance .new trivial rfl) trivial rfl, rfl, rfl,
    .step .save (.step .advance (.step .token .refl trivial trivial rfl) trivial trivial rfl)
      trivial trivial rfl⟩

/-! ## C06: locations and spans depend only on the position -/

/-- **C06.** In every reachable state, whatever happened before: `location()` and `span()`
are the values obtained by folding the tracker over exactly the tokens before the
position. -/
theorem C06_location_and_span (h : Reach al e s) :
    Stream.step .location s = .ok (specLocation e s.index, s) ∧
    ∃ s', Stream.step .span s = .ok (specSpan e s.index
        (if (e.source s.index).isSome then s.index + 1 else s.index), s') ∧ s'.index = s.index := by
  obtain ⟨st, c, hs⟩ := h.sim
  constructor
  · simp only [Stream.step, Stream.location, hs.locationTracker, hs.pos]
    rw [← locationAt_eq]; rfl
  · obtain ⟨_, s', h1, h2⟩ := hs.span
    refine ⟨s', ?_, by rw [h2.pos, hs.pos]; rfl⟩
    rw [← spanOf_eq, hs.pos]; exact h1

/-- **C06.** Likewise `location_at(m)` and `spanning_back_to(m)`, for an owned saved state at
the cursor or within the tokens pulled. -/
theorem C06_location_at (h : Reach al e s) {m : SavedState} (hm : s.live m = true)
    (hi : m.index = s.index ∨ m.index < s.pulled) :
    Stream.step (.locationAt m) s = .ok (specLocation e m.index, s) ∧
    Stream.step (.spanningBackTo m) s = .ok (specSpan e m.index s.index, s) := by
  obtain ⟨st, c, hs⟩ := h.sim
  have hm' : c.live m = true := by rw [← hs.live]; exact hm
  rw [hs.pos, hs.pulled] at hi
  constructor
  · simp only [Stream.step, Stream.locationAt, hs.locationTrackerAt hm', if_pos hi, Out.ok_bind]
    rw [← locationAt_eq]; rfl
  · simp only [Stream.step, Stream.spanningBackTo, hs.locationTrackerAt hm', if_pos hi, Out.ok_bind,
      hs.locationTracker, hs.pos]
    rw [← spanOf_eq]; rfl

/-- For a source that is a list of tokens, the tokens before `n` are its first `n`. -/
theorem C06_tokensBefore_list (xs : List S.I) (start : S.L) (n : Nat) :
    tokensBefore (⟨fun i => xs[i]?, start⟩ : Env S) n = xs.take n := by
  unfold tokensBefore
  induction n with
  | zero => rfl
  | succ n ih =>
    rw [List.range_succ, List.filterMap_append, ih]
    cases h : xs[n]? with
    | none =>
      have hn : xs.length ≤ n := by simpa using h
      rw [List.take_of_length_le hn, List.take_of_length_le (by omega)]
      simp [h]
    | some t => rw [List.take_add_one, h]; simp [h]

/-- An owned saved state behind the cursor, with a `Rich` tracker over characters. -/
example : ∃ s : Stream exTextSig, Reach exAlloc (exText ['a', '\n', 'b']) s ∧ s.live ⟨0, 1⟩ = true ∧
    s.index = 3 ∧ s.pulled = 3 :=
  ⟨_, .step .advance (.step .advance (.step .save (.step .advance .new trivial rfl)
    trivial rfl) trivial rfl) trivial rfl, rfl, rfl, rfl⟩

/-! ## C07: attempt rolls back exactly on Err -/

/-- **C07.** Let the closure `f` make legal calls, and return `Ok(x)` (flag `true`) or
`Err(x)` (flag `false`), leaving the stream in state `s1` without having dropped the saved
state of `attempt` (which it cannot access). Then `attempt(f)` returns `x`, at the index
where `f` left the stream if it returned `Ok` and at the original index otherwise; the only
change of ownership is that the state saved by `attempt` is released. -/
theorem C07_attempt {α : Type} (h : Reach al e s) (f : Prog S (Bool × α)) {ok : Bool} {x : α}
    {m : SavedState} {s0 s1 : Stream S} (hsave : Stream.step .save s = .ok (m, s0))
    (hleg : LegalRun f s0) (hf : f.run Stream.step s0 = .ok ((ok, x), s1))
    (hown : s1.live m = true) :
    ∃ s', (Prog.attempt f).run Stream.step s = .ok (x, s') ∧
      s'.index = (if ok then s1.index else s.index) ∧
      s'.pulled = s1.pulled ∧ (∀ y, s'.live y = (y ≠ m && s1.live y)) ∧ Reach al e s' := by
  obtain ⟨m', s0', hsv, hidx, -, -, -, -⟩ := C01_save h
  rw [hsave] at hsv
  cases hsv
  have hr0 : Reach al e s0 := .step .save h trivial hsave
  have hr1 : Reach al e s1 := (LegalRun.later f hleg hf).reach hr0
  have hrun : (Prog.attempt f).run Stream.step s =
      (if ok then Stream.step (.drop m) s1 >>= fun y => .ok (x, y.2)
       else Stream.step (.restore m) s1 >>= fun z => Stream.step (.drop m) z.2 >>= fun y => .ok (x, y.2)) := by
    unfold Prog.attempt Prog.withSave
    simp only [Prog.save, Prog.drop, Prog.restore, Prog.bind_eq, Prog.op_bind, Prog.ret_bind,
      Prog.pure_eq, Prog.run]
    rw [hsave]
    simp only [Out.ok_bind]
    rw [Prog.run_bind, Prog.run_bind, hf]
    simp only [Out.ok_bind]
    cases ok
    · simp only [Bool.false_eq_true, if_false, Prog.run, Out.ok_bind, Out.bind_assoc']
    · simp only [if_true, Prog.run, Out.ok_bind]
  rw [hrun]
  cases ok with
  | true =>
    refine ⟨s1.dropState m, rfl, rfl, rfl, fun y => rfl, .step (.drop m) hr1 hown rfl⟩
  | false =>
    obtain ⟨s2, h2, h3, h4, h5, -⟩ := C01_restore hr1 hown
    have hr2 : Reach al e s2 := .step (.restore m) hr1 hown h2
    refine ⟨s2.dropState m, ?_, ?_, h5, fun y => ?_,
      .step (.drop m) hr2 (by show s2.live m = true; rw [h4]; exact hown) rfl⟩
    · simp only [Bool.false_eq_true, if_false, h2, Out.ok_bind]; rfl
    · simp only [Bool.false_eq_true, if_false, ← hidx]; exact h3
    · show (_ && s2.live y) = _; rw [h4]

/-- A closure that consumes two tokens and then returns `Err`, run in the middle of an
input. -/
example : ∃ (s s0 s1 : Stream exSig) (m : SavedState), Reach exAlloc (exEnv [7, 8, 9]) s ∧
    Stream.step .save s = .ok (m, s0) ∧
    LegalRun (do let _ ← Prog.advance; let _ ← Prog.advance; return (false, ()) : Prog exSig _) s0 ∧
    (do let _ ← Prog.advance; let _ ← Prog.advance; return (false, ()) : Prog exSig _).run Stream.step s0
      = .ok ((false, ()), s1) ∧ s1.live m = true ∧ s1.index = 3 ∧ s.index = 1 :=
  ⟨_, _, _, _, .step .advance .new trivial rfl, rfl,
    ⟨trivial, fun _ _ _ => ⟨trivial, fun _ _ _ => trivial⟩⟩, rfl, rfl, rfl, rfl⟩

/-! ## C08: advance_to and save_at reach the requested index -/

/-- **C08 (partial).** `advance_to(i)`, for `i` at or after the cursor and not past an end
of input that was already seen: it returns `true` exactly when at least `i` tokens exist,
and then the index is `i`; otherwise it stays at the end of input. Missing: the case of an
`i` past an end of input that was already seen, where the property is false
(`C08_advance_to_fails`). -/
theorem C08_advance_to_partial (h : Reach al e s) {i : Nat} (hi : s.index ≤ i)
    (hl : ¬(s.sourceAtEof = true ∧ s.pulled ≤ i)) :
    ∃ r s', Stream.step (.advanceTo i) s = .ok (r, s') ∧ s'.live = s.live ∧
      (r = true ↔ ∀ j, j < i → (e.source j).isSome = true) ∧
      (r = true → s'.index = i) ∧
      (r = false → s.index ≤ s'.index ∧ s'.index < i ∧ e.source s'.index = none) := by
  obtain ⟨st, c, hs⟩ := h.sim
  have h1 := hs.pos
  obtain ⟨r, s', hst⟩ := C02_no_internal_failure h (o := .advanceTo i) hl hi
  obtain ⟨st', c', hc, hs'⟩ := hs.legal_step (o := .advanceTo i) hl hst
  have hlive : c'.live = c.live := by
    funext m
    have hx : ∀ m, c.live m = true → c'.live m = true := fun m hm => Cursor.step_live hc hm trivial
    simp only [Cursor.step] at hc
    rw [if_neg (by omega)] at hc
    split at hc
    · cases hc
    · have hadv : ∀ k (c : Cursor), (Cursor.advanceBy e k c).2.live = c.live := by
        intro k
        induction k with
        | zero => intro c; rfl
        | succ k ih =>
          intro c
          unfold Cursor.advanceBy
          split
          · rw [ih]; rfl
          · rfl
      have h2 := hadv (i - c.pos) c
      rw [Out.ok.inj hc] at h2
      rw [h2]
  refine ⟨r, s', hst, by rw [hs'.live, hs.live, hlive], ?_⟩
  simp only [Cursor.step] at hc
  rw [if_neg (by omega)] at hc
  split at hc
  · cases hc
  · have hcc : Cursor.advanceBy e (i - c.pos) c = (r, c') := Out.ok.inj hc
    have hf := advanceBy_facts e (i - c.pos) c
    rw [hcc] at hf
    simp only at hf
    have hbefore : ∀ j, j < c.pos → (e.source j).isSome = true := by
      intro j hj
      exact hs.wf.some_of_lt (by have := hs.wf.posLe; omega)
    have h3 := hs'.pos
    rcases hf with ⟨f1, f2, -, f4⟩ | ⟨f1, f2, f3, f4, f5, -⟩
    · subst f1
      refine ⟨⟨fun _ j hj => ?_, fun _ => rfl⟩, fun _ => by omega, fun h => by cases h⟩
      by_cases hj' : j < c.pos
      · exact hbefore j hj'
      · exact f4 j (by omega) (by omega)
    · subst f1
      refine ⟨⟨fun h => (by cases h), fun hall => ?_⟩, fun h => (by cases h),
        fun _ => ⟨by omega, by omega, by rw [h3]; exact f4⟩⟩
      have := hall c'.pos (by omega)
      rw [f4] at this
      cases this

/-- **C08.** It panics when `i` lies before the cursor. -/
theorem C08_advance_to_backwards {i : Nat} (hi : i < s.index) :
    (Stream.step (.advanceTo i) s).isPanic = true ∧ (Stream.step (.saveAt i) s).isPanic = true := by
  have : ∃ m, s.advanceTo i = .panic m :=
    ⟨_, by unfold Stream.advanceTo; rw [if_pos (by omega), if_neg (by omega)]⟩
  obtain ⟨m, hm⟩ := this
  constructor
  · simp only [Stream.step]; rw [hm]; rfl
  · simp only [Stream.step, Stream.saveAt]; rw [hm]; rfl

/-- **C08 (partial).** `save_at(i)`, for `i` at or after the cursor and within the tokens
read: a fresh owned state at `i`; the cursor and the source are left alone. Missing: an `i`
beyond the tokens read, where the property is false (`C08_save_at_fails`). -/
theorem C08_save_at_partial (h : Reach al e s) {i : Nat} (hi : s.index ≤ i) (hl : i ≤ s.tokensRead) :
    ∃ m s', Stream.step (.saveAt i) s = .ok (m, s') ∧ m.index = i ∧ s.live m = false ∧
      (∀ x, s'.live x = (x = m || s.live x)) ∧ s'.index = s.index ∧ s'.pulled = s.pulled := by
  obtain ⟨st, c, hs⟩ := h.sim
  rw [hs.tokensRead] at hl
  rw [hs.pos] at hi
  obtain ⟨s', h1, h2⟩ := hs.saveAt hi hl
  refine ⟨_, s', h1, rfl, ?_, ?_, by rw [h2.pos, hs.pos]; rfl, by rw [h2.pulled, hs.pulled]; rfl⟩
  · cases hx : s.live (c.saveIdx i).1 with
    | false => rfl
    | true =>
      have := (hs.wf.liveOk _ (by rw [← hs.live]; exact hx)).2
      simp only [Cursor.saveIdx] at this
      omega
  · intro x; rw [h2.live, hs.live]; rfl

/-- A reachable state for the three theorems above: two tokens read, cursor back at 0. -/
example : ∃ s : Stream exSig, Reach exAlloc (exEnv [7, 8, 9]) s ∧ s.index = 1 ∧ s.tokensRead = 2 ∧
    ¬(s.sourceAtEof = true ∧ s.pulled ≤ 5) :=
  ⟨_, .step .token (.step .advance .new trivial rfl) trivial rfl, rfl, rfl, by intro h; cases h.1⟩

/-- **C08 (negation).** On an empty source: `token()`, then `advance_to(1)` returns `true`
and moves the index to 1 although there is no token. -/
theorem C08_advance_to_fails : ∃ s s' : Stream exSig, Reach exAlloc (exEnv []) s ∧
    Stream.step (.advanceTo 1) s = .ok (true, s') ∧ s'.index = 1 ∧
    (exEnv []).source 0 = none :=
  ⟨_, _, .step .token .new trivial rfl, rfl, rfl, rfl⟩

/-- **C08 (negation).** `save_at` beyond the tokens read: the buffer is garbage collected
while looking ahead, and the position inside the buffer that is put back is stale. On a
fresh stream over ten tokens, with the growth policy of the Rust standard library,
`save_at(5)` leaves the index at 0 but the next token is that of index 4. -/
theorem C08_save_at_fails : ∃ (s s' s'' : Stream exSig) (m : SavedState),
    Reach rustAlloc (exEnv [10, 11, 12, 13, 14, 15, 16, 17, 18, 19]) s ∧ s.index = 0 ∧
    Stream.step (.saveAt 5) s = .ok (m, s') ∧ s'.index = 0 ∧
    Stream.step .token s' = .ok (some 14, s'') :=
  ⟨_, _, _, _, .new, rfl, rfl, rfl, rfl⟩

/-- **C08 (negation).** After one `advance()` and `save_at(6)` the next use panics. -/
theorem C08_save_at_fails_panic : ∃ (s s' : Stream exSig) (m : SavedState),
    Reach rustAlloc (exEnv [10, 11, 12, 13, 14, 15, 16, 17, 18, 19]) s ∧ s.index = 1 ∧
    Stream.step (.saveAt 6) s = .ok (m, s') ∧
    (Stream.step (.advanceTo 7) s').isPanic = true :=
  ⟨_, _, _, .step .advance .new trivial rfl, rfl, rfl, rfl⟩

/-! ## C09: token_at / location_at -/

/-- **C09 (partial).** For an owned saved state at the cursor or within the tokens pulled,
`token_at` is the source token there, and `location_at` its location; nothing moves.
Missing: a saved state at the frontier of the tokens pulled while the cursor is elsewhere,
where both panic (`C09_token_at_fails`). -/
theorem C09_token_at_partial (h : Reach al e s) {m : SavedState} (hm : s.live m = true)
    (hi : m.index = s.index ∨ m.index < s.pulled) :
    ∃ s', Stream.step (.tokenAt m) s = .ok (e.source m.index, s') ∧ s'.index = s.index ∧
      s'.live = s.live ∧ Stream.step (.locationAt m) s = .ok (specLocation e m.index, s) := by
  obtain ⟨st, c, hs⟩ := h.sim
  have hm' : c.live m = true := by rw [← hs.live]; exact hm
  have hloc := (C06_location_at h hm hi).1
  rw [hs.pos, hs.pulled] at hi
  have hc : ∃ c', Cursor.step e (.tokenAt m) c = .ok (e.source m.index, c') ∧ c'.pos = c.pos ∧
      c'.live = c.live := by
    simp only [Cursor.step, hm', if_true]
    split
    · rename_i heq; exact ⟨c.look, by rw [heq], rfl, rfl⟩
    · rename_i hne
      rw [if_pos (hi.resolve_left hne)]
      exact ⟨c, rfl, rfl, rfl⟩
  obtain ⟨c', hc, h1, h2⟩ := hc
  obtain ⟨st', s', h3, h4⟩ := hs.step_ok hc
  exact ⟨s', h3, by rw [h4.pos, hs.pos, h1], by rw [h4.live, hs.live, h2], hloc⟩

/-- **C09.** Exactly which owned saved states panic: those whose token has not been pulled
while the cursor is elsewhere. -/
theorem C09_token_at_panics_iff (h : Reach al e s) {m : SavedState} (hm : s.live m = true) :
    (Stream.step (.tokenAt m) s).isPanic = true ↔ ¬(m.index = s.index ∨ m.index < s.pulled) := by
  obtain ⟨st, c, hs⟩ := h.sim
  have hm' : c.live m = true := by rw [← hs.live]; exact hm
  constructor
  · intro hp hi
    obtain ⟨s', h1, -⟩ := C09_token_at_partial h hm hi
    rw [h1] at hp
    cases hp
  · intro hi
    rw [hs.pos, hs.pulled] at hi
    have h1 := hs.step (.tokenAt m)
    have : Cursor.step e (.tokenAt m) c = .panic msgBounds := by
      simp only [Cursor.step, hm', if_true]
      rw [if_neg (fun h => hi (Or.inl h)), if_neg (fun h => hi (Or.inr h))]
    rw [this] at h1
    simp only [Sim.OutRel] at h1
    rw [h1]; rfl

/-- An owned saved state behind the cursor. -/
example : ∃ s : Stream exSig, Reach exAlloc (exEnv [7, 8, 9]) s ∧ s.live ⟨0, 1⟩ = true ∧
    s.index = 3 ∧ s.pulled = 3 :=
  ⟨_, .step .advance (.step .advance (.step .save (.step .advance .new trivial rfl)
    trivial rfl) trivial rfl) trivial rfl, rfl, rfl, rfl⟩

/-- **C09 (negation).** Save at 0, advance, save at 1 (the next token has not been pulled),
restore the first: `token_at` and `location_at` of the second panic, although it is owned
and the source has a token there. -/
theorem C09_token_at_fails : ∃ (s : Stream exSig) (m : SavedState),
    Reach exAlloc (exEnv [7, 8]) s ∧ s.live m = true ∧ (exEnv [7, 8]).source m.index = some 8 ∧
    Stream.step (.tokenAt m) s = .panic msgBounds ∧ Stream.step (.locationAt m) s = .panic msgBounds :=
  ⟨_, ⟨1, 1⟩, .step (.restore ⟨0, 0⟩) (.step .save (.step .advance (.step .save .new trivial rfl)
    trivial rfl) trivial rfl) rfl rfl, rfl, rfl, rfl, rfl⟩

end PPC
