import Verif.SpecPanic
import Verif.SemMemory3

/-!
# Panics in the middle of a parse: lemmas

A client that makes no illegal call when it owns nothing does not touch the saved states of others: it runs in the same
way on a cursor without them.
-/

namespace PPC

variable {S : Sig} {e : Env S} {al : Alloc}

/-- The cursors differ in the saved states of others, `F`, only. These were made before those of the client, which have
identities from `B` on. -/
structure Apart (F : SavedState → Bool) (B : Nat) (c c' : Cursor) : Prop where
  pos : c.pos = c'.pos
  hi : c.hi = c'.hi
  ids : c.nextId = c'.nextId
  live : ∀ m, c.live m = (F m || c'.live m)
  old : ∀ m, F m = true → m.id < B
  new : ∀ m, c'.live m = true → B ≤ m.id
  le : B ≤ c'.nextId

section

variable {F : SavedState → Bool} {B : Nat} {c c' : Cursor}

theorem Apart.own (h : Apart F B c c') {m : SavedState} (hm : c'.live m = true) : c.live m = true := by
  rw [h.live, hm, Bool.or_true]

theorem Apart.limit (h : Apart F B c c') : c.limit e = c'.limit e := Cursor.limit_congr e h.hi

theorem Apart.sawEof (h : Apart F B c c') : c.sawEof e = c'.sawEof e := by simp only [Cursor.sawEof, h.hi]

theorem Apart.look (h : Apart F B c c') : Apart F B c.look c'.look :=
  ⟨h.pos, by rw [Cursor.look_hi, Cursor.look_hi, h.pos, h.hi], h.ids, h.live, h.old, h.new, h.le⟩

theorem Apart.setPos (h : Apart F B c c') (p : Nat) : Apart F B { c with pos := p } { c' with pos := p } :=
  ⟨rfl, h.hi, h.ids, h.live, h.old, h.new, h.le⟩

theorem Apart.save (h : Apart F B c c') (i : Nat) :
    (c.saveIdx i).1 = (c'.saveIdx i).1 ∧ Apart F B (c.saveIdx i).2 (c'.saveIdx i).2 := by
  refine ⟨by simp [Cursor.saveIdx, h.ids], ⟨h.pos, h.hi, ?_, ?_, h.old, ?_, ?_⟩⟩
  · simp [Cursor.saveIdx, h.ids]
  · intro m
    simp only [Cursor.saveIdx, h.live m, h.ids]
    cases F m <;> simp
  · intro m hm
    simp only [Cursor.saveIdx, Bool.or_eq_true, decide_eq_true_eq] at hm
    rcases hm with rfl | hm
    · exact h.le
    · exact h.new m hm
  · have := h.le
    simp only [Cursor.saveIdx]; omega

theorem Apart.advanceBy : ∀ (k : Nat) {c c' : Cursor}, Apart F B c c' →
    (Cursor.advanceBy e k c).1 = (Cursor.advanceBy e k c').1 ∧
      Apart F B (Cursor.advanceBy e k c).2 (Cursor.advanceBy e k c').2
  | 0, _, _, h => ⟨rfl, h⟩
  | k + 1, c, c', h => by
    unfold Cursor.advanceBy
    rw [h.pos]
    split
    · exact Apart.advanceBy k (h.look.setPos _)
    · exact ⟨rfl, h.look⟩

/-- A call that is legal without the states of others has the same outcome with them. -/
theorem Apart.step (h : Apart F B c c') {o : Op S} (hn : Cursor.step e o c' ≠ .stuck) {r : o.Resp} {c1 : Cursor}
    (hs : Cursor.step e o c = .ok (r, c1)) : ∃ c1', Cursor.step e o c' = .ok (r, c1') ∧ Apart F B c1 c1' := by
  cases o with
  | save =>
    simp only [Cursor.step, h.pos] at hs ⊢
    obtain ⟨h1, h2⟩ := h.save c'.pos
    have h3 := Out.ok.inj hs
    refine ⟨(c'.saveIdx c'.pos).2, ?_, ?_⟩
    · rw [h3] at h1; exact congrArg Out.ok (Prod.ext h1.symm rfl)
    · rw [h3] at h2; exact h2
  | saveAt i =>
    simp only [Cursor.step, h.pos, h.limit] at hs hn ⊢
    split at hs
    · cases hs
    · rename_i h0
      rw [if_neg h0] at hn ⊢
      split at hs
      · rename_i h0'
        rw [if_pos h0']
        obtain ⟨h1, h2⟩ := h.save i
        have h3 := Out.ok.inj hs
        refine ⟨(c'.saveIdx i).2, ?_, ?_⟩
        · rw [h3] at h1; exact congrArg Out.ok (Prod.ext h1.symm rfl)
        · rw [h3] at h2; exact h2
      · cases hs
  | drop m =>
    simp only [Cursor.step] at hs hn ⊢
    by_cases hm : c'.live m = true
    · rw [if_pos (h.own hm)] at hs
      rw [if_pos hm]
      cases hs
      refine ⟨_, rfl, ⟨h.pos, h.hi, h.ids, ?_, h.old, ?_, h.le⟩⟩
      · intro x
        simp only [h.live x]
        by_cases hx : x = m
        · subst hx
          have hF : F x = false := by
            cases hF : F x
            · rfl
            · have := h.old x hF; have := h.new x hm; omega
          simp [hF]
        · simp [hx]
      · intro x hx
        simp only [Bool.and_eq_true] at hx
        exact h.new x hx.2
    · rw [if_neg hm] at hn; exact (hn rfl).elim
  | restore m =>
    simp only [Cursor.step] at hs hn ⊢
    by_cases hm : c'.live m = true
    · rw [if_pos (h.own hm)] at hs
      rw [if_pos hm]
      cases hs
      exact ⟨_, rfl, h.setPos _⟩
    · rw [if_neg hm] at hn; exact (hn rfl).elim
  | token =>
    simp only [Cursor.step, h.pos] at hs ⊢
    cases hs
    exact ⟨_, rfl, h.look⟩
  | tokenAt m =>
    simp only [Cursor.step] at hs hn ⊢
    by_cases hm : c'.live m = true
    · rw [if_pos (h.own hm)] at hs
      rw [if_pos hm]
      rw [h.pos, h.hi] at hs
      split at hs
      · rename_i h0; rw [if_pos h0]; cases hs; exact ⟨_, rfl, h.look⟩
      · rename_i h0
        rw [if_neg h0]
        split at hs
        · rename_i h0'; rw [if_pos h0']; cases hs; exact ⟨_, rfl, h⟩
        · cases hs
    · rw [if_neg hm] at hn; exact (hn rfl).elim
  | index =>
    simp only [Cursor.step, h.pos] at hs ⊢
    cases hs
    exact ⟨_, rfl, h⟩
  | location =>
    simp only [Cursor.step, h.pos] at hs ⊢
    cases hs
    exact ⟨_, rfl, h⟩
  | locationAt m =>
    simp only [Cursor.step] at hs hn ⊢
    by_cases hm : c'.live m = true
    · rw [if_pos (h.own hm)] at hs
      rw [if_pos hm]
      rw [h.pos, h.hi] at hs
      split at hs
      · rename_i h0; rw [if_pos h0]; cases hs; exact ⟨_, rfl, h⟩
      · cases hs
    · rw [if_neg hm] at hn; exact (hn rfl).elim
  | span =>
    simp only [Cursor.step, h.pos] at hs ⊢
    cases hs
    exact ⟨_, rfl, h.look⟩
  | spanningBackTo m =>
    simp only [Cursor.step] at hs hn ⊢
    by_cases hm : c'.live m = true
    · rw [if_pos (h.own hm)] at hs
      rw [if_pos hm]
      rw [h.pos, h.hi] at hs
      split at hs
      · rename_i h0; rw [if_pos h0]; cases hs; exact ⟨_, rfl, h⟩
      · cases hs
    · rw [if_neg hm] at hn; exact (hn rfl).elim
  | advance =>
    simp only [Cursor.step, h.pos] at hs ⊢
    split at hs
    · rename_i h0; rw [if_pos h0]; cases hs; exact ⟨_, rfl, h.look.setPos _⟩
    · rename_i h0; rw [if_neg h0]; cases hs; exact ⟨_, rfl, h.look⟩
  | advanceTo i =>
    simp only [Cursor.step, h.pos, h.sawEof, h.hi] at hs hn ⊢
    split at hs
    · cases hs
    · rename_i h0
      rw [if_neg h0] at hn ⊢
      split at hs
      · cases hs
      · rename_i h0'
        rw [if_neg h0']
        obtain ⟨h1, h2⟩ := h.advanceBy (e := e) (i - c'.pos)
        have h3 := Out.ok.inj hs
        refine ⟨(Cursor.advanceBy e (i - c'.pos) c').2, ?_, ?_⟩
        · rw [h3] at h1; exact congrArg Out.ok (Prod.ext h1.symm rfl)
        · rw [h3] at h2; exact h2

end

theorem Advanced.reach {s s' : Stream S} (h : Advanced s s') (hr : Reach al e s) : Reach al e s' ∧ s'.live = s.live := by
  induction h with
  | refl => exact ⟨hr, rfl⟩
  | step _ hs ih =>
    obtain ⟨ih, hl⟩ := ih
    refine ⟨.step .advance ih trivial hs, ?_⟩
    obtain ⟨st, c, hsim⟩ := ih.sim
    obtain ⟨st', c', hc, hsim'⟩ := hsim.legal_step (o := .advance) trivial hs
    rw [hsim'.live, ← hl, hsim.live]
    simp only [Cursor.step] at hc
    split at hc <;> cases hc <;> rfl

theorem BreaksOff.reach {o : Op S} {s s' : Stream S} (h : BreaksOff o s s') (hr : Reach al e s) :
    Reach al e s' ∧ s'.live = s.live := by
  cases h with
  | unchanged => exact ⟨hr, rfl⟩
  | span h =>
    refine ⟨.step .token hr trivial h, ?_⟩
    obtain ⟨st, c, hsim⟩ := hr.sim
    obtain ⟨st', c', hc, hsim'⟩ := hsim.legal_step (o := .token) trivial h
    rw [hsim'.live, hsim.live]
    cases hc; rfl
  | saveAt h => exact h.reach hr
  | advanceTo h => exact h.reach hr

theorem StopsAt.reach {α : Type} {F : SavedState → Bool} {B : Nat} {p : Prog S α} {s s' : Stream S}
    (h : StopsAt p s s') : ∀ {st : Nat} {c c' : Cursor}, Reach al e s → Sim e st s c → Apart F B c c' →
      p.run (Cursor.step e) c' ≠ .stuck → Reach al e s' ∧ ∀ m, F m = true → s'.live m = true := by
  induction h with
  | between =>
    intro st c c' hr hs ha _
    exact ⟨hr, fun m hm => by rw [hs.live, ha.live, hm, Bool.true_or]⟩
  | within h =>
    intro st c c' hr hs ha _
    obtain ⟨h1, h2⟩ := h.reach hr
    exact ⟨h1, fun m hm => by rw [h2, hs.live, ha.live, hm, Bool.true_or]⟩
  | later hs h ih =>
    rename_i o k s s' s'' r
    intro st c c' hr hsim ha hn
    simp only [Prog.run] at hn
    have hn' : Cursor.step e o c' ≠ .stuck := fun hx => by rw [hx] at hn; exact hn rfl
    have h1 := hsim.step o
    rw [hs] at h1
    cases hc : Cursor.step e o c with
    | ok y =>
      rw [hc] at h1
      obtain ⟨st', s2, h2, h3⟩ := h1
      cases h2
      have hl : Legal o s := hsim.legal_of_not_stuck (by rw [hc]; simp) (by rw [hc]; simp)
      obtain ⟨c1', h4, h5⟩ := ha.step hn' hc
      rw [h4] at hn
      exact ih (.step o hr hl hs) h3 h5 hn
    | panic m => rw [hc] at h1; cases h1
    | oof => rw [hc] at h1; cases h1
    | stuck =>
      exfalso
      cases o with
      | saveAt i =>
        simp only [Cursor.step, ha.pos, ha.limit] at hc hn'
        split at hc
        · cases hc
        · rename_i h0
          rw [if_neg h0] at hn'
          split at hc
          · cases hc
          · rename_i h0'; rw [if_neg h0'] at hn'; exact hn' rfl
      | drop m =>
        simp only [Cursor.step] at hc hn'
        split at hc
        · cases hc
        · rename_i h0
          by_cases hm : c'.live m = true
          · exact h0 (ha.own hm)
          · rw [if_neg hm] at hn'; exact hn' rfl
      | restore m =>
        simp only [Cursor.step] at hc hn'
        split at hc
        · cases hc
        · rename_i h0
          by_cases hm : c'.live m = true
          · exact h0 (ha.own hm)
          · rw [if_neg hm] at hn'; exact hn' rfl
      | tokenAt m =>
        simp only [Cursor.step] at hc hn'
        split at hc
        · split at hc
          · cases hc
          · split at hc <;> cases hc
        · rename_i h0
          by_cases hm : c'.live m = true
          · exact h0 (ha.own hm)
          · rw [if_neg hm] at hn'; exact hn' rfl
      | locationAt m =>
        simp only [Cursor.step] at hc hn'
        split at hc
        · split at hc <;> cases hc
        · rename_i h0
          by_cases hm : c'.live m = true
          · exact h0 (ha.own hm)
          · rw [if_neg hm] at hn'; exact hn' rfl
      | spanningBackTo m =>
        simp only [Cursor.step] at hc hn'
        split at hc
        · split at hc <;> cases hc
        · rename_i h0
          by_cases hm : c'.live m = true
          · exact h0 (ha.own hm)
          · rw [if_neg hm] at hn'; exact hn' rfl
      | advance => simp only [Cursor.step] at hc; split at hc <;> cases hc
      | advanceTo i =>
        simp only [Cursor.step, ha.pos, ha.sawEof, ha.hi] at hc hn'
        split at hc
        · cases hc
        · rename_i h0
          rw [if_neg h0] at hn'
          split at hc
          · rename_i h0'; rw [if_pos h0'] at hn'; exact hn' rfl
          · cases hc
      | save => cases hc
      | token => cases hc
      | index => cases hc
      | location => cases hc
      | span => cases hc

/-- Where a parser stops, the stream is consistent and the saved states of others are still owned. -/
theorem Tidy.stopsAt {α : Type} {p : Prog S α} (ht : Tidy e p) {s s' : Stream S} (hr : Reach al e s)
    (h : StopsAt p s s') : Reach al e s' ∧ ∀ m, s.live m = true → s'.live m = true := by
  obtain ⟨st, c, hsim⟩ := hr.sim
  have hw := hsim.wf
  have hw' : ({ c with live := fun _ => false } : Cursor).WF e :=
    ⟨hw.good, hw.posLe, fun m hm => by cases hm⟩
  exact h.reach (c' := { c with live := fun _ => false }) (F := s.live) (B := c.nextId) hr hsim
    ⟨rfl, rfl, rfl, fun m => by rw [hsim.live]; simp, fun m hm => (hw.liveOk m (by rw [← hsim.live]; exact hm)).2,
      fun m hm => (by cases hm), Nat.le_refl _⟩ (ht _ hw').1

/-! ## Unwinding -/

theorem Reach.drop {s : Stream S} (hr : Reach al e s) {m : SavedState} (hm : s.live m = true) :
    ∃ s', Stream.step (.drop m) s = .ok ((), s') ∧ Reach al e s' ∧ s'.index = s.index ∧
      ∀ x, s'.live x = (x ≠ m && s.live x) := by
  obtain ⟨st, c, hsim⟩ := hr.sim
  have h1 : Cursor.step e (.drop m) c = .ok ((), { c with live := fun x => x ≠ m && c.live x }) := by
    simp only [Cursor.step]; rw [if_pos (by rw [← hsim.live]; exact hm)]
  obtain ⟨st', s', h2, h3⟩ := hsim.step_ok h1
  refine ⟨s', h2, .step (.drop m) hr hm h2, by rw [h3.pos, hsim.pos], fun x => ?_⟩
  rw [h3.live, hsim.live]

theorem UnwindsTo.reach {given : SavedState → Bool} {s s' : Stream S} (h : UnwindsTo given s s') : Reach al e s →
    (∀ m, given m = true → s.live m = true) → Reach al e s' ∧ s'.live = given ∧ s'.index = s.index := by
  induction h with
  | done h =>
    intro hr hg
    refine ⟨hr, ?_, rfl⟩
    funext m
    rw [Bool.eq_iff_iff]
    exact ⟨h m, hg m⟩
  | @drop s0 s1' s2' m hm hg hs h ih =>
    intro hr hgl
    obtain ⟨s1, h1, h2, h3, h4⟩ := hr.drop hm
    rw [hs] at h1
    cases h1
    obtain ⟨h5, h6, h7⟩ := ih h2 (fun x hx => by
      rw [h4, hgl x hx]
      have : x ≠ m := fun he => by subst he; rw [hx] at hg; cases hg
      simp [this])
    exact ⟨h5, h6, h7.trans h3⟩

theorem UnwindsTo.exists_of {given : SavedState → Bool} : ∀ (l : List SavedState) {s : Stream S}, Reach al e s →
    (∀ m, s.live m = true → given m = true ∨ m ∈ l) → ∃ s', UnwindsTo given s s'
  | [], s, hr, h => ⟨s, .done fun m hm => by simpa using h m hm⟩
  | m :: l, s, hr, h => by
    by_cases hm : s.live m = true
    · by_cases hg : given m = true
      · refine UnwindsTo.exists_of l hr fun x hx => ?_
        rcases h x hx with h1 | h1
        · exact .inl h1
        · rcases List.mem_cons.1 h1 with rfl | h1
          · exact .inl hg
          · exact .inr h1
      · obtain ⟨s1, h1, h2, -, h4⟩ := hr.drop hm
        obtain ⟨s2, h5⟩ := UnwindsTo.exists_of (given := given) l h2 fun x hx => by
          rw [h4] at hx
          simp only [Bool.and_eq_true, decide_eq_true_eq] at hx
          rcases h x hx.2 with h6 | h6
          · exact .inl h6
          · rcases List.mem_cons.1 h6 with rfl | h6
            · exact absurd rfl hx.1
            · exact .inr h6
        exact ⟨s2, .drop hm (by simpa using hg) h1 h5⟩
    · refine UnwindsTo.exists_of l hr fun x hx => ?_
      rcases h x hx with h1 | h1
      · exact .inl h1
      · rcases List.mem_cons.1 h1 with rfl | h1
        · exact absurd hx hm
        · exact .inr h1

theorem Reach.unwinds {s : Stream S} (hr : Reach al e s) (given : SavedState → Bool) : ∃ s', UnwindsTo given s s' := by
  obtain ⟨st, c, hsim⟩ := hr.sim
  refine UnwindsTo.exists_of
    ((List.range c.nextId).flatMap fun a => (List.range (c.limit e + 1)).map fun b => ⟨a, b⟩) hr fun m hm => .inr ?_
  have h1 := hsim.wf.liveOk m (by rw [← hsim.live]; exact hm)
  simp only [List.mem_flatMap, List.mem_map, List.mem_range]
  exact ⟨m.id, h1.2, m.index, by omega, rfl⟩

end PPC
