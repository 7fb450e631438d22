import Verif.SemMemory
import Verif.ParserBase

/-!
# From owned saved states to the memory of the stream

Helper lemmas for C53: the states that the stream goes through while a client runs.
-/

namespace PPC

variable {S : Sig} {e : Env S} {al : Alloc}

/-! ## The states a client goes through -/

theorem Prog.Through.imp {α : Type} {P Q : Stream S → Prop} (h : ∀ s, P s → Q s) : ∀ {p : Prog S α} {s : Stream S},
    p.Through P s → p.Through Q s
  | .ret _, _, hp => h _ hp
  | .panic _, _, hp => h _ hp
  | .oof, _, hp => h _ hp
  | .op _ _, _, hp => ⟨h _ hp.1, fun r s' hs => (hp.2 r s' hs).imp h⟩

theorem Prog.Through.and {α : Type} {P Q : Stream S → Prop} : ∀ {p : Prog S α} {s : Stream S},
    p.Through P s → p.Through Q s → p.Through (fun s => P s ∧ Q s) s
  | .ret _, _, hp, hq => ⟨hp, hq⟩
  | .panic _, _, hp, hq => ⟨hp, hq⟩
  | .oof, _, hp, hq => ⟨hp, hq⟩
  | .op _ _, _, hp, hq => ⟨⟨hp.1, hq.1⟩, fun r s' hs => (hp.2 r s' hs).and (hq.2 r s' hs)⟩

theorem Prog.Through.first {α : Type} {P : Stream S → Prop} : ∀ {p : Prog S α} {s : Stream S}, p.Through P s → P s
  | .ret _, _, hp => hp
  | .panic _, _, hp => hp
  | .oof, _, hp => hp
  | .op _ _, _, hp => hp.1

theorem Prog.Through.last {α : Type} {P : Stream S → Prop} : ∀ {p : Prog S α} {s s' : Stream S} {x : α},
    p.Through P s → p.run Stream.step s = .ok (x, s') → P s'
  | .ret _, _, _, _, hp, hr => by cases hr; exact hp
  | .panic _, _, _, _, _, hr => by cases hr
  | .oof, _, _, _, _, hr => by cases hr
  | .op o k, s, s', x, hp, hr => by
    simp only [Prog.run] at hr
    cases hs : Stream.step o s with
    | ok y => rw [hs] at hr; exact (hp.2 y.1 y.2 hs).last hr
    | panic m => rw [hs] at hr; cases hr
    | oof => rw [hs] at hr; cases hr
    | stuck => rw [hs] at hr; cases hr

theorem Prog.Through.bind {α β : Type} {P : Stream S → Prop} {f : α → Prog S β} : ∀ {p : Prog S α} {s : Stream S},
    p.Through P s → (∀ x s', p.run Stream.step s = .ok (x, s') → (f x).Through P s') → (p.bind f).Through P s
  | .ret _, _, _, h => h _ _ rfl
  | .panic _, _, hp, _ => hp
  | .oof, _, hp, _ => hp
  | .op o k, s, hp, h => ⟨hp.1, fun r s' hs => (hp.2 r s' hs).bind fun x s'' hr => h x s'' (by
      simp only [Prog.run, hs]; exact hr)⟩

/-- An invariant of the steps of a client that never makes an illegal call. -/
theorem Sim.through {α : Type} {I : Stream S → Cursor → Prop} {Q : Stream S → Prop}
    (hI : ∀ {o : Op S} {s s' : Stream S} {c c' : Cursor} {r : o.Resp} {st st' : Nat}, Sim e st s c → Sim e st' s' c' →
      Legal o s → Stream.step o s = .ok (r, s') → Cursor.step e o c = .ok (r, c') → Q s' → I s c → I s' c') :
    ∀ (p : Prog S α) {st : Nat} {s : Stream S} {c : Cursor}, Sim e st s c → p.run (Cursor.step e) c ≠ .stuck →
      p.Through Q s → I s c → p.Through (fun s => ∃ st c, Sim e st s c ∧ I s c) s
  | .ret _, st, s, c, h, _, _, hi => ⟨st, c, h, hi⟩
  | .panic _, st, s, c, h, _, _, hi => ⟨st, c, h, hi⟩
  | .oof, st, s, c, h, _, _, hi => ⟨st, c, h, hi⟩
  | .op o k, st, s, c, h, hn, hq, hi => by
    refine ⟨⟨st, c, h, hi⟩, fun r s' hs => ?_⟩
    have h1 := h.step o
    simp only [Prog.run] at hn
    cases hc : Cursor.step e o c with
    | ok y =>
      rw [hc] at h1 hn
      obtain ⟨st', s'', h2, h3⟩ := h1
      rw [hs] at h2
      cases h2
      have hl : Legal o s := h.legal_of_not_stuck (by rw [hc]; simp) (by rw [hc]; simp)
      exact Sim.through hI (k y.1) h3 hn (hq.2 _ _ hs) (hI h h3 hl hs hc (hq.2 _ _ hs).first hi)
    | panic m => rw [hc, hs] at h1; cases h1
    | oof => rw [hc, hs] at h1; cases h1
    | stuck => rw [hc] at hn; exact (hn rfl).elim

/-! ## Owned saved states -/

theorem Prog.Through.true {α : Type} : ∀ (p : Prog S α) {s : Stream S}, p.Through (fun _ => True) s
  | .ret _, _ => trivial
  | .panic _, _ => trivial
  | .oof, _ => trivial
  | .op _ k, _ => ⟨trivial, fun r _ _ => Prog.Through.true (k r)⟩

/-- At most `k` saved states are owned by the client of a cursor. -/
def OwnedAtMost (k : Nat) (live : SavedState → Bool) : Prop :=
  ∀ l : List SavedState, l.Nodup → (∀ m ∈ l, live m = true) → l.length ≤ k

theorem OwnedAtMost.save {k : Nat} {live : SavedState → Bool} (h : OwnedAtMost k live) (st : SavedState) :
    OwnedAtMost (k + 1) (fun m => m = st || live m) := by
  intro l hn hl
  by_cases hm : st ∈ l
  · have h1 := h (l.erase st) (hn.erase st) fun m hm' => by
      have h2 := hl m (List.mem_of_mem_erase hm')
      have h3 : m ≠ st := fun he => by
        subst he
        exact (List.Nodup.not_mem_erase hn) hm'
      simpa [h3] using h2
    rw [List.length_erase_of_mem hm] at h1
    omega
  · have h1 := h l hn fun m hm' => by
      have h2 := hl m hm'
      have h3 : m ≠ st := fun he => hm (he ▸ hm')
      simpa [h3] using h2
    omega

theorem OwnedAtMost.drop {k : Nat} {live : SavedState → Bool} (h : OwnedAtMost k live) {m : SavedState}
    (hm : live m = true) : OwnedAtMost (k - 1) (fun x => x ≠ m && live x) := by
  intro l hn hl
  have hml : m ∉ l := fun hx => by simpa using hl m hx
  have h1 := h (m :: l) (List.nodup_cons.2 ⟨hml, hn⟩) fun x hx => by
    rcases List.mem_cons.1 hx with rfl | hx
    · exact hm
    · have := hl x hx
      simp only [Bool.and_eq_true] at this
      exact this.2
  simp only [List.length_cons] at h1
  omega

theorem Cursor.advanceBy_live : ∀ {k : Nat} {c : Cursor}, (Cursor.advanceBy e k c).2.live = c.live
  | 0, _ => rfl
  | k + 1, c => by
    unfold Cursor.advanceBy
    split
    · rw [Cursor.advanceBy_live]; rfl
    · rfl

theorem OwnedAtMost.step {k : Nat} {c c' : Cursor} (h : OwnedAtMost k c.live) {o : Op S} {r : o.Resp}
    (hs : Cursor.step e o c = .ok (r, c')) : OwnedAtMost (o.owned k) c'.live := by
  cases o with
  | save => cases hs; exact h.save _
  | saveAt i =>
    simp only [Cursor.step] at hs
    split at hs
    · cases hs
    · split at hs
      · cases hs; exact h.save _
      · cases hs
  | drop m =>
    simp only [Cursor.step] at hs
    split at hs
    · rename_i hm; cases hs; exact h.drop hm
    · cases hs
  | restore m =>
    simp only [Cursor.step] at hs
    split at hs
    · cases hs; exact h
    · cases hs
  | token => cases hs; exact h
  | tokenAt m =>
    simp only [Cursor.step] at hs
    split at hs
    · split at hs
      · cases hs; exact h
      · split at hs
        · cases hs; exact h
        · cases hs
    · cases hs
  | index => cases hs; exact h
  | location => cases hs; exact h
  | locationAt m =>
    simp only [Cursor.step] at hs
    split at hs
    · split at hs
      · cases hs; exact h
      · cases hs
    · cases hs
  | span => cases hs; exact h
  | spanningBackTo m =>
    simp only [Cursor.step] at hs
    split at hs
    · split at hs
      · cases hs; exact h
      · cases hs
    · cases hs
  | advance =>
    simp only [Cursor.step] at hs
    split at hs
    · cases hs; exact h
    · cases hs; exact h
  | advanceTo i =>
    simp only [Cursor.step] at hs
    split at hs
    · cases hs
    · split at hs
      · cases hs
      · have : c' = (Cursor.advanceBy e (i - c.pos) c).2 := by rw [Out.ok.inj hs]
        subst this
        simp only [Op.owned]
        rw [Cursor.advanceBy_live]
        exact h

theorem Prog.Owns.through {α : Type} {K : Nat} {post : α → Nat → Prop} : ∀ (p : Prog S α) {st k : Nat} {s : Stream S}
    {c : Cursor}, Sim e st s c → p.run (Cursor.step e) c ≠ .stuck → p.Owns K post k → k ≤ K → OwnedAtMost k c.live →
      p.Through (Stream.OwnedAtMost K) s
  | .ret _, st, k, s, c, h, _, _, hk, ho => fun l hn hl => Nat.le_trans (ho l hn (by rw [← h.live]; exact hl)) hk
  | .panic _, st, k, s, c, h, _, _, hk, ho => fun l hn hl => Nat.le_trans (ho l hn (by rw [← h.live]; exact hl)) hk
  | .oof, st, k, s, c, h, _, _, hk, ho => fun l hn hl => Nat.le_trans (ho l hn (by rw [← h.live]; exact hl)) hk
  | .op o f, st, k, s, c, h, hn, hw, hk, ho => by
    refine ⟨fun l hn hl => Nat.le_trans (ho l hn (by rw [← h.live]; exact hl)) hk, fun r s' hs => ?_⟩
    have h1 := h.step o
    simp only [Prog.run] at hn
    cases hc : Cursor.step e o c with
    | ok y =>
      rw [hc] at h1 hn
      obtain ⟨st', s'', h2, h3⟩ := h1
      rw [hs] at h2
      cases h2
      exact (hw.2 y.1).through _ h3 hn hw.1 (ho.step hc)
    | panic m => rw [hc, hs] at h1; cases h1
    | oof => rw [hc, hs] at h1; cases h1
    | stuck => rw [hc] at hn; exact (hn rfl).elim

/-! ## The list of markers -/

/-- The list of markers fits its capacity, which is at most `M`. -/
structure MarkOk (al : Alloc) (M : Nat) (s : Stream S) : Prop where
  nodup : s.markers.Nodup
  fresh : ∀ m ∈ s.markers, m.id < s.nextId
  len : s.markers.length ≤ s.markCap
  cap : s.markCap ≤ M
  al : s.alloc = al

/-- Markers are only removed. -/
structure Fewer (s s' : Stream S) : Prop where
  marks : s'.markers.Sublist s.markers
  nextId : s'.nextId = s.nextId
  cap : s'.markCap = s.markCap
  al : s'.alloc = s.alloc

theorem Fewer.refl (s : Stream S) : Fewer s s := ⟨List.Sublist.refl _, rfl, rfl, rfl⟩

theorem Fewer.trans {s s' s'' : Stream S} (h : Fewer s s') (h' : Fewer s' s'') : Fewer s s'' :=
  ⟨h'.marks.trans h.marks, h'.nextId.trans h.nextId, h'.cap.trans h.cap, h'.al.trans h.al⟩

theorem MarkOk.fewer {M : Nat} {s s' : Stream S} (h : MarkOk al M s) (hf : Fewer s s') : MarkOk al M s' :=
  ⟨h.nodup.sublist hf.marks, fun m hm => by rw [hf.nextId]; exact h.fresh m (hf.marks.subset hm),
    by rw [hf.cap]; exact Nat.le_trans hf.marks.length_le h.len, by rw [hf.cap]; exact h.cap, by rw [hf.al]; exact h.al⟩

section

variable {s s' : Stream S}

theorem Stream.dropOld_fewer (h : s.dropOld = .ok s') : Fewer s s' := by
  unfold Stream.dropOld at h
  split at h
  · revert h
    unfold Stream.startOfBuffer
    simp only
    split
    · simp only [Out.ok_bind]
      split
      · split
        · split
          · split
            · intro h; cases h; exact ⟨List.filter_sublist, rfl, rfl, rfl⟩
            · intro h; cases h
          · intro h; cases h
        · intro h; cases h; exact ⟨List.filter_sublist, rfl, rfl, rfl⟩
      · intro h; cases h
    · intro h; cases h
  · cases h; exact .refl _

theorem Stream.makeNextAvailable_fewer {b : Bool} (hm : s.makeNextAvailable = .ok (b, s')) : Fewer s s' := by
  unfold Stream.makeNextAvailable at hm
  split at hm
  · split at hm <;> (cases hm; exact .refl _)
  · cases ht : s.source s.pulled with
    | some t =>
      rw [ht] at hm
      simp only at hm
      cases hd : ({ s with pulled := s.pulled + 1, sourceLocation := S.advance s.sourceLocation t } : Stream S).dropOld with
      | ok s1 =>
        rw [hd] at hm
        simp only [Out.ok_bind] at hm
        cases hm
        have := Stream.dropOld_fewer hd
        exact ⟨this.marks, this.nextId, this.cap, this.al⟩
      | panic m => rw [hd] at hm; cases hm
      | oof => rw [hd] at hm; cases hm
      | stuck => rw [hd] at hm; cases hm
    | none => rw [ht] at hm; cases hm; exact ⟨List.Sublist.refl _, rfl, rfl, rfl⟩

theorem Stream.token_fewer {t : Option S.I} (hm : s.token = .ok (t, s')) : Fewer s s' := by
  obtain ⟨⟨b, s1⟩, h1, h2⟩ := Out.bind_eq_ok.1 hm
  obtain ⟨x, -, h4⟩ := Out.bind_eq_ok.1 h2
  cases h4
  exact Stream.makeNextAvailable_fewer h1

theorem Stream.advance_fewer {b : Bool} (hm : s.advance = .ok (b, s')) : Fewer s s' := by
  obtain ⟨⟨b, s1⟩, h1, h2⟩ := Out.bind_eq_ok.1 hm
  have := Stream.makeNextAvailable_fewer h1
  simp only at h2
  split at h2
  · cases h2; exact ⟨this.marks, this.nextId, this.cap, this.al⟩
  · cases h2; exact this

theorem Stream.advanceLoop_fewer : ∀ {k : Nat} {s s' : Stream S} {b : Bool}, s.advanceLoop k = .ok (b, s') → Fewer s s'
  | 0, s, s', b, h => by cases h; exact .refl _
  | k + 1, s, s', b, h => by
    unfold Stream.advanceLoop at h
    obtain ⟨⟨b, s1⟩, h1, h2⟩ := Out.bind_eq_ok.1 h
    have := Stream.advance_fewer h1
    simp only at h2
    split at h2
    · exact this.trans (Stream.advanceLoop_fewer h2)
    · cases h2; exact this

theorem Stream.advanceTo_fewer {i : Nat} {b : Bool} (h : s.advanceTo i = .ok (b, s')) : Fewer s s' := by
  unfold Stream.advanceTo at h
  split at h
  · split at h
    · cases h; exact .refl _
    · cases h
  · split at h
    · simp only at h
      split at h
      · cases h; exact ⟨List.Sublist.refl _, rfl, rfl, rfl⟩
      · have h3 := Stream.advanceLoop_fewer h
        exact ⟨h3.marks, h3.nextId, h3.cap, h3.al⟩
    · cases h

theorem Stream.restore_fewer {m : SavedState} (h : s.restore m = .ok s') : Fewer s s' := by
  unfold Stream.restore at h
  obtain ⟨st, -, h2⟩ := Out.bind_eq_ok.1 h
  split at h2
  · split at h2
    · simp only at h2
      split at h2
      · cases h2; exact ⟨List.Sublist.refl _, rfl, rfl, rfl⟩
      · cases h2
    · split at h2
      · cases h2; exact .refl _
      · cases h2; exact ⟨List.Sublist.refl _, rfl, rfl, rfl⟩
  · cases h2

theorem Stream.replaceLastDead_none {live : SavedState → Bool} {new : SavedState} : ∀ {ms : List SavedState},
    Stream.replaceLastDead live new ms = none → ∀ m ∈ ms, live m = true
  | [], _, _, h => by cases h
  | m :: ms, h, x, hx => by
    unfold Stream.replaceLastDead at h
    split at h
    · cases h
    · rename_i h1
      split at h
      · rename_i h2
        rcases List.mem_cons.1 hx with rfl | hx
        · exact h2
        · exact Stream.replaceLastDead_none h1 x hx
      · cases h

theorem Stream.replaceLastDead_some {live : SavedState → Bool} {new : SavedState} : ∀ {ms ms' : List SavedState},
    Stream.replaceLastDead live new ms = some ms' → new ∉ ms → ms.Nodup →
      ms'.length = ms.length ∧ ms'.Nodup ∧ ∀ m ∈ ms', m = new ∨ m ∈ ms
  | [], _, h, _, _ => by cases h
  | m :: ms, ms', h, hnew, hnd => by
    obtain ⟨hm, hnd'⟩ := List.nodup_cons.1 hnd
    have hnew' : new ∉ ms ∧ new ≠ m := ⟨fun h => hnew (List.mem_cons_of_mem _ h), fun h => hnew (by simp [h])⟩
    unfold Stream.replaceLastDead at h
    split at h
    · rename_i ms1 h1
      obtain ⟨g1, g2, g3⟩ := Stream.replaceLastDead_some h1 hnew'.1 hnd'
      cases h
      refine ⟨by simp [g1], List.nodup_cons.2 ⟨fun hx => ?_, g2⟩, fun x hx => ?_⟩
      · rcases g3 m hx with h | h
        · exact hnew'.2 h.symm
        · exact hm h
      · rcases List.mem_cons.1 hx with rfl | hx
        · simp
        · rcases g3 x hx with h | h
          · exact .inl h
          · exact .inr (List.mem_cons_of_mem _ h)
    · split at h
      · cases h
      · cases h
        refine ⟨rfl, List.nodup_cons.2 ⟨hnew'.1, hnd'⟩, fun x hx => ?_⟩
        rcases List.mem_cons.1 hx with rfl | hx
        · exact .inl rfl
        · exact .inr (List.mem_cons_of_mem _ hx)

theorem MarkOk.save {M K : Nat} (h : MarkOk al M s) (hK : K ≤ M) (hg : ∀ k, k < K → al.growM k ≤ M)
    (ho : OwnedAtMost K s.save.2.live) : MarkOk al M s.save.2 := by
  have hnew : (⟨s.nextId, s.index⟩ : SavedState) ∉ s.markers := fun hm => Nat.lt_irrefl _ (h.fresh _ hm)
  have hnd : (s.markers ++ [(⟨s.nextId, s.index⟩ : SavedState)]).Nodup := by
    rw [List.nodup_append]
    refine ⟨h.nodup, by simp, fun a ha b hb => ?_⟩
    simp only [List.mem_singleton] at hb
    subst hb
    exact fun he => hnew (he ▸ ha)
  have hfr : ∀ m, m = ⟨s.nextId, s.index⟩ ∨ m ∈ s.markers → m.id < s.nextId + 1 := by
    rintro m (rfl | hm)
    · exact Nat.lt_succ_self _
    · exact Nat.lt_succ_of_lt (h.fresh m hm)
  have hfr' : ∀ m ∈ s.markers ++ [⟨s.nextId, s.index⟩], m.id < s.nextId + 1 := fun m hm => hfr m (by
    rcases List.mem_append.1 hm with h | h
    · exact .inr h
    · exact .inl (by simpa using h))
  have hlen := h.len
  have hcap := h.cap
  unfold Stream.save at ho ⊢
  simp only at ho ⊢
  by_cases hc : s.markers.length = s.markCap
  · rw [if_pos hc] at ho ⊢
    cases hr : Stream.replaceLastDead s.live ⟨s.nextId, s.index⟩ s.markers with
    | some ms =>
      obtain ⟨g1, g2, g3⟩ := Stream.replaceLastDead_some hr hnew h.nodup
      exact ⟨g2, fun m hm => hfr m (g3 m hm), by simp only; omega, h.cap, h.al⟩
    | none =>
      rw [hr] at ho
      have hl := Stream.replaceLastDead_none hr
      have h1 := ho _ hnd fun m hm => by
        simp only [Stream.pushMarker]
        rcases List.mem_append.1 hm with h | h
        · simp [hl m h]
        · simp only [List.mem_singleton] at h; simp [h]
      simp only [List.length_append, List.length_singleton] at h1
      have h2 := hg s.markCap (by omega)
      refine ⟨hnd, hfr', ?_, ?_, h.al⟩
      · simp only [Stream.pushMarker, List.length_append, List.length_singleton, if_pos hc]; omega
      · simp only [Stream.pushMarker, if_pos hc, h.al]; omega
  · rw [if_neg hc] at ho ⊢
    refine ⟨hnd, hfr', ?_, ?_, h.al⟩
    · simp only [Stream.pushMarker, List.length_append, List.length_singleton, if_neg hc]; omega
    · simp only [Stream.pushMarker, if_neg hc]; exact hcap

theorem MarkOk.step {M K : Nat} (h : MarkOk al M s) (hK : K ≤ M) (hg : ∀ k, k < K → al.growM k ≤ M) {o : Op S}
    {r : o.Resp} (hs : Stream.step o s = .ok (r, s')) (ho : s'.OwnedAtMost K) : MarkOk al M s' := by
  cases o with
  | save =>
    have : s' = s.save.2 := by rw [Out.ok.inj hs]
    subst this
    exact h.save hK hg ho
  | saveAt i =>
    simp only [Stream.step, Stream.saveAt] at hs
    obtain ⟨⟨b, s1⟩, h1, h2⟩ := Out.bind_eq_ok.1 hs
    cases h2
    have := (h.fewer (Stream.advanceTo_fewer h1)).save hK hg ho
    exact ⟨this.nodup, this.fresh, this.len, this.cap, this.al⟩
  | drop m => cases hs; exact ⟨h.nodup, h.fresh, h.len, h.cap, h.al⟩
  | restore m =>
    simp only [Stream.step] at hs
    cases hx : s.restore m with
    | ok x => rw [hx] at hs; cases hs; exact h.fewer (Stream.restore_fewer hx)
    | panic m => rw [hx] at hs; cases hs
    | oof => rw [hx] at hs; cases hs
    | stuck => rw [hx] at hs; cases hs
  | token => exact h.fewer (Stream.token_fewer hs)
  | tokenAt m =>
    simp only [Stream.step, Stream.tokenAt] at hs
    split at hs
    · exact h.fewer (Stream.token_fewer hs)
    · obtain ⟨st, -, h2⟩ := Out.bind_eq_ok.1 hs
      split at h2
      · obtain ⟨x, -, h4⟩ := Out.bind_eq_ok.1 h2
        cases h4; exact h
      · cases h2
  | index => cases hs; exact h
  | location => cases hs; exact h
  | locationAt m =>
    simp only [Stream.step] at hs
    cases hx : s.locationAt m with
    | ok x => rw [hx] at hs; cases hs; exact h
    | panic m => rw [hx] at hs; cases hs
    | oof => rw [hx] at hs; cases hs
    | stuck => rw [hx] at hs; cases hs
  | span =>
    simp only [Stream.step, Stream.span] at hs
    obtain ⟨⟨t, s1⟩, h1, h2⟩ := Out.bind_eq_ok.1 hs
    cases h2
    exact h.fewer (Stream.token_fewer h1)
  | spanningBackTo m =>
    simp only [Stream.step] at hs
    cases hx : s.spanningBackTo m with
    | ok x => rw [hx] at hs; cases hs; exact h
    | panic m => rw [hx] at hs; cases hs
    | oof => rw [hx] at hs; cases hs
    | stuck => rw [hx] at hs; cases hs
  | advance => exact h.fewer (Stream.advance_fewer hs)
  | advanceTo i => exact h.fewer (Stream.advanceTo_fewer hs)

end

theorem MarkOk.through {α : Type} {M K : Nat} (hK : K ≤ M) (hg : ∀ k, k < K → al.growM k ≤ M) :
    ∀ {p : Prog S α} {s : Stream S}, MarkOk al M s → p.Through (Stream.OwnedAtMost K) s → p.Through (MarkOk al M) s
  | .ret _, _, h, _ => h
  | .panic _, _, h, _ => h
  | .oof, _, h, _ => h
  | .op _ _, _, h, ht => ⟨h, fun r s' hs => MarkOk.through hK hg (h.step hK hg hs (ht.2 r s' hs).first) (ht.2 r s' hs)⟩

end PPC
