import Verif.PropsApi

/-!
# Locality: C36
-/

namespace PPC

variable {S : Sig} {N : Names S} {al al' : Alloc} {e e' : Env S} {s : Stream S} {D : Defs S N} {n : Nat}
  {ε : ErrTy S} {α : Type} {g : G S N ε α} {en : Bool} {r : Res α ε.E}

/-! ## Auxiliary lemmas -/

/-- The same start, and the same answers of the source before index `k`. -/
def SameBefore (e e' : Env S) (k : Nat) : Prop :=
  e'.start = e.start ∧ ∀ i, i < k → e'.source i = e.source i

theorem SameBefore.mono {k k' : Nat} (h : SameBefore e e' k) (hk : k' ≤ k) : SameBefore e e' k' :=
  ⟨h.1, fun i hi => h.2 i (by omega)⟩

theorem SameBefore.trackerAt {k : Nat} (h : SameBefore e e' k) : ∀ {i : Nat}, i ≤ k →
    e'.trackerAt i = e.trackerAt i := by
  intro i
  induction i with
  | zero => intro _; exact h.1
  | succ i ih =>
    intro hi
    unfold Env.trackerAt
    rw [h.2 i (by omega), ih (by omega)]

theorem SameBefore.locationAt {k i : Nat} (h : SameBefore e e' k) (hi : i ≤ k) :
    e'.locationAt i = e.locationAt i := by
  unfold Env.locationAt; rw [h.trackerAt hi]

theorem SameBefore.spanOf {k a b : Nat} (h : SameBefore e e' k) (ha : a ≤ k) (hb : b ≤ k) :
    e'.spanOf a b = e.spanOf a b := by
  unfold Env.spanOf; rw [h.trackerAt ha, h.trackerAt hb]

theorem SameBefore.next {k i : Nat} (h : SameBefore e e' k) (hi : i < k) : e'.next i = e.next i := by
  unfold Env.next; rw [h.2 i hi]

theorem SameBefore.sawEof {k : Nat} {c : Cursor} (h : SameBefore e e' k) (hc : c.hi ≤ k) :
    c.sawEof e' = c.sawEof e := by
  unfold Cursor.sawEof
  by_cases h0 : c.hi = 0
  · simp [h0]
  · rw [h.2 (c.hi - 1) (by omega)]

theorem SameBefore.limit {k : Nat} {c : Cursor} (h : SameBefore e e' k) (hc : c.hi ≤ k) :
    c.limit e' = c.limit e := by
  unfold Cursor.limit; rw [h.sawEof hc]

theorem Cursor.advanceBy_hi (e : Env S) : ∀ (k : Nat) (c : Cursor), c.hi ≤ (advanceBy e k c).2.hi
  | 0, _ => Nat.le_refl _
  | k + 1, c => by
    unfold advanceBy
    have h : c.hi ≤ c.look.hi := by rw [look_hi]; omega
    split
    · exact Nat.le_trans h (Cursor.advanceBy_hi e k { c.look with pos := c.pos + 1 })
    · exact h

theorem Cursor.advanceBy_local : ∀ (k : Nat) (c : Cursor),
    SameBefore e e' (advanceBy e k c).2.hi → advanceBy e' k c = advanceBy e k c
  | 0, _, _ => rfl
  | k + 1, c, h => by
    unfold advanceBy at h ⊢
    have hl : c.pos < c.look.hi := by rw [look_hi]; omega
    by_cases hs : (e.source c.pos).isSome = true
    · rw [if_pos hs] at h ⊢
      have h1 := Cursor.advanceBy_hi e k { c.look with pos := c.pos + 1 }
      have h2 : e'.source c.pos = e.source c.pos := h.2 c.pos (Nat.lt_of_lt_of_le hl h1)
      rw [h2, if_pos hs]
      exact Cursor.advanceBy_local k _ h
    · rw [if_neg hs] at h ⊢
      have h2 : e'.source c.pos = e.source c.pos := h.2 c.pos hl
      rw [h2, if_neg hs]

theorem Cursor.step_hi {o : Op S} {c c' : Cursor} {x : o.Resp} (h : Cursor.step e o c = .ok (x, c')) :
    c.hi ≤ c'.hi := by
  have hl : c.hi ≤ c.look.hi := by rw [look_hi]; omega
  cases o with
  | advanceTo i =>
    simp only [Cursor.step] at h
    split at h
    · cases h
    · split at h
      · cases h
      · simp only [Out.ok.injEq] at h
        have := Cursor.advanceBy_hi e (i - c.pos) c
        rw [h] at this
        exact this
  | save => simp only [Cursor.step, Out.ok.injEq] at h; cases h; exact Nat.le_refl _
  | saveAt i =>
    simp only [Cursor.step] at h
    split at h
    · cases h
    · split at h
      · cases h; exact Nat.le_refl _
      · cases h
  | _ =>
    simp only [Cursor.step] at h
    first
      | (cases h; first | exact Nat.le_refl _ | exact hl)
      | (split at h
         · first
             | (cases h; first | exact Nat.le_refl _ | exact hl)
             | (split at h
                · cases h; first | exact Nat.le_refl _ | exact hl
                · first
                    | (cases h; done)
                    | (split at h
                       · cases h; exact Nat.le_refl _
                       · cases h))
         · first
             | (cases h; done)
             | (cases h; exact hl))

theorem Cursor.step_local {o : Op S} {c c' : Cursor} {x : o.Resp} (hwf : c.WF e)
    (h : Cursor.step e o c = .ok (x, c')) (hs : SameBefore e e' c'.hi) :
    Cursor.step e' o c = .ok (x, c') := by
  have hhi := Cursor.step_hi h
  have hpos := hwf.posHi
  have hm : ∀ m, c.live m = true → m.index ≤ c.hi := fun m hl =>
    Nat.le_trans (hwf.liveOk m hl).1 (limit_le_hi e c)
  have hlook : c.pos < c.look.hi := by rw [look_hi]; omega
  rw [← h]
  cases o with
  | save => rfl
  | saveAt i => simp only [Cursor.step]; rw [hs.limit hhi]
  | drop m => rfl
  | restore m => rfl
  | token =>
    simp only [Cursor.step, Out.ok.injEq] at h ⊢
    cases h
    rw [hs.2 _ hlook]
  | tokenAt m =>
    simp only [Cursor.step] at h ⊢
    split
    · rename_i hl
      rw [if_pos hl] at h
      split
      · rename_i h1
        rw [if_pos h1] at h
        cases h
        rw [hs.2 _ hlook]
      · rename_i h1
        rw [if_neg h1] at h
        split
        · rename_i h2
          rw [if_pos h2] at h
          cases h
          rw [hs.2 _ h2]
        · rfl
    · rfl
  | index => rfl
  | location =>
    simp only [Cursor.step] at h ⊢
    rw [hs.locationAt (Nat.le_trans hpos hhi)]
  | locationAt m =>
    simp only [Cursor.step]
    by_cases hl : c.live m = true
    · rw [if_pos hl, if_pos hl, hs.locationAt (Nat.le_trans (hm m hl) hhi)]
    · rw [if_neg hl, if_neg hl]
  | span =>
    simp only [Cursor.step] at h ⊢
    cases h
    have h1 : e.next c.pos ≤ c.look.hi := by unfold Env.next; split <;> omega
    rw [hs.next hlook, hs.spanOf (Nat.le_of_lt hlook) h1]
  | spanningBackTo m =>
    simp only [Cursor.step]
    by_cases hl : c.live m = true
    · rw [if_pos hl, if_pos hl, hs.spanOf (Nat.le_trans (hm m hl) hhi) (Nat.le_trans hpos hhi)]
    · rw [if_neg hl, if_neg hl]
  | advance =>
    simp only [Cursor.step] at h ⊢
    have h1 : c'.hi = c.look.hi := by
      split at h <;> · cases h; rfl
    rw [hs.2 _ (by rw [h1]; exact hlook)]
  | advanceTo i =>
    simp only [Cursor.step] at h ⊢
    split at h
    · rename_i h1; cases h
    · rename_i h1
      rw [if_neg h1, if_neg h1, hs.sawEof hhi]
      split at h
      · cases h
      · rename_i h2
        rw [if_neg h2, if_neg h2]
        simp only [Out.ok.injEq] at h
        rw [Cursor.advanceBy_local _ _ (by rw [h]; exact hs)]

theorem Cursor.step_panic_local {o : Op S} {c : Cursor} {m : String} (e' : Env S)
    (h : Cursor.step e o c = .panic m) : Cursor.step e' o c = .panic m := by
  cases o with
  | saveAt i =>
    simp only [Cursor.step] at h ⊢
    split at h
    · rename_i h1; rw [if_pos h1]; exact h
    · split at h <;> cases h
  | tokenAt x =>
    simp only [Cursor.step] at h ⊢
    split at h
    · rename_i h1
      rw [if_pos h1]
      split at h
      · cases h
      · rename_i h2
        rw [if_neg h2]
        split at h
        · cases h
        · rename_i h3; rw [if_neg h3]; exact h
    · cases h
  | locationAt x =>
    simp only [Cursor.step] at h ⊢
    split at h
    · rename_i h1
      rw [if_pos h1]
      split at h
      · cases h
      · rename_i h3; rw [if_neg h3]; exact h
    · cases h
  | spanningBackTo x =>
    simp only [Cursor.step] at h ⊢
    split at h
    · rename_i h1
      rw [if_pos h1]
      split at h
      · cases h
      · rename_i h3; rw [if_neg h3]; exact h
    · cases h
  | advanceTo i =>
    simp only [Cursor.step] at h ⊢
    split at h
    · rename_i h1; rw [if_pos h1]; exact h
    · split at h <;> cases h
  | advance => simp only [Cursor.step] at h; split at h <;> cases h
  | drop m => simp only [Cursor.step] at h; split at h <;> cases h
  | restore m => simp only [Cursor.step] at h; split at h <;> cases h
  | _ => simp only [Cursor.step] at h; cases h

theorem Cursor.step_ne_oof {o : Op S} {c : Cursor} : Cursor.step e o c ≠ .oof := by
  intro h
  cases o <;> simp only [Cursor.step] at h <;>
    first
      | (cases h; done)
      | (split at h
         · first
             | (cases h; done)
             | (split at h
                · cases h
                · first
                    | (cases h; done)
                    | (split at h <;> cases h))
         · first
             | (cases h; done)
             | (split at h <;> cases h))

theorem Prog.run_hi {β : Type} (p : Prog S β) : ∀ {c c' : Cursor} {x : β},
    p.run (Cursor.step e) c = .ok (x, c') → c.hi ≤ c'.hi := by
  induction p with
  | ret a => intro c c' x h; cases h; exact Nat.le_refl _
  | panic m => intro c c' x h; cases h
  | oof => intro c c' x h; cases h
  | op o k ih =>
    intro c c' x h
    simp only [Prog.run] at h
    rw [Out.bind_eq_ok] at h
    obtain ⟨⟨y, c1⟩, h1, h2⟩ := h
    exact Nat.le_trans (Cursor.step_hi h1) (ih y h2)

/-- Runs depend on the tokens that were examined only. -/
theorem Prog.run_local {β : Type} (p : Prog S β) : ∀ {c c' : Cursor} {x : β}, c.WF e →
    p.run (Cursor.step e) c = .ok (x, c') → SameBefore e e' c'.hi →
    p.run (Cursor.step e') c = .ok (x, c') := by
  induction p with
  | ret a => intro c c' x _ h _; cases h; rfl
  | panic m => intro c c' x _ h; cases h
  | oof => intro c c' x _ h; cases h
  | op o k ih =>
    intro c c' x hwf h hs
    simp only [Prog.run] at h ⊢
    rw [Out.bind_eq_ok] at h
    obtain ⟨⟨y, c1⟩, h1, h2⟩ := h
    rw [Cursor.step_local hwf h1 (hs.mono (Prog.run_hi (k y) h2))]
    exact ih y (hwf.step o h1) h2 hs

/-- A run that panics or exceeds the bound did so after examining finitely many tokens. -/
theorem Prog.run_use {β : Type} (p : Prog S β) : ∀ {c : Cursor}, c.WF e →
    p.run (Cursor.step e) c ≠ .stuck →
    ∃ k, ∀ e', SameBefore e e' k → p.run (Cursor.step e') c = p.run (Cursor.step e) c := by
  induction p with
  | ret a => intro c _ _; exact ⟨0, fun _ _ => rfl⟩
  | panic m => intro c _ _; exact ⟨0, fun _ _ => rfl⟩
  | oof => intro c _ _; exact ⟨0, fun _ _ => rfl⟩
  | op o k ih =>
    intro c hwf hns
    simp only [Prog.run] at hns ⊢
    cases h1 : Cursor.step e o c with
    | ok x =>
      obtain ⟨y, c1⟩ := x
      rw [h1] at hns
      obtain ⟨k1, h2⟩ := ih y (hwf.step o h1) hns
      refine ⟨max k1 c1.hi, fun e' hs => ?_⟩
      rw [Cursor.step_local hwf h1 (hs.mono (Nat.le_max_right _ _))]
      exact h2 e' (hs.mono (Nat.le_max_left _ _))
    | panic m => exact ⟨0, fun e' _ => by rw [Cursor.step_panic_local e' h1]; rfl⟩
    | oof => exact (Cursor.step_ne_oof h1).elim
    | stuck => rw [h1] at hns; exact (hns rfl).elim

/-- The ideal run behind a parser run on a fresh stream. -/
theorem fresh_run (h : Parses D n g en (Stream.newWithLocation al e.source e.start) r s) :
    ∃ st c, (g.prog D n en).run (Cursor.step e) Cursor.init = .ok (r, c) ∧ Sim e st s c := by
  have h1 := (Sim.init e al).run (g.prog D n en)
  have h2 := G.prog_ref (e := e) D n g en Cursor.init (Cursor.WF.init e)
  have h' : (g.prog D n en).run Stream.step (Stream.newWithLocation al e.source e.start) = .ok (r, s) := h
  rw [h'] at h1
  unfold Ref at h2
  split at h2
  · rename_i a c' gg hp hq
    rw [hp] at h1
    obtain ⟨st, s', h3, h4⟩ := h1
    cases h3
    exact ⟨st, c', hp, h4⟩
  · rename_i hp _; rw [hp] at h1; cases h1
  · rename_i hp _; rw [hp] at h1; cases h1
  · exact h2.elim

/-! ## C36 -/

/-- C36: the result of a parse, where it ends and how much it reads are determined by the answers
the source has given (`s.pulled` of them, the last one possibly being the end of input): any other
source that gives the same answers so far, with any allocator, gives the same outcome. -/
theorem C36_locality {source source' : Nat → Option S.I} {start : S.L}
    (h : Parses D n g en (Stream.newWithLocation al source start) r s)
    (hs : ∀ i, i < s.pulled → source' i = source i) :
    ∃ s', Parses D n g en (Stream.newWithLocation al' source' start) r s' ∧ s'.index = s.index ∧
      s'.pulled = s.pulled := by
  obtain ⟨st, c, h1, h2⟩ := fresh_run (e := ⟨source, start⟩) h
  have h3 := Prog.run_local (e' := ⟨source', start⟩) _ (Cursor.WF.init _) h1
    ⟨rfl, fun i hi => hs i (by rw [h2.pulled]; exact hi)⟩
  have h4 := (Sim.init ⟨source', start⟩ al').run (g.prog D n en)
  rw [h3] at h4
  obtain ⟨st', s', h5, h6⟩ := h4
  exact ⟨s', h5, by rw [h6.pos, h2.pos], by rw [h6.pulled, h2.pulled]⟩

/-- C36 for `parse_with_recovery`: there is a number of answers of the source that determines the
result. -/
theorem C36_parse {source : Nat → Option S.I} {start : S.L}
    (h : parseWithRecovery (g.prog D n) al source start = .ok r) :
    ∃ k, ∀ source' : Nat → Option S.I, (∀ i, i < k → source' i = source i) →
      parseWithRecovery (g.prog D n) al' source' start = .ok r := by
  unfold parseWithRecovery at h
  rw [Out.bind_eq_ok] at h
  obtain ⟨⟨r', s⟩, h1, h2⟩ := h
  cases h2
  refine ⟨s.pulled, fun source' hs => ?_⟩
  obtain ⟨s', h3, -⟩ := C36_locality (al' := al') h1 hs
  unfold parseWithRecovery
  rw [show (g.prog D n true).run Stream.step (Stream.newWithLocation al' source' start) =
    .ok (_, s') from h3]
  rfl

/-- C36, for panics: a panic is determined by finitely many answers of the source too. -/
theorem C36_panic {source : Nat → Option S.I} {start : S.L} {m : String}
    (h : Panics D n g en (Stream.newWithLocation al source start) m) :
    ∃ k, ∀ source' : Nat → Option S.I, (∀ i, i < k → source' i = source i) →
      Panics D n g en (Stream.newWithLocation al' source' start) m := by
  have h' : (g.prog D n en).run Stream.step (Stream.newWithLocation al source start) = .panic m := h
  have h1 := (Sim.init ⟨source, start⟩ al).run (g.prog D n en)
  have h2 := G.prog_ref (e := ⟨source, start⟩) D n g en Cursor.init (Cursor.WF.init _)
  rw [h'] at h1
  have h3 : (g.prog D n en).run (Cursor.step ⟨source, start⟩) Cursor.init = .panic m := by
    unfold Ref at h2
    split at h2
    · rename_i hp _; rw [hp] at h1; obtain ⟨_, _, h4, _⟩ := h1; cases h4
    · rename_i hp _; rw [hp] at h1; cases h1; exact hp
    · rename_i hp _; rw [hp] at h1; cases h1
    · exact h2.elim
  obtain ⟨k, h4⟩ := Prog.run_use (g.prog D n en) (Cursor.WF.init ⟨source, start⟩) (by rw [h3]; simp)
  refine ⟨k, fun source' hs => ?_⟩
  have h5 := (Sim.init ⟨source', start⟩ al').run (g.prog D n en)
  rw [h4 ⟨source', start⟩ ⟨rfl, hs⟩, h3] at h5
  exact h5

/-- A concrete case: `just(1).then(just(2))` on `1 2 3` has read two tokens, so it does the same
on the infinite input `1 2 0 0 0 …`. -/
example : ∃ s s', Parses exNoDefs 20 (.then_ (.just (S := exSig) 1) (.just (S := exSig) 2) : ExG (Nat × Nat))
      true (exStart [1, 2, 3]) (.success (1, 2)) s ∧ s.pulled = 2 ∧
    Parses exNoDefs 20 (.then_ (.just (S := exSig) 1) (.just (S := exSig) 2) : ExG (Nat × Nat)) true
      (Stream.newWithLocation (S := exSig) exAlloc
        (fun i => if i = 0 then some 1 else if i = 1 then some 2 else some 0) ())
      (.success (1, 2)) s' ∧ s'.pulled = 2 := by
  have h0 : ∃ s, Parses exNoDefs 20
      (.then_ (.just (S := exSig) 1) (.just (S := exSig) 2) : ExG (Nat × Nat)) true (exStart [1, 2, 3])
      (.success (1, 2)) s ∧ s.pulled = 2 := by
    have h1 : ((((.then_ (.just (S := exSig) 1) (.just (S := exSig) 2) : ExG (Nat × Nat)).prog
        exNoDefs 20 true).run Stream.step (exStart [1, 2, 3])).map fun x => (x.1, x.2.pulled)) =
        .ok (.success (1, 2), 2) := by decide +kernel
    cases h2 : ((.then_ (.just (S := exSig) 1) (.just (S := exSig) 2) : ExG (Nat × Nat)).prog
        exNoDefs 20 true).run Stream.step (exStart [1, 2, 3]) with
    | ok x =>
      rw [h2] at h1
      obtain ⟨r, s⟩ := x
      simp only [Out.map, Out.ok.injEq, Prod.mk.injEq] at h1
      obtain ⟨rfl, h3⟩ := h1
      exact ⟨s, h2, h3⟩
    | _ => rw [h2] at h1; cases h1
  obtain ⟨s, h1, h2⟩ := h0
  obtain ⟨s', h3, -, h4⟩ := C36_locality (S := exSig) (al' := exAlloc)
    (source' := fun i => if i = 0 then some 1 else if i = 1 then some 2 else some 0) h1 (by
      intro i hi
      rw [h2] at hi
      match i with
      | 0 | 1 => rfl)
  exact ⟨s, s', h1, h2, h3, by rw [h4, h2]⟩

end PPC
