import Verif.SemRefine

/-!
# The code computes the positional semantics: repetition, recovery, grammars
-/

namespace PPC

variable {S : Sig} {e : Env S} {α β γ δ E X : Type}

/-- Dropping the state saved in between. -/
theorem Ext.dropSaved {c0 c1 c : Cursor} (h0 : Ext e c0 c1) (h1 : Ext e (c1.saveIdx c1.pos).2 c) :
    Ext e c0 { c with live := fun x => x ≠ c1.mk' c1.pos && c.live x } := by
  refine h0.trans ⟨h1.wf.dropWF _, h1.pos, h1.hi, ?_, ?_⟩
  · have := h1.ids; simp at this; show c1.nextId ≤ c.nextId; omega
  · funext x
    show (decide (x ≠ c1.mk' c1.pos) && c.live x) = c1.live x
    rw [h1.live, Cursor.saveIdx_live]
    by_cases h2 : x = c1.mk' c1.pos
    · subst h2; simp [h0.wf.fresh]
    · simp [h2]

/-- The current state of an iteration: `before` was saved at some earlier point of
it, if at all. -/
def ExtB (e : Env S) (c0 c : Cursor) : Option SavedState → Prop
  | none => Ext e c0 c
  | some b => ∃ c1, Ext e c0 c1 ∧ b = c1.mk' c1.pos ∧ Ext e (c1.saveIdx c1.pos).2 c

theorem ExtB.facts {c0 c : Cursor} {b : Option SavedState} (h : ExtB e c0 c b) :
    c.WF e ∧ c0.pos ≤ c.pos ∧ c0.hi ≤ c.hi ∧ (∀ m, c0.live m = true → c.live m = true) := by
  cases b with
  | none => exact ⟨h.wf, h.pos, h.hi, fun m hm => by rw [h.live]; exact hm⟩
  | some b =>
    obtain ⟨c1, h1, rfl, h2⟩ := h
    refine ⟨h2.wf, Nat.le_trans h1.pos h2.pos, Nat.le_trans h1.hi h2.hi, ?_⟩
    intro m hm
    rw [h2.live, Cursor.saveIdx_live, h1.live, hm]; simp

theorem ExtB.step {c0 c c' : Cursor} {b : Option SavedState} (h : ExtB e c0 c b)
    (h2 : Ext e c c') : ExtB e c0 c' b := by
  cases b with
  | none => exact Ext.trans h h2
  | some b =>
    obtain ⟨c1, h1, rfl, h3⟩ := h
    exact ⟨c1, h1, rfl, h3.trans h2⟩

theorem ExtB.setPos {c0 c : Cursor} {b : Option SavedState} (h : ExtB e c0 c b) {p : Nat}
    (hp : ∀ m, b = some m → m.index ≤ p) (h0 : c0.pos ≤ p) (hl : p ≤ c.limit e) :
    ExtB e c0 { c with pos := p } b := by
  cases b with
  | none => exact Ext.setPos h h0 hl
  | some b =>
    obtain ⟨c1, h1, rfl, h3⟩ := h
    exact ⟨c1, h1, rfl, h3.setPos (hp _ rfl) hl⟩

/-- Dropping `before_separator`, possibly after moving back to `p`. -/
theorem dropOpt_ref {c0 c : Cursor} {b : Option SavedState} (h : ExtB e c0 c b) {p : Nat}
    (h0 : c0.pos ≤ p) (hl : p ≤ c.limit e) {k : Unit → Prog S α} {out : Out γ}
    {Q : α → Cursor → γ → Prop}
    (hk : ∀ c', Ext e c0 c' → c'.pos = p → c'.hi = c.hi → Ref e (k ()) c' out Q) :
    Ref e ((dropOpt b).bind k) { c with pos := p } out Q := by
  cases b with
  | none => exact hk _ (Ext.setPos h h0 hl) rfl rfl
  | some b =>
    obtain ⟨c1, h1, rfl, h3⟩ := h
    unfold dropOpt
    prog
    refine Ref.drop (m := c1.mk' c1.pos) ?_ ?_
    · exact h3.savedLive
    refine hk _ ?_ rfl rfl
    have := h1.dropSaved h3
    exact ⟨this.wf.setPos hl, h0, this.hi, this.ids, this.live⟩

/-- Post-condition inside the repetition started at `c0`. -/
abbrev RPost (e : Env S) (c0 : Cursor) (r : Res α E) (c' : Cursor) (g : Res α E × Nat) : Prop :=
  Ext e c0 c' ∧ PVal c0.pos r c'.pos (c'.limit e) g

theorem repeatItem_ref {item : Parser S E α} {q : PSem E α} (hi : PRef e item q) (cfg : RepCfg)
    (en : Bool) {c0 : Cursor} {m : SavedState} (hm : c0.live m = true) (hc : c0.pos = m.index)
    {again : List α → Option (List E) → Prog S (Res (List α) E)}
    {againS : List α → Option (List E) → Nat → Out (Res (List α) E × Nat)}
    (hag : ∀ c out r, Ext e c0 c → Ref e (again out r) c (againS out r c.pos) (RPost e c0))
    (out : List α) (r : Option (List E)) (before : Option SavedState) {c : Cursor}
    (hx : ExtB e c0 c before) :
    Ref e (repeatItem cfg item en m again out r before) c
      (repItemSem cfg q en m.index againS out r (before.map (·.index)) c.pos) (RPost e c0) := by
  obtain ⟨hwf, hpos, hhi, hlive⟩ := hx.facts
  unfold repeatItem repItemSem
  simp only [Prog.bind_eq]
  split
  · have := dropOpt_ref (Q := RPost e c0) (k := fun _ => finishRec en out r)
      (out := finishSem en out r c.pos) hx hpos hwf.posLe (by
        intro c' h1 h2 _
        rw [← h2]
        exact finishRec_ref en out r h1)
    exact this
  · refine Ref.bind (hi _ c hwf) ?_
    rintro r2 c2 ⟨r2', j2⟩ ⟨hx2, hv2, hf2⟩
    cases hv2
    have hx3 := hx.step hx2
    obtain ⟨hwf3, hpos3, hhi3, hlive3⟩ := hx3.facts
    cases r2 with
    | success b =>
      exact dropOpt_ref (p := c2.pos) hx3 hpos3 hwf3.posLe (by
        intro c' h1 h2 _; simp only; rw [← h2]; exact hag _ _ _ h1)
    | recovered b es =>
      exact dropOpt_ref (p := c2.pos) hx3 hpos3 hwf3.posLe (by
        intro c' h1 h2 _; simp only; rw [← h2]; exact hag _ _ _ h1)
    | failed i es =>
      have hi2 := hf2 _ _ rfl
      simp only
      split
      · cases before with
        | none => exact Ref.ret ⟨hx3, PVal.success⟩
        | some b =>
          obtain ⟨c1, h1, rfl, h3⟩ := hx3
          have hb : ExtB e c0 c2 (some (c1.mk' c1.pos)) := ⟨c1, h1, rfl, h3⟩
          cases htr : cfg.allowTrailing
          · simp only [Bool.not_false, if_true, Option.map_some, Bool.false_eq_true, if_false]
            prog
            apply Ref.restore (m := c1.mk' c1.pos) h3.savedLive
            refine dropOpt_ref (p := c1.pos) hb h1.pos
              (Nat.le_trans h3.pos h3.wf.posLe) (k := fun _ => Prog.ret (Res.success out)) ?_
            intro c' h4 h5 _
            refine Ref.ret ⟨h4, ?_⟩
            rw [h5]; exact PVal.success
          · simp only [Bool.not_true, Bool.false_eq_true, if_false, Option.map_some, if_true]
            prog
            refine dropOpt_ref (p := c2.pos) hb hpos3 hwf3.posLe
              (k := fun _ => Prog.ret (Res.success out)) ?_
            intro c' h4 h5 _
            refine Ref.ret ⟨h4, ?_⟩
            rw [h5]; exact PVal.success
      · prog
        apply Ref.restore (m := m) (hlive3 m hm)
        have hml := (hwf3.liveOk m (hlive3 m hm)).1
        refine dropOpt_ref (p := m.index) hx3 (Nat.le_of_eq hc) hml
          (k := fun _ => Prog.ret (Res.failed i es)) ?_
        intro c' h4 h5 h6
        refine Ref.ret ⟨h4, ?_⟩
        rw [h5, Cursor.limit_congr e h6]
        exact PVal.failed (by omega) hi2.2

theorem PRef.repeatLoop {item : Parser S E α} {q : PSem E α} (hi : PRef e item q) (cfg : RepCfg)
    {sep : Option (Parser S E β)} {qsep : Option (PSem E β)}
    (hs : match sep, qsep with
      | none, none => True
      | some a, some b => PRef e a b
      | _, _ => False)
    (en : Bool) {c0 : Cursor} {m : SavedState} (hm : c0.live m = true) (hc : c0.pos = m.index) :
    ∀ (n : Nat) (c : Cursor) (out : List α) (r : Option (List E)), Ext e c0 c →
      Ref e (repeatLoop cfg item sep en m n out r) c
        (repLoopSem cfg q qsep en m.index n out r c.pos) (RPost e c0)
  | 0, _, _, _, _ => Ref.oof
  | n + 1, c, out, r, hx => by
    have hag := PRef.repeatLoop hi cfg hs en hm hc n
    unfold PPC.repeatLoop repLoopSem
    split
    · exact finishRec_ref _ _ _ hx
    · match sep, qsep, hs with
      | none, none, _ =>
        simp only
        exact repeatItem_ref hi cfg en hm hc hag out r none hx
      | some sep, some qs, hs =>
        cases hcond : (!out.isEmpty || cfg.allowLeading)
        · simp only
          exact repeatItem_ref hi cfg en hm hc hag out r none hx
        · simp only
          prog
          apply Ref.save
          refine Ref.bind (hs _ _ (hx.wf.saveIdxWF hx.wf.posLe)) ?_
          rintro r2 c2 ⟨r2', j2⟩ ⟨hx2, hv2, hf2⟩
          cases hv2
          have hb : ExtB e c0 c2 (some (c.mk' c.pos)) := ⟨c, hx, rfl, hx2⟩
          obtain ⟨hwf3, hpos3, hhi3, hlive3⟩ := hb.facts
          cases r2 with
          | success b => exact repeatItem_ref hi cfg en hm hc hag out r _ hb
          | recovered b es => exact repeatItem_ref hi cfg en hm hc hag out _ _ hb
          | failed i es =>
            have hi2 := hf2 _ _ rfl
            have hpos := hx.pos
            simp only
            split
            · exact repeatItem_ref hi cfg en hm hc hag out r _ hb
            · split
              · refine dropOpt_ref (p := c2.pos) hb hpos3 hwf3.posLe
                  (k := fun _ => Prog.ret (Res.success out)) ?_
                intro c' h4 h5 _
                refine Ref.ret ⟨h4, ?_⟩
                rw [h5]; exact PVal.success
              · apply Ref.restore (m := m) (hlive3 m hm)
                have hml := (hwf3.liveOk m (hlive3 m hm)).1
                refine dropOpt_ref (p := m.index) hb (Nat.le_of_eq hc) hml
                  (k := fun _ => Prog.ret (Res.failed i es)) ?_
                intro c' h4 h5 h6
                refine Ref.ret ⟨h4, ?_⟩
                rw [h5, Cursor.limit_congr e h6]
                simp only [Cursor.saveIdx_pos] at hi2
                exact PVal.failed (by omega) hi2.2

theorem PRef.repeatP {item : Parser S E α} {q : PSem E α} (hi : PRef e item q) (cfg : RepCfg)
    {sep : Option (Parser S E β)} {qsep : Option (PSem E β)}
    (hs : match sep, qsep with
      | none, none => True
      | some a, some b => PRef e a b
      | _, _ => False) (n : Nat) :
    PRef e (repeatP n cfg item sep) (qRepeat n cfg q qsep) := by
  intro en c hwf
  apply Ref.withSave hwf (R := PVal c.pos)
  exact PRef.repeatLoop hi cfg hs en (c0 := (c.saveIdx c.pos).2) (m := c.mk' c.pos) (by simp) rfl n
    (c.saveIdx c.pos).2 [] none (Ext.refl (hwf.saveIdxWF hwf.posLe))

/-! ## Strategies -/

/-- Situation in which a strategy is run: it owns `started` and `failed`. -/
structure SPre (e : Env S) (c : Cursor) (st fa : SavedState) : Prop where
  wf : c.WF e
  liveSt : c.live st = true
  liveFa : c.live fa = true
  ne : st.id ≠ fa.id
  stPos : st.index ≤ c.pos
  stFa : st.index ≤ fa.index

/-- Contract of a strategy: `failed` may have been replaced. -/
structure SPost (e : Env S) (c : Cursor) (st fa : SavedState) (r : RecRes α E) (c' : Cursor)
    (g : (Option α × Nat × List E) × Nat) : Prop where
  val : g = ((r.1, r.2.1.index, r.2.2), c'.pos)
  wf : c'.WF e
  hi : c.hi ≤ c'.hi
  ids : c.nextId ≤ c'.nextId
  stPos : st.index ≤ c'.pos
  stFa : st.index ≤ r.2.1.index
  fresh : r.2.1 = fa ∨ c.nextId ≤ r.2.1.id
  live : c'.live = fun x => x = r.2.1 || (x ≠ fa && c.live x)

/-- `s` computes `q`. -/
def SRef (e : Env S) (s : Strat S E α) (q : SSem E α) : Prop :=
  ∀ p qp, PRef e p qp → ∀ c st fa es, SPre e c st fa →
    Ref e (s p st fa es) c (q qp st.index fa.index es c.pos) (SPost e c st fa)

theorem SPost.pre {c c' : Cursor} {st fa : SavedState} {r : RecRes α E}
    {g : (Option α × Nat × List E) × Nat} (h : SPre e c st fa) (h2 : SPost e c st fa r c' g) :
    SPre e c' st r.2.1 := by
  have h3 := (h.wf.liveOk st h.liveSt).2
  have hne : st ≠ fa := fun hh => h.ne (by rw [hh])
  refine ⟨h2.wf, ?_, ?_, ?_, h2.stPos, h2.stFa⟩
  · rw [h2.live]; simp [hne, h.liveSt]
  · rw [h2.live]; simp
  · rcases h2.fresh with h4 | h4
    · rw [h4]; exact h.ne
    · omega

theorem SPost.trans {c c' c'' : Cursor} {st fa : SavedState} {r r2 : RecRes α E}
    {g g2 : (Option α × Nat × List E) × Nat} (h : SPre e c st fa) (h1 : SPost e c st fa r c' g)
    (h2 : SPost e c' st r.2.1 r2 c'' g2) : SPost e c st fa r2 c'' g2 := by
  refine ⟨h2.val, h2.wf, Nat.le_trans h1.hi h2.hi, Nat.le_trans h1.ids h2.ids, h2.stPos, h2.stFa,
    ?_, ?_⟩
  · have := h1.ids
    rcases h2.fresh with h4 | h4
    · rw [h4]; exact h1.fresh
    · right; omega
  · rw [h2.live, h1.live]
    funext x
    by_cases h5 : x = r2.2.1
    · simp [h5]
    · by_cases h6 : x = r.2.1
      · subst h6
        simp only [h5, decide_false, Bool.false_or, ne_eq, not_true_eq_false, Bool.false_and]
        rcases h1.fresh with h7 | h7
        · simp [h7]
        · cases hl : c.live r.2.1
          · simp
          · have := (h.wf.liveOk _ hl).2; omega
      · simp [h5, h6]

/-- A step of a strategy that keeps `failed` and the saved states. -/
theorem SPost.keep {c c' : Cursor} {st fa : SavedState} (h : SPre e c st fa) (hwf : c'.WF e)
    (hhi : c.hi ≤ c'.hi) (hids : c.nextId ≤ c'.nextId) (hpos : st.index ≤ c'.pos)
    (hl : c'.live = c.live) {o : Option α} {es : List E} :
    SPost e c st fa (o, fa, es) c' ((o, fa.index, es), c'.pos) := by
  refine ⟨rfl, hwf, hhi, hids, hpos, h.stFa, .inl rfl, ?_⟩
  rw [hl]
  funext x
  by_cases h5 : x = fa
  · subst h5; simp [h.liveFa]
  · simp [h5]

theorem SPost.keepExt {c c' : Cursor} {st fa : SavedState} (h : SPre e c st fa)
    (hx : Ext e c c') {o : Option α} {es : List E} :
    SPost e c st fa (o, fa, es) c' ((o, fa.index, es), c'.pos) :=
  .keep h hx.wf hx.hi hx.ids (Nat.le_trans h.stPos hx.pos) hx.live

theorem SRef.orElse {s t : Strat S E α} {qs qt : SSem E α} (hs : SRef e s qs) (ht : SRef e t qt) :
    SRef e (s.orElse t) (qs.orElse qt) := by
  intro p qp hp c st fa es hpre
  refine Ref.bind (hs p qp hp c st fa es hpre) ?_
  rintro ⟨o, fa', es'⟩ c' g h1
  have hv := h1.val
  subst hv
  cases o with
  | some o => exact Ref.ret h1
  | none =>
    simp only
    refine Ref.mono (ht p qp hp c' st fa' es' (h1.pre hpre)) ?_
    intro r2 c2 g2 h2
    exact SPost.trans hpre h1 h2

theorem sAttemptTo_ref : SRef e (sAttemptTo : Strat S E α) (fun _ _ fa es i => giveUp fa es i) := by
  intro p qp hp c st fa es hpre
  exact Ref.ret (SPost.keepExt hpre (Ext.refl hpre.wf))

theorem Env.next_some {c : Cursor} (h : (e.source c.pos).isSome = true) : e.next c.pos = c.pos + 1 := by
  simp [Env.next, h]

theorem Env.next_none {c : Cursor} (h : (e.source c.pos).isSome = false) : e.next c.pos = c.pos := by
  simp [Env.next, h]

/-- `advance()` with its answer ignored. -/
theorem Ref.skip {c : Cursor} (hwf : c.WF e) {k : Bool → Prog S α} {out : Out γ}
    {Q : α → Cursor → γ → Prop}
    (h : ∀ b c', Ext e c c' → c'.pos = e.next c.pos → Ref e (k b) c' out Q) :
    Ref e (.op .advance k) c out Q := by
  cases hs : (e.source c.pos).isSome
  · exact Ref.advance_none hs (h _ _ (Ext.look hwf) (by rw [Env.next_none hs]; rfl))
  · exact Ref.advance_some hs (h _ _ (Ext.advance hwf hs) (by rw [Env.next_some hs]))

theorem SRef.restart {s : Strat S E α} {q : SSem E α} (h : SRef e s q) :
    SRef e (sRestart s) (q.orElse fun _ st fa es _ => giveUp fa es st) := by
  refine h.orElse ?_
  intro p qp hp c st fa es hpre
  apply Ref.restore hpre.liveSt
  exact Ref.ret (SPost.keep (c' := { c with pos := st.index }) hpre
    (hpre.wf.setPos (hpre.wf.liveOk _ hpre.liveSt).1) (Nat.le_refl _) (Nat.le_refl _)
    (Nat.le_refl _) rfl)

theorem SRef.seekToFailed {s : Strat S E α} {q : SSem E α} (h : SRef e s q) :
    SRef e (sSeekToFailed s) (q.orElse fun _ _ fa es _ => giveUp fa es fa) := by
  refine h.orElse ?_
  intro p qp hp c st fa es hpre
  apply Ref.restore hpre.liveFa
  exact Ref.ret (SPost.keep (c' := { c with pos := fa.index }) hpre
    (hpre.wf.setPos (hpre.wf.liveOk _ hpre.liveFa).1) (Nat.le_refl _) (Nat.le_refl _)
    hpre.stFa rfl)

theorem SRef.skip {s : Strat S E α} {q : SSem E α} (h : SRef e s q) :
    SRef e (sSkip s) (q.orElse fun _ _ fa es i => giveUp fa es (e.next i)) := by
  refine h.orElse ?_
  intro p qp hp c st fa es hpre
  apply Ref.skip hpre.wf
  intro b c' hx hn
  show Ref e _ _ (giveUp fa.index es (e.next c.pos)) _
  rw [← hn]
  exact Ref.ret (SPost.keepExt hpre hx)

theorem tokenIs_ref {p : S.I → Bool} {d : Bool} {c : Cursor} (hwf : c.WF e)
    {k : Bool → Prog S α} {out : Out γ} {Q : α → Cursor → γ → Prop}
    (h : ∀ c', Ext e c c' → c'.pos = c.pos → Ref e (k (e.tokIs p d c.pos)) c' out Q) :
    Ref e ((tokenIs p d).bind k) c out Q := by
  unfold tokenIs
  prog
  apply Ref.token
  exact h _ (Ext.look hwf) rfl

theorem Env.tokIs_false_some {p : S.I → Bool} {i : Nat} (h : e.tokIs p false i = true) :
    (e.source i).isSome = true := by
  unfold Env.tokIs at h; cases hs : e.source i <;> simp_all

theorem Env.tokIs_true_some {p : S.I → Bool} {i : Nat} (h : e.tokIs p true i = false) :
    (e.source i).isSome = true := by
  unfold Env.tokIs at h; cases hs : e.source i <;> simp_all

theorem SRef.skipIf {s : Strat S E α} {q : SSem E α} (h : SRef e s q) (pr : S.I → Bool) :
    SRef e (sSkipIf s pr) (q.orElse fun _ _ fa es i =>
      giveUp fa es (if e.tokIs pr false i then i + 1 else i)) := by
  refine h.orElse ?_
  intro p qp hp c st fa es hpre
  apply tokenIs_ref hpre.wf
  intro c' hx hpos
  show Ref e _ _ (giveUp fa.index es (if e.tokIs pr false c.pos then c.pos + 1 else c.pos)) _
  cases ht : e.tokIs pr false c.pos
  · simp only [Bool.false_eq_true, if_false]
    rw [← hpos]
    exact Ref.ret (SPost.keepExt hpre hx)
  · simp only [if_true]
    have hs : (e.source c'.pos).isSome = true := by rw [hpos]; exact Env.tokIs_false_some ht
    apply Ref.advance_some hs
    rw [← hpos]
    exact Ref.ret (SPost.keepExt hpre (hx.trans (Ext.advance hx.wf hs)))

theorem findLoop_ref (pr : S.I → Bool) : ∀ (n : Nat) {c0 c : Cursor}, Ext e c0 c →
    Ref e (findLoop pr n) c (findSem e pr n c.pos) fun _ c' g => Ext e c0 c' ∧ g = c'.pos
  | 0, _, _, _ => Ref.oof
  | n + 1, c0, c, hx => by
    unfold findLoop findSem
    prog
    apply tokenIs_ref hx.wf
    intro c' hx2 hpos
    cases ht : e.tokIs pr true c.pos
    · simp only [Bool.false_eq_true, if_false]
      apply Ref.skip hx2.wf
      intro b c2 hx3 hn
      rw [hpos] at hn
      rw [← hn]
      exact findLoop_ref pr n ((hx.trans hx2).trans hx3)
    · simp only [if_true]
      exact Ref.ret ⟨hx.trans hx2, hpos.symm⟩

theorem SRef.find {s : Strat S E α} {q : SSem E α} (h : SRef e s q) (pr : S.I → Bool) (n : Nat) :
    SRef e (sFind n s pr) (q.orElse fun _ _ fa es i => do
      let j ← findSem e pr n i
      giveUp fa es j) := by
  refine h.orElse ?_
  intro p qp hp c st fa es hpre
  refine Ref.bind (findLoop_ref pr n (Ext.refl hpre.wf)) ?_
  rintro _ c' g ⟨hx, rfl⟩
  exact Ref.ret (SPost.keepExt hpre hx)

theorem scanLoop_ref (sc : Scanner S E) : ∀ (n : Nat) (x : sc.σ) (es : List E) {c0 c : Cursor},
    Ext e c0 c → Ref e (scanLoop sc n x es) c (scanSem e sc n x es c.pos)
      fun r c' g => Ext e c0 c' ∧ g = (r, c'.pos)
  | 0, _, _, _, _, _ => Ref.oof
  | n + 1, x, es, c0, c, hx => by
    unfold scanLoop scanSem
    prog
    apply Ref.token
    cases hs : e.source c.pos with
    | none =>
      simp only
      apply Ref.location
      exact Ref.ret ⟨hx.look', rfl⟩
    | some t =>
      simp only
      apply Ref.span
      simp only [Cursor.look_pos]
      generalize sc.scan t (e.here c.pos) x es = res
      match res with
      | .error m => exact Ref.panic
      | .ok (true, _, es') => exact Ref.ret ⟨hx.look'.look', rfl⟩
      | .ok (false, x', es') =>
        simp only
        have h1 := hx.look'.look'
        apply Ref.skip h1.wf
        intro b c2 hx3 hn
        have : c2.pos = c.pos + 1 := by
          rw [hn]; simp [Env.next, hs]
        rw [← this]
        exact scanLoop_ref sc n x' es' (h1.trans hx3)

theorem SRef.scan {s : Strat S E α} {q : SSem E α} (h : SRef e s q) (sc : Scanner S E) (n : Nat) :
    SRef e (sScan n s sc) (q.orElse fun _ _ fa es i => do
      let (es', j) ← scanSem e sc n sc.fresh es i
      giveUp fa es' j) := by
  refine h.orElse ?_
  intro p qp hp c st fa es hpre
  refine Ref.bind (scanLoop_ref sc n sc.fresh es (Ext.refl hpre.wf)) ?_
  rintro r c' g ⟨hx, rfl⟩
  exact Ref.ret (SPost.keepExt hpre hx)

theorem SRef.maybe {s t : Strat S E α} {q qt : SSem E α} (h : SRef e s q) (ht : SRef e t qt) :
    SRef e (sMaybe s t) (q.orElse fun q st fa es i => do
      let (r, j) ← qt q st fa es i
      .ok (r, if r.1.isSome then j else i)) := by
  refine h.orElse ?_
  intro p qp hp c st fa es hpre
  unfold Prog.attempt Prog.withSave
  prog
  apply Ref.save
  rw [Prog.bind_assoc, Prog.bind_assoc]
  have hst := hpre.wf.liveOk _ hpre.liveSt
  have hfa := hpre.wf.liveOk _ hpre.liveFa
  have hpre' : SPre e (c.saveIdx c.pos).2 st fa :=
    ⟨hpre.wf.saveIdxWF hpre.wf.posLe, by rw [Cursor.saveIdx_live, hpre.liveSt]; simp,
      by rw [Cursor.saveIdx_live, hpre.liveFa]; simp, hpre.ne, hpre.stPos, hpre.stFa⟩
  refine Ref.bind (ht p qp hp _ st fa es hpre') ?_
  rintro ⟨o, fa', es'⟩ c' g h1
  have hv := h1.val
  subst hv
  have hfa' : fa' ≠ c.mk' c.pos := by
    intro hh
    rcases h1.fresh with h2 | h2
    · simp only at h2
      rw [h2] at hh
      rw [hh] at hfa
      simp at hfa
    · simp only [hh, Cursor.saveIdx_nextId, Cursor.mk'_id] at h2
      omega
  have hfane : fa ≠ c.mk' c.pos := by
    intro hh; rw [hh] at hfa; simp at hfa
  have hml : c'.live (c.mk' c.pos) = true := by
    rw [h1.live]
    simp [hfane.symm, Cursor.saveIdx_live]
  have hids := h1.ids
  simp only [Cursor.saveIdx_nextId] at hids
  have hlive : (fun x => decide (x ≠ c.mk' c.pos) && c'.live x) =
      fun x => decide (x = fa') || (decide (x ≠ fa) && c.live x) := by
    funext x
    rw [h1.live]
    by_cases h5 : x = c.mk' c.pos
    · subst h5
      simp [hfa'.symm, hpre.wf.fresh]
    · simp [h5, Cursor.saveIdx_live]
  have hfresh : fa' = fa ∨ c.nextId ≤ fa'.id := by
    rcases h1.fresh with h2 | h2
    · exact .inl h2
    · right; simp only [Cursor.saveIdx_nextId] at h2; omega
  cases o with
  | some o =>
    simp only [Option.isSome, Prog.ret_bind, if_true]
    apply Ref.drop hml
    exact Ref.ret ⟨rfl, h1.wf.dropWF _, h1.hi, by show c.nextId ≤ c'.nextId; omega, h1.stPos, h1.stFa,
      hfresh, hlive⟩
  | none =>
    simp only [Option.isSome, Prog.ret_bind, Bool.false_eq_true, if_false, Prog.op_bind]
    apply Ref.restore hml
    refine Ref.drop (m := c.mk' c.pos) ?_ ?_
    · exact hml
    exact Ref.ret ⟨rfl, (h1.wf.setPos (h1.wf.liveOk _ hml).1).dropWF _, h1.hi,
      by show c.nextId ≤ c'.nextId; omega, hpre.stPos, h1.stFa, hfresh, hlive⟩

theorem whileNotLoop_ref {t : Strat S E α} {qt : SSem E α} (ht : SRef e t qt) (pr : S.I → Bool)
    {p : Parser S E α} {qp : PSem E α} (hp : PRef e p qp) (st : SavedState) :
    ∀ (n : Nat) (c : Cursor) (fa : SavedState) (es : List E), SPre e c st fa →
      Ref e (whileNotLoop pr t p st n fa es) c
        (whileNotSem e pr qt qp st.index n fa.index es c.pos) (SPost e c st fa)
  | 0, _, _, _, _ => Ref.oof
  | n + 1, c, fa, es, hpre => by
    unfold whileNotLoop whileNotSem
    prog
    apply tokenIs_ref hpre.wf
    intro c' hx hpos
    cases htk : e.tokIs pr true c.pos
    · simp only [Bool.false_eq_true, if_false]
      have hkeep : SPost e c st fa ((none : Option α), fa, es) c' ((none, fa.index, es), c'.pos) :=
        SPost.keepExt hpre hx
      have hpre1 : SPre e c' st fa := hkeep.pre hpre
      have h2 := ht p qp hp c' st fa es hpre1
      rw [hpos] at h2
      refine Ref.bind h2 ?_
      rintro ⟨o, fa', es'⟩ c2 g h3
      have hv := h3.val
      subst hv
      have h3' := SPost.trans hpre hkeep h3
      cases o with
      | some o => exact Ref.ret h3'
      | none =>
        simp only
        have hpre2 := h3'.pre hpre
        apply Ref.skip h3.wf
        intro b c3 hx3 hn
        rw [← hn]
        have hk3 : SPost e c2 st fa' ((none : Option α), fa', es') c3
          ((none, fa'.index, es'), c3.pos) := SPost.keepExt hpre2 hx3
        have h4 := SPost.trans hpre h3' hk3
        refine Ref.mono (whileNotLoop_ref ht pr hp st n c3 fa' es' (h4.pre hpre)) ?_
        intro r c4 g4 h5
        exact SPost.trans hpre h4 h5
    · simp only [if_true]
      unfold giveUp
      rw [← hpos]
      exact Ref.ret (SPost.keepExt hpre hx)

theorem SRef.whileNot {s t : Strat S E α} {q qt : SSem E α} (h : SRef e s q) (ht : SRef e t qt)
    (pr : S.I → Bool) (n : Nat) :
    SRef e (sWhileNot n s pr t) (q.orElse fun q st fa es i =>
      whileNotSem e pr qt q st n fa es i) := by
  refine h.orElse ?_
  intro p qp hp c st fa es hpre
  exact whileNotLoop_ref ht pr hp st n c fa es hpre

theorem runIn_ref {p : Parser S E α} {q : PSem E α} (hp : PRef e p q) (exact_ silent : Bool)
    {c : Cursor} {st fa : SavedState} (es : List E) (hpre : SPre e c st fa) :
    Ref e (runIn p exact_ silent fa es) c (runInSem q exact_ silent fa.index es c.pos)
      (SPost e c st fa) := by
  unfold runIn runInSem
  refine Ref.bind (hp _ c hpre.wf) ?_
  rintro r2 c2 ⟨r2', j2⟩ ⟨hx2, hv2, hf2⟩
  cases hv2
  cases r2 with
  | success o => exact Ref.ret (SPost.keepExt hpre hx2)
  | recovered o es' => exact Ref.ret (SPost.keepExt hpre hx2)
  | failed i es' =>
    have hi := hf2 _ _ rfl
    simp only
    prog
    refine Ref.saveAt hi.2 ?_
    intro hge
    have hfa := hpre.wf.liveOk _ hpre.liveFa
    have hids := hx2.ids
    have hne : fa ≠ c2.mk' i := by
      intro hh; rw [hh] at hfa; simp at hfa; omega
    apply Ref.drop (m := fa) (by rw [Cursor.saveIdx_live, hx2.live, hpre.liveFa]; simp)
    have hstp := hpre.stPos
    have hp2 := hx2.pos
    refine Ref.ret ⟨rfl, (hx2.wf.saveIdxWF hi.2).dropWF _, hx2.hi, ?_, Nat.le_trans hstp hp2,
      ?_, .inr hids, ?_⟩
    · show c.nextId ≤ c2.nextId + 1; omega
    · show st.index ≤ i; omega
    · funext x
      show (decide (x ≠ fa) && (c2.saveIdx i).2.live x) = _
      rw [Cursor.saveIdx_live, hx2.live]
      by_cases h5 : x = c2.mk' i
      · subst h5; simp [hne.symm]
      · simp [h5]

theorem SRef.retry {s : Strat S E α} {q : SSem E α} (h : SRef e s q) (exact_ silent : Bool) :
    SRef e (sRetry s exact_ silent) (q.orElse fun q _ fa es i =>
      runInSem q exact_ silent fa es i) := by
  refine h.orElse ?_
  intro p qp hp c st fa es hpre
  exact runIn_ref hp exact_ silent es hpre

theorem SRef.tryToParse {s : Strat S E α} {q : SSem E α} (h : SRef e s q)
    {p : Parser S E α} {qp : PSem E α} (hp : PRef e p qp) (exact_ silent : Bool) :
    SRef e (sTryToParse s p exact_ silent) (q.orElse fun _ _ fa es i =>
      runInSem qp exact_ silent fa es i) := by
  refine h.orElse ?_
  intro _ _ _ c st fa es hpre
  exact runIn_ref hp exact_ silent es hpre

/-- A strategy step that only computes errors or an output without moving. -/
theorem SRef.pure {s : Strat S E α} {q : SSem E α} (h : SRef e s q)
    {t : Strat S E α} (o : Nat → Nat → List E → Option α) (f : Nat → Nat → List E → List E)
    (ht : ∀ p c st fa es, SPre e c st fa → ∃ c', Ext e c c' ∧ c'.pos = c.pos ∧
      (t p st fa es).run (Cursor.step e) c =
        .ok ((o st.index c.pos es, fa, f st.index c.pos es), c')) :
    SRef e (s.orElse t) (q.orElse fun _ st fa es i => .ok ((o st i es, fa, f st i es), i)) := by
  refine h.orElse ?_
  intro p qp hp c st fa es hpre
  obtain ⟨c', hx, hpos, hrun⟩ := ht p c st fa es hpre
  unfold Ref
  rw [hrun]
  simp only
  rw [← hpos]
  exact SPost.keepExt hpre hx

theorem run_spanningBackTo {c : Cursor} {st fa : SavedState} (hpre : SPre e c st fa)
    (k : S.Span → Prog S α) :
    (Prog.op (.spanningBackTo st) k).run (Cursor.step e) c =
      (k (e.spanOf st.index c.pos)).run (Cursor.step e) c := by
  have h1 := hpre.stPos
  have h2 := hpre.wf.posHi
  have h3 : st.index = c.pos ∨ st.index < c.hi := by omega
  simp [Prog.run, Cursor.step, hpre.liveSt, h3]

theorem PRef.toRecover {p : Parser S E α} {q : PSem E α} (hp : PRef e p q) {s : Strat S E α}
    {qs : SSem E α} (hs : SRef e s qs) : PRef e (pToRecover p s) (qToRecover q qs) := by
  intro en c hwf
  unfold pToRecover qToRecover
  refine Ref.bind (hp en c hwf) ?_
  rintro r2 c2 ⟨r2', j2⟩ ⟨hx2, hv2, hf2⟩
  cases hv2
  cases r2 with
  | success o => exact Ref.ret (PPost.success hx2)
  | recovered o es => exact Ref.ret (PPost.recovered hx2)
  | failed i es =>
    have hi := hf2 _ _ rfl
    cases en
    · exact Ref.ret (PPost.failed hx2 hi.1 hi.2)
    · simp only [Bool.not_true, Bool.false_eq_true, if_false]
      prog
      apply Ref.save
      have hw3 : (c2.saveIdx c2.pos).2.WF e := hx2.wf.saveIdxWF hx2.wf.posLe
      refine Ref.saveAt (c := (c2.saveIdx c2.pos).2) (x := i) (f := fun fa =>
        qs q c2.pos fa es c2.pos >>= toRecoverEndSem i c2.pos) hi.2 ?_
      intro hge
      simp only [Cursor.saveIdx_pos] at hge
      generalize hst : c2.mk' c2.pos = st
      generalize hfa : (c2.saveIdx c2.pos).2.mk' i = fa
      generalize hc3 : ((c2.saveIdx c2.pos).2.saveIdx i).2 = c3
      have hsti : st.index = c2.pos := by rw [← hst]; rfl
      have hstid : st.id = c2.nextId := by rw [← hst]; rfl
      have hfai : fa.index = i := by rw [← hfa]; rfl
      have hfaid : fa.id = c2.nextId + 1 := by rw [← hfa]; rfl
      have hlive3 : ∀ x, c3.live x = (decide (x = fa) || (decide (x = st) || c2.live x)) := by
        intro x; rw [← hc3, ← hst, ← hfa]; rfl
      have hpos3 : c3.pos = c2.pos := by rw [← hc3]; rfl
      have hhi3 : c3.hi = c2.hi := by rw [← hc3]; rfl
      have hid3 : c3.nextId = c2.nextId + 1 + 1 := by rw [← hc3]; rfl
      have hwf3 : c3.WF e := by rw [← hc3]; exact hw3.saveIdxWF hi.2
      have hpre : SPre e c3 st fa := ⟨hwf3, by rw [hlive3]; simp, by rw [hlive3]; simp,
        by omega, by omega, by omega⟩
      have hfresh : ∀ m, c2.live m = true → m.id < c2.nextId := fun m hm => (hx2.wf.liveOk m hm).2
      have hrun := hs p q hp c3 st fa es hpre
      rw [hsti, hfai, hpos3] at hrun
      refine Ref.bind hrun ?_
      rintro ⟨o, fa', es'⟩ c4 g h4
      have hv := h4.val
      subst hv
      have hfa'l : c4.live fa' = true := by rw [h4.live]; simp
      have hne : st ≠ fa := fun hh => hpre.ne (by rw [hh])
      have hfa' : fa' = fa ∨ c2.nextId + 1 + 1 ≤ fa'.id := by
        rcases h4.fresh with h | h
        · exact .inl h
        · right; rw [hid3] at h; exact h
      have hne' : st ≠ fa' := by
        intro hh
        rcases hfa' with h | h
        · rw [h] at hh; exact hne hh
        · rw [← hh] at h; omega
      have hids := h4.ids
      have hhi := h4.hi
      have hids2 := hx2.ids
      have hhi2 := hx2.hi
      have hpos2 := hx2.pos
      have hfin : (fun x => decide (x ≠ st) && (decide (x ≠ fa') && c4.live x)) = c.live := by
        funext x
        rw [h4.live, ← hx2.live]
        simp only [hlive3]
        by_cases h5 : x = st
        · subst h5
          cases hl : c2.live x
          · simp
          · have := hfresh _ hl; omega
        · by_cases h6 : x = fa'
          · subst h6
            cases hl : c2.live x
            · simp
            · have := hfresh _ hl
              rcases hfa' with h | h
              · rw [h] at this; omega
              · omega
          · by_cases h7 : x = fa
            · subst h7
              cases hl : c2.live x
              · simp
              · have := hfresh _ hl; omega
            · simp [h5, h6, h7]
      have hst4 : c4.live st = true := by
        rw [h4.live]; simp [hne, hlive3]
      cases o with
      | some o =>
        unfold toRecoverEnd
        prog
        apply Ref.drop hfa'l
        apply Ref.drop (by simp [hne', hst4])
        refine Ref.ret (PPost.recovered ⟨(h4.wf.dropWF _).dropWF _, ?_, ?_, ?_, hfin⟩)
        · show c.pos ≤ c4.pos; have := h4.stPos; omega
        · show c.hi ≤ c4.hi; omega
        · show c.nextId ≤ c4.nextId; omega
      | none =>
        unfold toRecoverEnd
        prog
        apply Ref.restore hst4
        refine Ref.drop (m := fa') ?_ ?_
        · exact hfa'l
        apply Ref.drop (by simp [hne', hst4])
        have hlim := (h4.wf.liveOk _ hst4).1
        have h8 : c2.limit e ≤ c4.limit e := Ext.limit_mono' h4.wf (by omega)
        unfold toRecoverEndSem
        rw [← hsti]
        refine Ref.ret (PPost.failed
          ⟨((h4.wf.setPos hlim).dropWF fa').dropWF st, ?_, ?_, ?_, hfin⟩ hi.1
          (Nat.le_trans hi.2 h8))
        · show c.pos ≤ st.index; omega
        · show c.hi ≤ c4.hi; omega
        · show c.nextId ≤ c4.nextId; omega

end PPC
