import Verif.RefLogic

/-!
# The code computes the positional semantics

For every parser and strategy: running the model of its `parse_internal`/`recover`
on the ideal cursor has the outcome given by the positional semantics, returns all
saved states, and never leaves the territory of the specification.
-/

namespace PPC

variable {S : Sig} {e : Env S}

/-- Value part of the contract of a parser started at `p`: the result and end
position agree with the semantics, and a failure index is between the start
position and the examined part of the input. -/
def PVal {α E : Type} (p : Nat) (r : Res α E) (pos lim : Nat) (g : Res α E × Nat) : Prop :=
  g = (r, pos) ∧ ∀ x es, r = .failed x es → p ≤ x ∧ x ≤ lim

/-- Contract of a parser. -/
def PPost {α E : Type} (e : Env S) (c : Cursor) (r : Res α E) (c' : Cursor)
    (g : Res α E × Nat) : Prop :=
  Ext e c c' ∧ PVal c.pos r c'.pos (c'.limit e) g

/-- `p` computes `q`. -/
def PRef {α E : Type} (e : Env S) (p : Parser S E α) (q : PSem E α) : Prop :=
  ∀ en c, c.WF e → Ref e (p en) c (q en c.pos) (PPost e c)

section

variable {α β γ δ E X : Type}

theorem PPost.success {c c' : Cursor} {a : α} (h : Ext e c c') :
    PPost e c (.success a : Res α E) c' (.success a, c'.pos) :=
  ⟨h, rfl, by intro x es hx; cases hx⟩

theorem PPost.recovered {c c' : Cursor} {a : α} {es : List E} (h : Ext e c c') :
    PPost e c (.recovered a es) c' (.recovered a es, c'.pos) :=
  ⟨h, rfl, by intro x es hx; cases hx⟩

theorem PPost.failed {c c' : Cursor} {i : Nat} {es : List E} (h : Ext e c c') (h1 : c.pos ≤ i)
    (h2 : i ≤ c'.limit e) :
    PPost e c (.failed i es : Res α E) c' (.failed i es, c'.pos) :=
  ⟨h, rfl, by intro x es hx; cases hx; exact ⟨h1, h2⟩⟩

theorem PVal.success {p pos lim : Nat} {a : α} :
    PVal p (.success a : Res α E) pos lim (.success a, pos) :=
  ⟨rfl, by intro x es hx; cases hx⟩

theorem PVal.recovered {p pos lim : Nat} {a : α} {es : List E} :
    PVal p (.recovered a es) pos lim (.recovered a es, pos) :=
  ⟨rfl, by intro x es hx; cases hx⟩

theorem PVal.failed {p pos lim i : Nat} {es : List E} (h1 : p ≤ i) (h2 : i ≤ lim) :
    PVal p (.failed i es : Res α E) pos lim (.failed i es, pos) :=
  ⟨rfl, by intro x es hx; cases hx; exact ⟨h1, h2⟩⟩

/-- Being at the current position after some looking. -/
theorem Ext.look' {c c' : Cursor} (h : Ext e c c') : Ext e c c'.look := h.trans (Ext.look h.wf)

theorem Cursor.WF.pos_le_look {c : Cursor} (h : c.WF e) : c.pos ≤ c.look.limit e :=
  Nat.le_trans h.posLe h.limit_le_look

/-! ## Primitives -/

theorem pEmpty_ref : PRef e (pEmpty : Parser S E Unit) qEmpty := fun _ _ h =>
  Ref.ret (PPost.success (Ext.refl h))

theorem pNone_ref : PRef e (pNone : Parser S E (Option α)) qNone := fun _ _ h =>
  Ref.ret (PPost.success (Ext.refl h))

theorem pEnd_ref (ε : ErrTy S) : PRef e (pEnd ε) (qEnd e ε) := by
  intro en c h
  unfold pEnd qEnd
  prog
  apply Ref.token
  cases hs : e.source c.pos with
  | none => exact Ref.ret (PPost.success (Ext.look h))
  | some t =>
    simp only [Option.isNone, Bool.false_eq_true, if_false]
    apply Ref.index; apply Ref.token; apply Ref.location
    simp only [Cursor.look_pos, hs]
    exact Ref.ret (PPost.failed (Ext.look h).look' (Nat.le_refl _) (h.lookWF.pos_le_look))

/-- The common failure tail `index; span; Failed`. -/
theorem fail_here_ref (ε : ErrTy S) {c : Cursor} (c0 : Cursor) (h : Ext e c0 c)
    (hp : c0.pos ≤ c.pos) (expected : List (Option S.I)) :
    Ref e (do
      let i ← Prog.index
      let sp ← Prog.span
      return (Res.failed i [ε.expectedFound expected (e.source c.pos) (.span sp)] : Res α ε.E))
      c (.ok (mismatch e ε expected c.pos, c.pos)) (PPost e c0) := by
  apply Ref.index; apply Ref.span
  exact Ref.ret (PPost.failed h.look' hp h.wf.pos_le_look)

theorem isTok_some {found : Option S.I} {x : S.I} (h : isTok S found x = true) :
    found.isSome = true := by
  cases found <;> simp_all [isTok]

theorem pJust_ref (ε : ErrTy S) (x : S.I) : PRef e (pJust ε x) (qJust e ε x) := by
  intro en c h
  unfold pJust qJust
  prog
  apply Ref.token
  by_cases hs : isTok S (e.source c.pos) x
  · simp only [hs, if_true]
    apply Ref.advance_some (c := c.look) (isTok_some hs)
    exact Ref.ret (PPost.success ((Ext.look h).trans (Ext.advance h.lookWF (isTok_some hs))))
  · simp only [hs, Bool.false_eq_true, if_false]
    exact fail_here_ref ε c (Ext.look h) (Nat.le_refl _) _

/-- Contract of the body of an `attempt`. -/
theorem attempt_ref {f : Prog S (Bool × Res α E)} {c : Cursor} {q : Out (Res α E × Nat)}
    (h : c.WF e)
    (hf : Ref e f (c.saveIdx c.pos).2 q fun br c' g =>
      Ext e (c.saveIdx c.pos).2 c' ∧ g.1 = br.2 ∧ g.2 = (if br.1 then c'.pos else c.pos) ∧
      ∀ x es, br.2 = .failed x es → c.pos ≤ x ∧ x ≤ c'.limit e) :
    Ref e (Prog.attempt f) c q (PPost e c) := by
  unfold Prog.attempt
  apply Ref.withSave h (R := PVal c.pos)
  apply Ref.bindL hf
  rintro ⟨b, r⟩ c' ⟨r', j⟩ ⟨hx, h1, h2, h3⟩
  simp only at h1 h2 h3
  subst h1 h2
  cases b
  · simp only [Bool.false_eq_true, if_false]
    apply Ref.restore (m := c.mk' c.pos) (by rw [hx.live]; simp)
    refine Ref.ret ⟨hx.setPos (Nat.le_refl _) ?_, rfl, h3⟩
    exact Nat.le_trans hx.pos hx.wf.posLe
  · exact Ref.ret ⟨hx, rfl, h3⟩

theorem pFilter_ref (ε : ErrTy S) (p : S.I → Bool) : PRef e (pFilter ε p) (qFilter e ε p) := by
  intro en c h
  unfold pFilter qFilter
  apply attempt_ref h
  have hw : (c.saveIdx c.pos).2.WF e := h.saveIdxWF h.posLe
  prog
  apply Ref.token
  have hfail : ∀ found, found = e.source c.pos → Ref e (do
      let i ← Prog.index
      let sp ← Prog.span
      return (false, (Res.failed i [ε.expectedFound [] found (.span sp)] :
        Res S.I ε.E))) (c.saveIdx c.pos).2.look (.ok (mismatch e ε [] c.pos, c.pos))
      (fun br c' g =>
        Ext e (c.saveIdx c.pos).2 c' ∧ g.1 = br.2 ∧ g.2 = (if br.1 then c'.pos else c.pos) ∧
        ∀ x es, br.2 = .failed x es → c.pos ≤ x ∧ x ≤ c'.limit e) := by
    intro found hfound
    subst hfound
    apply Ref.index; apply Ref.span
    refine Ref.ret ⟨(Ext.look hw).look', rfl, rfl, ?_⟩
    intro x es hx
    cases hx
    exact ⟨Nat.le_refl _, hw.lookWF.pos_le_look⟩
  cases hs : e.source c.pos with
  | none =>
    simp only [Cursor.saveIdx_pos, hs]
    exact hfail _ hs.symm
  | some t =>
    simp only [Cursor.saveIdx_pos, hs]
    have hsome : (e.source c.pos).isSome = true := by simp [hs]
    cases hp : p t
    · exact hfail _ hs.symm
    · simp only [if_true]
      apply Ref.advance_some (c := (c.saveIdx c.pos).2.look) hsome
      refine Ref.ret ⟨(Ext.look hw).trans (Ext.advance hw.lookWF hsome), rfl, rfl, ?_⟩
      intro x es hx; cases hx

theorem pFilterMap_ref (ε : ErrTy S) (f : S.I → Option α) :
    PRef e (pFilterMap ε f) (qFilterMap e ε f) := by
  intro en c h
  unfold pFilterMap qFilterMap
  prog
  apply Ref.token
  cases hs : (e.source c.pos).bind f with
  | none =>
    simp only
    exact fail_here_ref ε c (Ext.look h) (Nat.le_refl _) _
  | some o =>
    have hsome : (e.source c.pos).isSome = true := by
      cases h2 : e.source c.pos <;> simp_all
    simp only
    apply Ref.advance_some (c := c.look) hsome
    exact Ref.ret (PPost.success ((Ext.look h).trans (Ext.advance h.lookWF hsome)))

theorem seqLoop_ref (ε : ErrTy S) : ∀ (items : List S.I) (c0 c : Cursor), Ext e c0 c →
    Ref e (seqLoop (α := α) ε items) c (.ok (matchSeq e items c.pos)) fun r c' g =>
      Ext e c0 c' ∧
      match r, g with
      | none, none => c'.pos = c.pos + items.length
      | some res, some (j, x) => res = mismatch e ε [some x] j ∧ c.pos ≤ j ∧ j ≤ c'.limit e
      | _, _ => False
  | [], c0, c, h => Ref.ret ⟨h, rfl⟩
  | x :: xs, c0, c, h => by
    unfold seqLoop matchSeq
    prog
    apply Ref.token
    by_cases hs : isTok S (e.source c.pos) x
    · simp only [hs, if_true]
      apply Ref.advance_some (c := c.look) (isTok_some hs)
      have hx := h.look'.trans (Ext.advance h.wf.lookWF (isTok_some hs))
      have := seqLoop_ref ε xs c0 _ hx
      refine Ref.mono this ?_
      rintro r c' g ⟨h1, h2⟩
      refine ⟨h1, ?_⟩
      match r, g, h2 with
      | none, none, h2 =>
        simp only [Cursor.look_pos] at h2 ⊢
        simp only [List.length_cons]; omega
      | some res, some (j, y), h2 =>
        simp only [Cursor.look_pos] at h2 ⊢
        exact ⟨h2.1, by omega, h2.2.2⟩
    · simp only [hs, Bool.false_eq_true, if_false]
      apply Ref.index; apply Ref.span
      refine Ref.ret ⟨h.look'.look', rfl, Nat.le_refl _, h.wf.lookWF.pos_le_look⟩

theorem pSeq_ref (ε : ErrTy S) (v : α) (items : List S.I) :
    PRef e (pSeq ε v items) (qSeq e ε v items) := by
  intro en c h
  unfold pSeq qSeq
  apply attempt_ref h
  have hw : (c.saveIdx c.pos).2.WF e := h.saveIdxWF h.posLe
  refine Ref.bindP (seqLoop_ref (α := α) ε items (c.saveIdx c.pos).2 _ (Ext.refl hw)) ?_
  rintro r c' ⟨h1, h2⟩
  simp only [Cursor.saveIdx_pos] at h2
  generalize hm : matchSeq e items c.pos = g at h2
  match r, g, h2 with
  | none, none, h2 =>
    refine Ref.ret ⟨h1, rfl, ?_, ?_⟩
    · simp [h2]
    · intro x es hx; cases hx
  | some res, some (j, y), h2 =>
    obtain ⟨rfl, h3, h4⟩ := h2
    refine Ref.ret ⟨h1, rfl, rfl, ?_⟩
    intro x es hx
    cases hx
    exact ⟨h3, h4⟩

theorem pOneOf_ref (ε : ErrTy S) (items : List S.I) :
    PRef e (pOneOf ε items) (qOneOf e ε items) := by
  intro en c h
  unfold pOneOf qOneOf
  prog
  apply Ref.token
  have hf := fail_here_ref (α := S.I) ε c (Ext.look h) (Nat.le_refl _) (items.map some)
  simp only [Cursor.look_pos] at hf
  cases hs : e.source c.pos with
  | none =>
    rw [hs] at hf
    exact hf
  | some t =>
    have hsome : (e.source c.pos).isSome = true := by simp [hs]
    simp only
    split
    · apply Ref.advance_some (c := c.look) hsome
      exact Ref.ret (PPost.success ((Ext.look h).trans (Ext.advance h.lookWF hsome)))
    · rw [hs] at hf
      exact hf

theorem pNoneOf_ref (ε : ErrTy S) (items : List S.I) :
    PRef e (pNoneOf ε items) (qNoneOf e ε items) := by
  intro en c h
  unfold pNoneOf qNoneOf
  prog
  apply Ref.token
  have hf := fail_here_ref (α := S.I) ε c (Ext.look h) (Nat.le_refl _) []
  simp only [Cursor.look_pos] at hf
  cases hs : e.source c.pos with
  | none =>
    simp only
    apply Ref.index; apply Ref.location
    exact Ref.ret (PPost.failed (Ext.look h) (Nat.le_refl _) h.pos_le_look)
  | some t =>
    have hsome : (e.source c.pos).isSome = true := by simp [hs]
    simp only
    split
    · rw [hs] at hf
      exact hf
    · apply Ref.advance_some (c := c.look) hsome
      exact Ref.ret (PPost.success ((Ext.look h).trans (Ext.advance h.lookWF hsome)))

/-! ## Mapping -/

variable {p : Parser S E α} {q : PSem E α}

theorem PRef.map (h : PRef e p q) (f : α → β) : PRef e (pMap f p) (qMap f q) := by
  intro en c hwf
  refine Ref.bind (h en c hwf) ?_
  rintro r c' ⟨r', j⟩ ⟨hx, hv, hf⟩
  cases hv
  refine Ref.ret ⟨hx, rfl, ?_⟩
  intro x es hx; cases r <;> simp [Res.map] at hx
  obtain ⟨rfl, rfl⟩ := hx; exact hf _ _ rfl

theorem PRef.to (h : PRef e p q) (v : β) : PRef e (pTo p v) (qMap (fun _ => v) q) :=
  PRef.map h _

theorem PRef.some' (h : PRef e p q) : PRef e (pSome p) (qMap Option.some q) :=
  PRef.map h _

theorem PRef.mapErr {p : Parser S X α} {q : PSem X α} (h : PRef e p q) (f : X → E) :
    PRef e (pMapErr f p) (qMapErr f q) := by
  intro en c hwf
  refine Ref.bind (h en c hwf) ?_
  rintro r c' ⟨r', j⟩ ⟨hx, hv, hf⟩
  cases hv
  refine Ref.ret ⟨hx, rfl, ?_⟩
  intro x es hx; cases r <;> simp [Res.mapErr] at hx
  obtain ⟨rfl, rfl⟩ := hx; exact hf _ _ rfl

/-- What a child started right after a `save` gives. -/
theorem PRef.inSave (h : PRef e p q) {c : Cursor} (hwf : c.WF e) (en : Bool) :
    Ref e (p en) (c.saveIdx c.pos).2 (q en c.pos) (PPost e (c.saveIdx c.pos).2) :=
  h en _ (hwf.saveIdxWF hwf.posLe)

theorem Ext.savedLive {c c' : Cursor} (h : Ext e (c.saveIdx c.pos).2 c') :
    c'.live (c.mk' c.pos) = true := by rw [h.live]; simp

theorem PRef.mapWithSpan (h : PRef e p q) (f : α → S.Span → β) :
    PRef e (pMapWithSpan f p) (qMapWithSpan e f q) := by
  intro en c hwf
  apply Ref.withSave hwf (R := PVal c.pos)
  refine Ref.bind (h.inSave hwf en) ?_
  rintro r c' ⟨r', j⟩ ⟨hx, hv, hf⟩
  cases hv
  cases r with
  | success a => exact Ref.spanningBackTo hx.wf hx.savedLive hx.pos (Ref.ret ⟨hx, PVal.success⟩)
  | recovered a es =>
    exact Ref.spanningBackTo hx.wf hx.savedLive hx.pos (Ref.ret ⟨hx, PVal.recovered⟩)
  | failed i es =>
    exact Ref.ret ⟨hx, PVal.failed (hf _ _ rfl).1 (hf _ _ rfl).2⟩

theorem mapErrs_ref (f : X → S.Span → E) (m : SavedState) {c : Cursor} (hwf : c.WF e)
    (hm : c.live m = true) (hle : m.index ≤ c.pos) : ∀ es : List X,
    Ref e (mapErrsWithSpan f m es) c (.ok (es.map fun x => f x (e.spanOf m.index c.pos)))
      fun r c' g => r = g ∧ c' = c
  | [] => Ref.ret ⟨rfl, rfl⟩
  | x :: es => by
    unfold mapErrsWithSpan
    apply Ref.spanningBackTo hwf hm hle
    apply Ref.bind (f := fun l => Out.ok (f x (e.spanOf m.index c.pos) :: l))
      (mapErrs_ref f m hwf hm hle es)
    rintro r c' g ⟨rfl, rfl⟩
    exact Ref.ret ⟨rfl, rfl⟩

theorem PRef.mapErrWithSpan {p : Parser S X α} {q : PSem X α} (h : PRef e p q)
    (f : X → S.Span → E) : PRef e (pMapErrWithSpan f p) (qMapErrWithSpan e f q) := by
  intro en c hwf
  apply Ref.withSave hwf (R := PVal c.pos)
  refine Ref.bind (h.inSave hwf en) ?_
  rintro r c' ⟨r', j⟩ ⟨hx, hv, hf⟩
  cases hv
  cases r with
  | success a => exact Ref.ret ⟨hx, PVal.success⟩
  | recovered a es =>
    refine Ref.bindP (mapErrs_ref f (c.mk' c.pos) hx.wf hx.savedLive hx.pos es) ?_
    rintro r c2 ⟨rfl, rfl⟩
    exact Ref.ret ⟨hx, PVal.recovered⟩
  | failed i es =>
    refine Ref.bindP (mapErrs_ref f (c.mk' c.pos) hx.wf hx.savedLive hx.pos es) ?_
    rintro r c2 ⟨rfl, rfl⟩
    exact Ref.ret ⟨hx, PVal.failed (hf _ _ rfl).1 (hf _ _ rfl).2⟩

theorem PRef.tryMap (h : PRef e p q) (f : α → S.Span → TryMapResult β E) :
    PRef e (pTryMap f p) (qTryMap e f q) := by
  intro en c hwf
  apply Ref.withSave hwf (R := PVal c.pos)
  refine Ref.bind (h.inSave hwf en) ?_
  rintro r c' ⟨r', j⟩ ⟨hx, hv, hf⟩
  cases hv
  have step : ∀ a, Ref e (tryMapBody f en (c.mk' c.pos) a) c'
      (tryMapStep e f en c.pos c'.pos a) fun r c' g =>
        Ext e (c.saveIdx c.pos).2 c' ∧ PVal c.pos r c'.pos (c'.limit e) g := by
    intro a
    unfold tryMapBody
    prog
    apply Ref.spanningBackTo hx.wf hx.savedLive hx.pos
    simp only [Cursor.mk'_index]
    unfold tryMapStep
    have hle : c.pos ≤ c'.limit e := Nat.le_trans hx.pos hx.wf.posLe
    cases f a (e.spanOf c.pos c'.pos) with
    | ok o => exact Ref.ret ⟨hx, PVal.success⟩
    | err es =>
      simp only
      split
      · exact Ref.panic
      · apply Ref.restore hx.savedLive
        exact Ref.ret ⟨hx.setPos (Nat.le_refl _) hle, PVal.failed (Nat.le_refl _) hle⟩
    | recovered o es =>
      simp only
      split
      · exact Ref.panic
      · split
        · exact Ref.ret ⟨hx, PVal.recovered⟩
        · exact Ref.ret ⟨hx, PVal.failed (Nat.le_refl _) hle⟩
  cases r with
  | success a => exact step a
  | recovered a es =>
    refine Ref.bind (step a) ?_
    rintro r2 c2 ⟨r2', j2⟩ ⟨hx2, hv2, hf2⟩
    cases hv2
    cases r2 with
    | success a => exact Ref.ret ⟨hx2, PVal.success⟩
    | recovered a es => exact Ref.ret ⟨hx2, PVal.recovered⟩
    | failed i es => exact Ref.ret ⟨hx2, PVal.failed (hf2 _ _ rfl).1 (hf2 _ _ rfl).2⟩
  | failed i es => exact Ref.ret ⟨hx, PVal.failed (hf _ _ rfl).1 (hf _ _ rfl).2⟩

/-! ## Sequencing -/

theorem finishRec_ref (en : Bool) (o : α) (r : Option (List E)) {c c0 : Cursor} (h : Ext e c0 c)
    {n : Nat} : Ref e (finishRec en o r) c (finishSem en o r c.pos) fun r c' g =>
      Ext e c0 c' ∧ PVal n r c'.pos (c'.limit e) g := by
  unfold finishRec finishSem
  cases r with
  | none => exact Ref.ret ⟨h, PVal.success⟩
  | some es =>
    simp only
    split
    · exact Ref.ret ⟨h, PVal.recovered⟩
    · exact Ref.panic

/-- The failure tail `restore(initial); Failed`. -/
theorem failBack_ref {c c' c0 : Cursor} {m : SavedState} {i : Nat} {es : List E}
    (h : Ext e c0 c') (hm : c'.live m = true) (hc : c0.pos = m.index) (h1 : c.pos ≤ i)
    (h2 : i ≤ c'.limit e) :
    Ref e (do Prog.restore m; return (.failed i es : Res α E)) c' (.ok (.failed i es, m.index))
      fun r c' g => Ext e c0 c' ∧ PVal c.pos r c'.pos (c'.limit e) g := by
  apply Ref.restore hm
  exact Ref.ret ⟨h.setPos (Nat.le_of_eq hc) (h.wf.liveOk _ hm).1, PVal.failed h1 h2⟩

/-- A child run later in a sequence that started at `c`. -/
theorem PRef.later (h : PRef e p q) {c0 c : Cursor} (hx : Ext e c0 c) (en : Bool) :
    Ref e (p en) c (q en c.pos) fun r c' g => Ext e c0 c' ∧ g = (r, c'.pos) ∧
      ∀ x es, r = .failed x es → c0.pos ≤ x ∧ x ≤ c'.limit e := by
  refine Ref.mono (h en c hx.wf) ?_
  rintro r c' g ⟨h1, h2, h3⟩
  refine ⟨hx.trans h1, h2, ?_⟩
  intro x es hr
  have := h3 x es hr
  have := hx.pos
  omega

theorem concatLast_ref {pb : Parser S E β} {qb : PSem E β} (hb : PRef e pb qb) {c c' : Cursor}
    (hx : Ext e (c.saveIdx c.pos).2 c') (en : Bool) (f : β → γ) (r : Option (List E)) :
    Ref e (concatLast en (c.mk' c.pos) f pb r) c' (concatLastSem en c.pos f qb r c'.pos)
      fun r c' g => Ext e (c.saveIdx c.pos).2 c' ∧ PVal c.pos r c'.pos (c'.limit e) g := by
  unfold concatLast concatLastSem
  refine Ref.bind (hb.later hx en) ?_
  rintro r2 c2 ⟨r2', j2⟩ ⟨hx2, hv2, hf2⟩
  cases hv2
  cases r2 with
  | success b => exact finishRec_ref _ _ _ hx2
  | recovered b es => exact finishRec_ref _ _ _ hx2
  | failed i es =>
    exact failBack_ref hx2 hx2.savedLive rfl (hf2 _ _ rfl).1 (hf2 _ _ rfl).2

theorem concatMid_ref {pb : Parser S E β} {qb : PSem E β} {pc : Parser S E γ} {qc : PSem E γ}
    (hb : PRef e pb qb) (hc : PRef e pc qc) {c c' : Cursor}
    (hx : Ext e (c.saveIdx c.pos).2 c') (en : Bool) (f : β × γ → δ) (r : Option (List E)) :
    Ref e (concatMid en (c.mk' c.pos) f pb pc r) c' (concatMidSem en c.pos f qb qc r c'.pos)
      fun r c' g => Ext e (c.saveIdx c.pos).2 c' ∧ PVal c.pos r c'.pos (c'.limit e) g := by
  unfold concatMid concatMidSem
  refine Ref.bind (hb.later hx en) ?_
  rintro r2 c2 ⟨r2', j2⟩ ⟨hx2, hv2, hf2⟩
  cases hv2
  cases r2 with
  | success b => exact concatLast_ref hc hx2 _ _ _
  | recovered b es => exact concatLast_ref hc hx2 _ _ _
  | failed i es =>
    exact failBack_ref hx2 hx2.savedLive rfl (hf2 _ _ rfl).1 (hf2 _ _ rfl).2

theorem PRef.concat2 {pb : Parser S E β} {qb : PSem E β} (ha : PRef e p q) (hb : PRef e pb qb)
    (f : α × β → γ) : PRef e (concat2 f p pb) (qConcat2 f q qb) := by
  intro en c hwf
  apply Ref.withSave hwf (R := PVal c.pos)
  refine Ref.bind (ha.inSave hwf en) ?_
  rintro r c' ⟨r', j⟩ ⟨hx, hv, hf⟩
  cases hv
  cases r with
  | success a => exact concatLast_ref hb hx _ _ _
  | recovered a es => exact concatLast_ref hb hx _ _ _
  | failed i es => exact Ref.ret ⟨hx, PVal.failed (hf _ _ rfl).1 (hf _ _ rfl).2⟩

theorem PRef.concat3 {pb : Parser S E β} {qb : PSem E β} {pc : Parser S E γ} {qc : PSem E γ}
    (ha : PRef e p q) (hb : PRef e pb qb) (hc : PRef e pc qc)
    (f : α × β × γ → δ) : PRef e (concat3 f p pb pc) (qConcat3 f q qb qc) := by
  intro en c hwf
  apply Ref.withSave hwf (R := PVal c.pos)
  refine Ref.bind (ha.inSave hwf en) ?_
  rintro r c' ⟨r', j⟩ ⟨hx, hv, hf⟩
  cases hv
  cases r with
  | success a => exact concatMid_ref hb hc hx _ _ _
  | recovered a es => exact concatMid_ref hb hc hx _ _ _
  | failed i es => exact Ref.ret ⟨hx, PVal.failed (hf _ _ rfl).1 (hf _ _ rfl).2⟩

/-- Pointwise refinement of lists of parsers. -/
inductive PRefs (e : Env S) : List (Parser S E α) → List (PSem E α) → Prop
  | nil : PRefs e [] []
  | cons {p q ps qs} : PRef e p q → PRefs e ps qs → PRefs e (p :: ps) (q :: qs)

theorem concatRest_ref {ps : List (Parser S E α)} {qs : List (PSem E α)} (h : PRefs e ps qs)
    {c0 : Cursor} {m : SavedState} (en : Bool) (hm : c0.live m = true) (hc : c0.pos = m.index) :
    ∀ (c : Cursor) (out : List α) (r : Option (List E)), Ext e c0 c →
      Ref e (concatRest en m ps out r) c (concatRestSem en m.index qs out r c.pos)
        fun r c' g => Ext e c0 c' ∧ PVal c0.pos r c'.pos (c'.limit e) g := by
  induction h with
  | nil => intro c out r hx; exact finishRec_ref _ _ _ hx
  | cons hp _ ih =>
    intro c out r hx
    unfold concatRest concatRestSem
    refine Ref.bind (hp.later hx en) ?_
    rintro r2 c2 ⟨r2', j2⟩ ⟨hx2, hv2, hf2⟩
    cases hv2
    cases r2 with
    | success b => exact ih _ _ _ hx2
    | recovered b es => exact ih _ _ _ hx2
    | failed i es =>
      exact failBack_ref hx2 (by rw [hx2.live]; exact hm) hc (hf2 _ _ rfl).1 (hf2 _ _ rfl).2

theorem PRefs.concat {ps : List (Parser S E α)} {qs : List (PSem E α)} (h : PRefs e ps qs) :
    PRef e (concatList ps) (qConcat qs) := by
  intro en c hwf
  apply Ref.withSave hwf (R := PVal c.pos)
  cases h with
  | nil => exact Ref.ret ⟨Ext.refl (hwf.saveIdxWF hwf.posLe), PVal.success⟩
  | cons hp hps =>
    refine Ref.bind (hp.inSave hwf en) ?_
    rintro r c' ⟨r', j⟩ ⟨hx, hv, hf⟩
    cases hv
    cases r with
    | success a =>
      exact concatRest_ref hps (c0 := (c.saveIdx c.pos).2) (m := c.mk' c.pos) en (by simp) rfl _ _ _ hx
    | recovered a es =>
      exact concatRest_ref hps (c0 := (c.saveIdx c.pos).2) (m := c.mk' c.pos) en (by simp) rfl _ _ _ hx
    | failed i es => exact Ref.ret ⟨hx, PVal.failed (hf _ _ rfl).1 (hf _ _ rfl).2⟩

/-! ## Choice -/

/-- Refinement of the recorded failures, for a choice started at `p0`. -/
inductive FRefs (e : Env S) (p0 : Nat) : List (Failure S E α) → List (FailSem E α) → Prop
  | nil : FRefs e p0 [] []
  | cons {x es p q fs gs} : p0 ≤ x → PRef e p q → FRefs e p0 fs gs →
      FRefs e p0 ((x, es, p) :: fs) ((x, es, q) :: gs)

theorem FRefs.append {p0 : Nat} {fs fs' : List (Failure S E α)} {gs gs' : List (FailSem E α)}
    (h : FRefs e p0 fs gs) (h' : FRefs e p0 fs' gs') : FRefs e p0 (fs ++ fs') (gs ++ gs') := by
  induction h with
  | nil => exact h'
  | cons h1 h2 _ ih => exact .cons h1 h2 ih

theorem FRefs.insert {p0 x : Nat} {es : List E} (hx : p0 ≤ x) (h : PRef e p q)
    {fs : List (Failure S E α)} {gs : List (FailSem E α)} (hf : FRefs e p0 fs gs) :
    FRefs e p0 (insertDesc (x, es, p) fs) (insertDesc (x, es, q) gs) := by
  induction hf with
  | nil => exact .cons hx h .nil
  | @cons y es' p' q' fs gs h1 h2 h3 ih =>
    unfold insertDesc
    simp only
    split
    · exact .cons hx h (.cons h1 h2 h3)
    · exact .cons h1 h2 ih

theorem FRefs.sort_aux {p0 : Nat} {fs : List (Failure S E α)} {gs : List (FailSem E α)}
    (h : FRefs e p0 fs gs) : ∀ {fs' : List (Failure S E α)} {gs' : List (FailSem E α)},
    FRefs e p0 fs' gs' →
    FRefs e p0 (fs.foldl (fun acc x => insertDesc x acc) fs')
      (gs.foldl (fun acc x => insertDesc x acc) gs') := by
  induction h with
  | nil => intro _ _ h'; exact h'
  | cons h1 h2 _ ih => intro _ _ h'; exact ih (FRefs.insert h1 h2 h')

theorem FRefs.sort {p0 : Nat} {fs : List (Failure S E α)} {gs : List (FailSem E α)}
    (h : FRefs e p0 fs gs) : FRefs e p0 (sortDesc fs) (sortDesc gs) :=
  FRefs.sort_aux h .nil

/-- All recorded indices are within the limit. -/
def FBound (lim : Nat) (fs : List (Failure S E α)) : Prop := ∀ f ∈ fs, f.1 ≤ lim

theorem mem_insertDesc {β : Type _} {x y : Nat × β} {l : List (Nat × β)} :
    y ∈ insertDesc x l ↔ y = x ∨ y ∈ l := by
  induction l with
  | nil => simp [insertDesc]
  | cons z l ih =>
    unfold insertDesc
    split
    · simp
    · simp only [List.mem_cons, ih]
      constructor
      · rintro (h | h | h) <;> simp [h]
      · rintro (h | h | h) <;> simp [h]

theorem mem_sortDesc_aux {β : Type _} {y : Nat × β} (l : List (Nat × β)) : ∀ acc,
    y ∈ l.foldl (fun acc x => insertDesc x acc) acc ↔ y ∈ l ∨ y ∈ acc := by
  induction l with
  | nil => simp
  | cons z l ih =>
    intro acc
    simp only [List.foldl_cons, ih, mem_insertDesc, List.mem_cons]
    constructor
    · rintro (h | h | h) <;> simp [h]
    · rintro ((h | h) | h) <;> simp [h]

theorem mem_sortDesc {β : Type _} {y : Nat × β} {l : List (Nat × β)} :
    y ∈ sortDesc l ↔ y ∈ l := by
  unfold sortDesc; rw [mem_sortDesc_aux]; simp

theorem altFirst_ref {ps : List (Parser S E α)} {qs : List (PSem E α)} (h : PRefs e ps qs)
    {c0 : Cursor} : ∀ (c : Cursor) (fs : List (Failure S E α)) (gs : List (FailSem E α)),
      Ext e c0 c → FRefs e c0.pos fs gs → FBound (c.limit e) fs →
      Ref e (altFirst ps fs) c (altFirstSem qs gs c.pos)
        fun r c' g => Ext e c0 c' ∧ g.2 = c'.pos ∧
          match r, g.1 with
          | .inl o, .inl o' => o = o'
          | .inr fs, .inr gs => FRefs e c0.pos fs gs ∧ FBound (c'.limit e) fs
          | _, _ => False := by
  induction h with
  | nil => intro c fs gs hx hf hb; exact Ref.ret ⟨hx, rfl, hf, hb⟩
  | cons hp _ ih =>
    intro c fs gs hx hf hb
    unfold altFirst altFirstSem
    refine Ref.bind (hp false c hx.wf) ?_
    rintro r2 c2 ⟨r2', j2⟩ ⟨hx2, hv2, hf2⟩
    cases hv2
    cases r2 with
    | success b => exact Ref.ret ⟨hx.trans hx2, rfl, rfl⟩
    | recovered b es => exact Ref.panic
    | failed i es =>
      have hi := hf2 _ _ rfl
      have hp' := hx.pos
      refine ih c2 _ _ (hx.trans hx2) (hf.append (.cons (by omega) hp .nil)) ?_
      intro f hfm
      rcases List.mem_append.1 hfm with h1 | h1
      · exact Nat.le_trans (hb f h1) hx2.limit
      · simp at h1; subst h1; exact hi.2

theorem altRecover_ref {p0 : Nat} {fs : List (Failure S E α)} {gs : List (FailSem E α)}
    (h : FRefs e p0 fs gs) {c0 : Cursor} : ∀ (c : Cursor), Ext e c0 c →
      Ref e (altRecover fs) c (altRecoverSem gs c.pos)
        fun r c' g => Ext e c0 c' ∧ c.hi ≤ c'.hi ∧ g = (r, c'.pos) ∧ ∀ x, r = some x → ∃ o es, x = .recovered o es := by
  induction h with
  | nil => intro c hx; exact Ref.ret ⟨hx, Nat.le_refl _, rfl, by intro x hx; cases hx⟩
  | cons h1 hp _ ih =>
    intro c hx
    unfold altRecover altRecoverSem
    refine Ref.bind (hp true c hx.wf) ?_
    rintro r2 c2 ⟨r2', j2⟩ ⟨hx2, hv2, hf2⟩
    cases hv2
    cases r2 with
    | success b => exact Ref.panic
    | recovered b es => exact Ref.ret ⟨hx.trans hx2, hx2.hi, rfl, by intro x hx; cases hx; exact ⟨_, _, rfl⟩⟩
    | failed i es =>
      refine Ref.mono (ih c2 (hx.trans hx2)) ?_
      rintro r c3 g ⟨h1, h2, h3⟩
      exact ⟨h1, Nat.le_trans hx2.hi h2, h3⟩

theorem FRefs.flat {p0 : Nat} {fs : List (Failure S E α)} {gs : List (FailSem E α)}
    (h : FRefs e p0 fs gs) : fs.flatMap (fun f => f.2.1) =
      (gs.map fun f => (f.1, f.2.1)).flatMap (·.2) := by
  induction h with
  | nil => rfl
  | cons _ _ _ ih => simp [ih]

theorem altCombine_ref (ε : ErrTy S) {p0 : Nat} {fs : List (Failure S ε.E α)}
    {gs : List (FailSem ε.E α)} (h : FRefs e p0 fs gs) {c c0 : Cursor} (hx : Ext e c0 c)
    (hp : c0.pos ≤ p0) (hb : FBound (c.limit e) fs) :
    Ref e (altCombine ε fs) c (altCombineSem ε (gs.map fun f => (f.1, f.2.1)) c.pos)
      (PPost e c0) := by
  have second : ∀ {fs : List (Failure S ε.E α)} {gs : List (FailSem ε.E α)},
      FRefs e p0 fs gs → FBound (c.limit e) fs →
      Ref e (altElse ε fs) c
      (match gs.map fun f => (f.1, f.2.1) with
        | (x, es) :: _ => .ok (.failed x es, c.pos)
        | [] => .panic "called `Option::unwrap()` on a `None` value") (PPost e c0) := by
    intro fs gs h hb
    cases h with
    | nil => exact Ref.panic
    | cons h1 _ _ => exact Ref.ret (PPost.failed hx (Nat.le_trans hp h1) (hb _ (List.mem_cons_self ..)))
  cases h with
  | nil => exact Ref.panic
  | @cons x es _ _ fs gs h1 _ h3 =>
    have hb2 : FBound (c.limit e) fs := fun f hf => hb f (List.mem_cons_of_mem _ hf)
    unfold altCombine altCombineSem
    simp only [List.map_cons]
    match es with
    | [] => exact second h3 hb2
    | _ :: _ :: _ => exact second h3 hb2
    | [d] =>
      simp only
      split
      · rw [h3.flat]
        exact Ref.ret (PPost.failed hx (Nat.le_trans hp h1) (hb _ (List.mem_cons_self ..)))
      · exact second h3 hb2

theorem FRefs.isEmpty {p0 : Nat} {fs : List (Failure S E α)} {gs : List (FailSem E α)}
    (h : FRefs e p0 fs gs) : fs.isEmpty = gs.isEmpty := by
  cases h <;> rfl

theorem PRefs.alternate (ε : ErrTy S) {ps : List (Parser S ε.E α)} {qs : List (PSem ε.E α)}
    (h : PRefs e ps qs) : PRef e (alternate ε ps) (qAlternate ε qs) := by
  intro en c hwf
  refine Ref.bind (altFirst_ref h c [] [] (Ext.refl hwf) .nil (by intro f hf; cases hf)) ?_
  rintro r c' ⟨r', j⟩ ⟨hx, hj, hm⟩
  simp only at hj hm
  subst hj
  match r, r', hm with
  | .inl o, .inl o', hm =>
    subst hm
    exact Ref.ret (PPost.success hx)
  | .inr fs, .inr gs, ⟨hf, hb⟩ =>
    simp only [hf.isEmpty]
    split
    · exact Ref.panic
    · have hs := hf.sort
      have hbs : FBound (c'.limit e) (sortDesc fs) := fun f hfm => hb f (mem_sortDesc.1 hfm)
      cases en
      · exact altCombine_ref ε hs hx (Nat.le_refl _) hbs
      · simp only [if_true]
        refine Ref.bind (altRecover_ref hs c' hx) ?_
        rintro r2 c2 ⟨r2', j2⟩ ⟨hx2, hh, hv2, hf2⟩
        cases hv2
        cases r2 with
        | some r =>
          obtain ⟨o, es, rfl⟩ := hf2 r rfl
          exact Ref.ret (PPost.recovered hx2)
        | none =>
          refine altCombine_ref ε hs hx2 (Nat.le_refl _) ?_
          exact fun f hfm => Nat.le_trans (hbs f hfm) (Ext.limit_mono' hx2.wf hh)

end

end PPC
