import Verif.SpecReport
import Verif.SemPeg
import Verif.SemPegStep
import Verif.PropsChoice
import Verif.PropsHonest

/-!
# What a failing parser reports: lemmas
-/

namespace PPC

variable {S : Sig} {N : Names S} {e : Env S} {ε : ErrTy S} {α β γ δ : Type}

/-- An error that was built from expectations (and others merged into it): what it says was expected, what it says was
found, and where. -/
inductive Says (ε : ErrTy S) : ε.E → (Option S.I → Prop) → Option S.I → At S.Loc S.Span → Prop
  | mk (expected : List (Option S.I)) (found : Option S.I) (a : At S.Loc S.Span) :
      Says ε (ε.expectedFound expected found a) (fun x => x ∈ expected) found a
  | merge {x y : ε.E} {V W : Option S.I → Prop} {f f' : Option S.I} {a a' : At S.Loc S.Span} :
      Says ε x V f a → Says ε y W f' a' → Says ε (ε.merge x y) (fun z => V z ∨ W z) f a

theorem Says.congr {x : ε.E} {V W : Option S.I → Prop} {f : Option S.I} {a : At S.Loc S.Span} (h : Says ε x V f a)
    (hw : ∀ z, V z ↔ W z) : Says ε x W f a := by
  have : V = W := funext fun z => propext (hw z)
  exact this ▸ h

/-- Errors of this type know that they are "expected …, found …" errors, and where. -/
def Speaks (ε : ErrTy S) : Prop :=
  ∀ x W f a, Says ε x W f a → ε.isExpectedFound x = true ∧ ε.location x = a

/-- The failure is the one reported. -/
def Told (e : Env S) (ε : ErrTy S) (R : Report S → Prop) (x : Nat) (es : List ε.E) : Prop :=
  ∃ r d, R r ∧ x = r.index ∧ es = [d] ∧ Says ε d r.expected (e.source x) (r.place e)

theorem Told.mono {R R' : Report S → Prop} {x : Nat} {es : List ε.E} (h : Told e ε R x es) (hR : ∀ r, R r → R' r) :
    Told e ε R' x es := by
  obtain ⟨r, d, h1, h2⟩ := h
  exact ⟨r, d, hR r h1, h2⟩

/-- Failures without recovery are those described by `R`. -/
def WY (e : Env S) (ε : ErrTy S) (q : PSem ε.E α) (R : Nat → Report S → Prop) : Prop :=
  ∀ i x es j, Valid e i → q false i = .ok (.failed x es, j) → Told e ε (R i) x es

theorem WY.mono {q : PSem ε.E α} {R R' : Nat → Report S → Prop} (h : WY e ε q R) (hR : ∀ i r, R i r → R' i r) :
    WY e ε q R' := fun i _ _ _ hi hr => (h _ _ _ _ hi hr).mono (hR i)

/-- Positions stay valid. -/
def SVR {E : Type} (e : Env S) (q : PSem E α) : Prop :=
  ∀ i r j, Valid e i → q false i = .ok (r, j) → Valid e j ∧ ∀ x es, r = .failed x es → Valid e x

/-! ## Primitive parsers -/

theorem told_mismatch {R : Report S → Prop} {exp : List (Option S.I)} {i x : Nat} {es : List ε.E} {W : Option S.I → Prop}
    (h : (mismatch e ε exp i : Res α ε.E) = .failed x es) (hw : ∀ z, z ∈ exp ↔ W z) (hR : R ⟨i, false, W⟩) :
    Told e ε R x es := by
  cases h
  exact ⟨_, _, hR, rfl, rfl, (Says.mk exp _ _).congr hw⟩

theorem matchSeq_first : ∀ (items : List S.I) (i : Nat) {j : Nat} {x : S.I},
    matchSeq e items i = some (j, x) → ∃ k, j = i + k ∧ items[k]? = some x ∧
      (∀ l z, l < k → items[l]? = some z → ∃ t, e.source (i + l) = some t ∧ S.eqI t z = true) ∧
      ∀ t, e.source (i + k) = some t → S.eqI t x = false
  | [], _, _, _, h => by cases h
  | y :: ys, i, j, x, h => by
    rw [matchSeq] at h
    split at h
    · rename_i h1
      obtain ⟨k, h2, h3, h4, h5⟩ := matchSeq_first ys (i + 1) h
      refine ⟨k + 1, by omega, by simpa using h3, fun l z hl hz => ?_, fun t ht => h5 t (by rw [← ht]; congr 1; omega)⟩
      cases l with
      | zero => simp only [List.getElem?_cons_zero, Option.some.injEq] at hz; subst hz; exact isTok_true h1
      | succ l =>
        obtain ⟨t, h6, h7⟩ := h4 l z (by omega) (by simpa using hz)
        exact ⟨t, by rw [← h6]; congr 1; omega, h7⟩
    · rename_i h1
      cases h
      exact ⟨0, rfl, by simp, fun l z hl => by omega, isTok_false h1⟩

/-! ## Wrappers -/

theorem wy_map {f : α → β} {q : PSem ε.E α} {R : Nat → Report S → Prop} (hq : WY e ε q R) : WY e ε (qMap f q) R := by
  intro i x es j hi h
  simp only [qMap, Out.bind_eq_ok] at h
  obtain ⟨⟨r, k⟩, h1, h2⟩ := h
  cases r <;> cases h2
  exact hq _ _ _ _ hi h1

theorem wy_mapWithSpan {f : α → S.Span → β} {q : PSem ε.E α} {R : Nat → Report S → Prop} (hq : WY e ε q R) :
    WY e ε (qMapWithSpan e f q) R := by
  intro i x es j hi h
  simp only [qMapWithSpan, Out.bind_eq_ok] at h
  obtain ⟨⟨r, k⟩, h1, h2⟩ := h
  cases r <;> cases h2
  exact hq _ _ _ _ hi h1

theorem wy_tryMap {f : α → S.Span → TryMapResult β ε.E} (hf : ∀ a sp, ∃ o, f a sp = .ok o)
    {q : PSem ε.E α} {R : Nat → Report S → Prop} (hq : WY e ε q R) : WY e ε (qTryMap e f q) R := by
  intro i x es j hi h
  simp only [qTryMap, Out.bind_eq_ok] at h
  obtain ⟨⟨r, k⟩, h1, h2⟩ := h
  cases r with
  | success a =>
    obtain ⟨o, ho⟩ := hf a (e.spanOf i k)
    simp only [tryMapStep, ho] at h2
    cases h2
  | recovered a es' =>
    obtain ⟨o, ho⟩ := hf a (e.spanOf i k)
    simp only [tryMapStep, ho, Out.bind_eq_ok] at h2
    obtain ⟨⟨r', k'⟩, h3, h4⟩ := h2
    cases h3
    cases h4
  | failed y es' => cases h2; exact hq _ _ _ _ hi h1

theorem wy_toRecover {q : PSem ε.E α} {s : SSem ε.E α} {R : Nat → Report S → Prop} (hq : WY e ε q R) :
    WY e ε (qToRecover q s) R := by
  intro i x es j hi h
  simp only [qToRecover, Out.bind_eq_ok] at h
  obtain ⟨⟨r, k⟩, h1, h2⟩ := h
  cases r <;> cases h2
  exact hq _ _ _ _ hi h1

/-! ## Sequences -/

theorem wy_concatLast {start : Nat} {f : β → γ} {qb : PSem ε.E β} {R : Nat → Report S → Prop} (hb : WY e ε qb R)
    {r : Option (List ε.E)} {i x j : Nat} {es : List ε.E} (hi : Valid e i)
    (h : concatLastSem false start f qb r i = .ok (.failed x es, j)) : Told e ε (R i) x es := by
  simp only [concatLastSem, Out.bind_eq_ok] at h
  obtain ⟨⟨r, k⟩, h1, h2⟩ := h
  cases r with
  | success b => exact (hf_finish h2).elim
  | recovered b es' => exact (hf_finish h2).elim
  | failed b es' => cases h2; exact hb _ _ _ _ hi h1

theorem wy_concat2 {f : α × β → γ} {qa : PSem ε.E α} {qb : PSem ε.E β} {A : Nat → α → Nat → Prop} {J : Nat → Prop}
    {R R' : Nat → Report S → Prop} (pa : PD qa A J) (sa : SVR e qa) (ha : WY e ε qa R) (hb : WY e ε qb R') :
    WY e ε (qConcat2 f qa qb) (fun i r => R i r ∨ ∃ o j, A i o j ∧ R' j r) := by
  intro i x es j hi h
  simp only [qConcat2, Out.bind_eq_ok] at h
  obtain ⟨⟨r, k⟩, h1, h2⟩ := h
  cases r with
  | success b =>
    exact (wy_concatLast hb (sa _ _ _ hi h1).1 h2).mono fun r hr => .inr ⟨b, k, pa.acc h1, hr⟩
  | recovered b es' => exact (pa.norec h1).elim
  | failed b es' => cases h2; exact (ha _ _ _ _ hi h1).mono fun r hr => .inl hr

theorem wy_concat3 {f : α × β × γ → δ} {qa : PSem ε.E α} {qb : PSem ε.E β} {qc : PSem ε.E γ}
    {A : Nat → α → Nat → Prop} {B : Nat → β → Nat → Prop} {J K : Nat → Prop} {R R' R'' : Nat → Report S → Prop}
    (pa : PD qa A J) (pb : PD qb B K) (sa : SVR e qa) (sb : SVR e qb) (ha : WY e ε qa R) (hb : WY e ε qb R')
    (hc : WY e ε qc R'') :
    WY e ε (qConcat3 f qa qb qc)
      (fun i r => R i r ∨ (∃ o j, A i o j ∧ R' j r) ∨ ∃ o j p k, A i o j ∧ B j p k ∧ R'' k r) := by
  intro i x es j hi h
  simp only [qConcat3, Out.bind_eq_ok] at h
  obtain ⟨⟨r, k⟩, h1, h2⟩ := h
  cases r with
  | success b =>
    have hk := (sa _ _ _ hi h1).1
    simp only [concatMidSem, Out.bind_eq_ok] at h2
    obtain ⟨⟨r, l⟩, h3, h4⟩ := h2
    cases r with
    | success c =>
      exact (wy_concatLast hc (sb _ _ _ hk h3).1 h4).mono
        fun r hr => .inr (.inr ⟨b, k, c, l, pa.acc h1, pb.acc h3, hr⟩)
    | recovered c es' => exact (pb.norec h3).elim
    | failed c es' => cases h4; exact (hb _ _ _ _ hk h3).mono fun r hr => .inr (.inl ⟨b, k, pa.acc h1, hr⟩)
  | recovered b es' => exact (pa.norec h1).elim
  | failed b es' => cases h2; exact (ha _ _ _ _ hi h1).mono fun r hr => .inl hr

/-- Descriptions of a list of parsers. -/
def WYs (e : Env S) (D : Defs S N) {ε : ErrTy S} : List (PSem ε.E α) → GL S N ε α → Prop
  | [], .nil => True
  | q :: qs, .cons g gs => PD q (Accepts e D g) (Rejects e D g) ∧ SVR e q ∧ WY e ε q (Reports e D g) ∧ WYs e D qs gs
  | _, _ => False

theorem wy_concatRest {D : Defs S N} {start : Nat} : ∀ (qs : List (PSem ε.E α)) (gs : GL S N ε α), WYs e D qs gs →
    ∀ (out : List α) (i x : Nat) (es : List ε.E) (j : Nat), Valid e i →
      concatRestSem false start qs out none i = .ok (.failed x es, j) → Told e ε (ReportsSome e D gs i) x es
  | [], .nil, _, out, i, x, es, j, _, h => by cases h
  | [], .cons _ _, h, _, _, _, _, _, _, _ => h.elim
  | _ :: _, .nil, h, _, _, _, _, _, _, _ => h.elim
  | q :: qs, .cons g gs, hq, out, i, x, es, j, hi, h => by
    simp only [concatRestSem, Out.bind_eq_ok] at h
    obtain ⟨⟨r', j'⟩, h1, h2⟩ := h
    cases r' with
    | success a =>
      exact (wy_concatRest qs gs hq.2.2.2 _ _ _ _ _ (hq.2.1 _ _ _ hi h1).1 h2).mono fun r hr => .later (hq.1.acc h1) hr
    | recovered a es => exact (hq.1.norec h1).elim
    | failed x es => cases h2; exact (hq.2.2.1 _ _ _ _ hi h1).mono fun r hr => .here hr

theorem wy_concat {D : Defs S N} {qs : List (PSem ε.E α)} {gs : GL S N ε α} (hq : WYs e D qs gs) :
    WY e ε (qConcat qs) (ReportsSome e D gs) := by
  intro i x es j hi h
  cases qs with
  | nil => cases h
  | cons q qs =>
    cases gs with
    | nil => exact hq.elim
    | cons g gs =>
      simp only [qConcat, Out.bind_eq_ok] at h
      obtain ⟨⟨r', j'⟩, h1, h2⟩ := h
      cases r' with
      | success a =>
        exact (wy_concatRest qs gs hq.2.2.2 _ _ _ _ _ (hq.2.1 _ _ _ hi h1).1 h2).mono
          fun r hr => .later (hq.1.acc h1) hr
      | recovered a es => exact (hq.1.norec h1).elim
      | failed x es => cases h2; exact (hq.2.2.1 _ _ _ _ hi h1).mono fun r hr => .here hr

/-! ## Choices -/

theorem place_beq (hp : ExactPlaces e) {p q : Report S} (hv : Valid e p.index) (hw : Valid e q.index) :
    At.beq S (q.place e) (p.place e) = true ↔ q.index = p.index ∧ q.byLocation = p.byLocation := by
  have h := hp _ _ hw hv
  unfold Report.place
  cases q.byLocation <;> cases p.byLocation <;> simp [At.beq, h.1, h.2]

/-- A failed alternative, and its report. -/
abbrev FailRep (S : Sig) (E α : Type) : Type := Nat × (List E × PSem E α) × Report S

/-- The failed alternative alone. -/
def FailRep.fail {E : Type} (z : FailRep S E α) : FailSem E α := (z.1, z.2.1.1, z.2.1.2)

/-- The report is that of the failure. -/
def FailRep.Ok (e : Env S) (ε : ErrTy S) (z : FailRep S ε.E α) : Prop :=
  z.1 = z.2.2.index ∧ Valid e z.1 ∧ ∃ d, z.2.1.1 = [d] ∧ Says ε d z.2.2.expected (e.source z.1) (z.2.2.place e)

theorem says_mergeAll (hs : Speaks ε) (hp : ExactPlaces e) {p : Report S} (hv : Valid e p.index) {f : Option S.I} :
    ∀ (zs : List (FailRep S ε.E α)), (∀ z ∈ zs, FailRep.Ok e ε z) → ∀ (d : ε.E) (W : Option S.I → Prop),
      Says ε d W f (p.place e) →
      Says ε (mergeAll ε d (zs.flatMap fun z => z.2.1.1))
        (fun x => W x ∨ ∃ z ∈ zs, z.2.2.index = p.index ∧ z.2.2.byLocation = p.byLocation ∧ z.2.2.expected x)
        f (p.place e)
  | [], _, d, W, h => h.congr fun x => by simp
  | z :: zs, hz, d, W, h => by
    obtain ⟨h1, h2, d', h3, h4⟩ := hz z (by simp)
    have ih := says_mergeAll hs hp hv (f := f) zs (fun z' h' => hz z' (by simp [h']))
    have hf : mergeAll ε d ((z :: zs).flatMap fun z => z.2.1.1) =
        mergeAll ε (if ε.isExpectedFound d' && At.beq S (ε.location d') (ε.location d) then ε.merge d d' else d)
          (zs.flatMap fun z => z.2.1.1) := by
      simp [List.flatMap_cons, h3, mergeAll]
    rw [hf, (hs _ _ _ _ h4).1, (hs _ _ _ _ h4).2, (hs _ _ _ _ h).2, Bool.true_and]
    have hb := place_beq hp hv (q := z.2.2) (by rw [← h1]; exact h2)
    by_cases hc : At.beq S (z.2.2.place e) (p.place e) = true
    · rw [if_pos hc]
      refine (ih _ _ (h.merge h4)).congr fun x => ?_
      have := hb.1 hc
      simp [this.1, this.2, or_assoc]
    · rw [if_neg hc]
      refine (ih _ _ h).congr fun x => ?_
      have h5 : ¬ (z.2.2.index = p.index ∧ z.2.2.byLocation = p.byLocation) := fun h => hc (hb.2 h)
      simp only [List.mem_cons, exists_eq_or_imp]
      constructor
      · rintro (h | h)
        · exact .inl h
        · exact .inr (.inr h)
      · rintro (h | h | h)
        · exact .inl h
        · exact (h5 ⟨h.1, h.2.1⟩).elim
        · exact .inr h

/-- The reports are those of the descriptions. -/
def AllW : List (Nat → Report S → Prop) → Nat → List (Report S) → Prop
  | [], _, [] => True
  | R :: Rs, i, p :: ps => R i p ∧ AllW Rs i ps
  | _, _, _ => False

/-- Descriptions of a list of parsers, all but the last of which go back when they fail. -/
def WYL (e : Env S) (ε : ErrTy S) : List (PSem ε.E α) → List (Nat → Report S → Prop) → Prop
  | [], [] => True
  | q :: qs, R :: Rs => SVR e q ∧ WY e ε q R ∧ (qs ≠ [] → RW q) ∧ WYL e ε qs Rs
  | _, _ => False

theorem wy_altFirst : ∀ (qs : List (PSem ε.E α)) (Rs : List (Nat → Report S → Prop)), WYL e ε qs Rs →
    ∀ (fails : List (FailSem ε.E α)) (i : Nat) (fs : List (FailSem ε.E α)) (j : Nat), Valid e i →
      altFirstSem qs fails i = .ok (.inr fs, j) →
      ∃ zs : List (FailRep S ε.E α), fs = fails ++ zs.map FailRep.fail ∧ AllW Rs i (zs.map fun z => z.2.2) ∧
        ∀ z ∈ zs, FailRep.Ok e ε z
  | [], [], _, fails, i, fs, j, _, h => by cases h; exact ⟨[], by simp, trivial, by simp⟩
  | [], _ :: _, h, _, _, _, _, _, _ => h.elim
  | _ :: _, [], h, _, _, _, _, _, _ => h.elim
  | q :: qs, R :: Rs, hq, fails, i, fs, j, hi, h => by
    simp only [altFirstSem, Out.bind_eq_ok] at h
    obtain ⟨⟨r', j'⟩, h1, h2⟩ := h
    cases r' with
    | success a => cases h2
    | recovered a es => cases h2
    | failed y es =>
      obtain ⟨r, d, h3, h4, h5, h6⟩ := hq.2.1 _ _ _ _ hi h1
      have hv := (hq.1 _ _ _ hi h1).2 _ _ rfl
      have hz : FailRep.Ok e ε (y, (es, q), r) := ⟨h4, hv, d, h5, h6⟩
      by_cases hl : qs = []
      · subst hl
        cases Rs with
        | nil =>
          cases h2
          exact ⟨[(y, (es, q), r)], by simp [FailRep.fail], ⟨h3, trivial⟩, by simpa using hz⟩
        | cons R' Rs => exact hq.2.2.2.elim
      · have := hq.2.2.1 hl _ _ _ _ h1
        subst this
        obtain ⟨zs, h7, h8, h9⟩ := wy_altFirst qs Rs hq.2.2.2 _ _ _ _ hi h2
        refine ⟨(y, (es, q), r) :: zs, by simp [h7, FailRep.fail], ⟨h3, h8⟩, ?_⟩
        intro z hz'
        rcases List.mem_cons.1 hz' with rfl | hz'
        · exact hz
        · exact h9 z hz'

theorem wy_alternate (hs : Speaks ε) (hp : ExactPlaces e) {qs : List (PSem ε.E α)} {Rs : List (Nat → Report S → Prop)}
    (hq : WYL e ε qs Rs) :
    WY e ε (qAlternate ε qs) (fun i r => ∃ ps, AllW Rs i ps ∧ Report.Choice ps r) := by
  intro i x es j hi h
  simp only [qAlternate, Out.bind_eq_ok] at h
  obtain ⟨⟨y, k⟩, h1, h2⟩ := h
  cases y with
  | inl o => cases h2
  | inr fs =>
    obtain ⟨zs, h3, h4, h5⟩ := wy_altFirst qs Rs hq _ _ _ _ hi h1
    simp only [List.nil_append] at h3
    subst h3
    simp only [Bool.false_eq_true, if_false] at h2
    split at h2
    · cases h2
    · rename_i hne
      have hmap : sortDesc (zs.map FailRep.fail) = (sortDesc zs).map FailRep.fail :=
        sortDesc_map FailRep.fail (fun _ => rfl) zs
      have hpref := sortDesc_preferred zs
      rw [hmap] at h2
      cases hsz : sortDesc zs with
      | nil =>
        have := hpref.perm.length_eq
        rw [hsz] at this
        have : zs = [] := List.eq_nil_of_length_eq_zero this.symm
        subst this
        simp at hne
      | cons z rest =>
        rw [hsz] at hpref h2
        have hmem : ∀ z', z' ∈ z :: rest ↔ z' ∈ zs := fun z' => hpref.perm.mem_iff
        obtain ⟨hz1, hz2, d, hz3, hz4⟩ := h5 z ((hmem z).1 (by simp))
        simp only [List.map_cons, List.map_map, altCombineSem, FailRep.fail, hz3, (hs _ _ _ _ hz4).1, if_true] at h2
        have hx := Out.ok.inj h2
        have hx1 := (Prod.mk.inj hx).1
        obtain ⟨rfl, hes⟩ := Res.failed.inj hx1
        have hfm : (rest.map ((fun f : FailSem ε.E α => (f.1, f.2.1)) ∘ FailRep.fail)).flatMap (fun f => f.2) =
            rest.flatMap fun z => z.2.1.1 := by
          rw [List.flatMap_map]; rfl
        have hes' : es = [mergeAll ε d (rest.flatMap fun z => z.2.1.1)] := by
          rw [← hes, ← hfm]
        have hsay := says_mergeAll hs hp (p := z.2.2) (by rw [← hz1]; exact hz2) rest
          (fun z' h' => h5 z' ((hmem z').1 (by simp [h']))) d _ hz4
        -- the first of the furthest alternatives
        have hfil := hpref.stable z.1
        rw [List.filter_cons] at hfil
        simp only [beq_self_eq_true, if_true] at hfil
        obtain ⟨b, c, hb1, hb2, hb3, hb4⟩ := List.filter_eq_cons_iff.1 hfil.symm
        have hle : ∀ z' ∈ zs, z'.1 ≤ z.1 := by
          intro z' hz'
          rcases List.mem_cons.1 ((hmem z').2 hz') with rfl | h
          · exact Nat.le_refl _
          · exact (List.pairwise_cons.1 hpref.sorted).1 z' h
        refine ⟨⟨z.2.2.index, z.2.2.byLocation, fun x => ∃ q ∈ zs.map (fun z => z.2.2), q.index = z.2.2.index ∧
          q.byLocation = z.2.2.byLocation ∧ q.expected x⟩, _, ⟨zs.map fun z => z.2.2, h4, ?_⟩, hz1, hes', ?_⟩
        · refine ⟨b.map fun z => z.2.2, z.2.2, c.map fun z => z.2.2, by rw [hb1]; simp, ?_, ?_, rfl, rfl, fun x => Iff.rfl⟩
          · intro q hq'
            obtain ⟨z', hz', rfl⟩ := List.mem_map.1 hq'
            have h6 : z' ∈ zs := by rw [hb1]; simp [hz']
            have h7 := hle z' h6
            have h8 := hb2 z' hz'
            rw [(h5 z' h6).1, hz1] at h7 h8
            simp only [beq_iff_eq] at h8
            omega
          · intro q hq'
            obtain ⟨z', hz', rfl⟩ := List.mem_map.1 hq'
            have h6 : z' ∈ zs := by rw [hb1]; simp [hz']
            have h7 := hle z' h6
            rw [(h5 z' h6).1, hz1] at h7
            exact h7
        · refine hsay.congr fun x => ?_
          constructor
          · rintro (h | ⟨z', h6, h7⟩)
            · exact ⟨z.2.2, List.mem_map.2 ⟨z, (hmem z).1 (by simp), rfl⟩, rfl, rfl, h⟩
            · exact ⟨z'.2.2, List.mem_map.2 ⟨z', (hmem z').1 (by simp [h6]), rfl⟩, h7⟩
          · rintro ⟨q, h6, h7⟩
            obtain ⟨z', hz', rfl⟩ := List.mem_map.1 h6
            rcases List.mem_cons.1 ((hmem z').2 hz') with rfl | h8
            · exact .inl h7.2.2
            · exact .inr ⟨z', h8, h7⟩

theorem allW_iff {D : Defs S N} : ∀ (gs : GL S N ε α) {i : Nat} {ps : List (Report S)},
    AllW (gs.toList.map fun g => Reports e D g) i ps → ReportsAll e D gs i ps
  | .nil, _, [], _ => .nil
  | .nil, _, _ :: _, h => h.elim
  | .cons _ _, _, [], h => h.elim
  | .cons _ gs, _, _ :: _, h => .cons h.1 (allW_iff gs h.2)

/-! ## Repetitions -/

theorem wy_repItem {c : RepCfg} {item : PSem ε.E α} {A : Nat → α → Nat → Prop} {J : Nat → Prop}
    {R : Nat → Report S → Prop} (hp : PD item A J) (hv : SVR e item) (hw : WY e ε item R) {start : Nat}
    {again : List α → Option (List ε.E) → Nat → Out (Res (List α) ε.E × Nat)} {out : List α}
    {before : Option Nat} {i x j : Nat} {es : List ε.E} (hi : Valid e i)
    (h : repItemSem c item false start again out none before i = .ok (.failed x es, j)) :
    ¬ (c.allowTrailing = true ∧ c.Full out.length) ∧
      ((∃ o h', A i o h' ∧ Valid e h' ∧ again (out ++ [o]) none h' = .ok (.failed x es, j)) ∨
       (out.length < c.minimum ∧ Told e ε (R i) x es)) := by
  unfold repItemSem at h
  rw [← atMax_iff]
  split at h
  · cases h
  · rename_i h1
    refine ⟨by simpa using h1, ?_⟩
    simp only [Out.bind_eq_ok, Bool.false_and] at h
    obtain ⟨⟨r', j'⟩, h1, h2⟩ := h
    cases r' with
    | success a => exact .inl ⟨a, _, hp.acc h1, (hv _ _ _ hi h1).1, h2⟩
    | recovered a es => exact (hp.norec h1).elim
    | failed y es' =>
      simp only at h2
      split at h2
      · cases (Prod.mk.inj (Out.ok.inj h2)).1
      · cases h2
        exact .inr ⟨by omega, hw _ _ _ _ hi h1⟩

/-- The parser of an optional separator. -/
def WYO (e : Env S) (D : Defs S N) {ε : ErrTy S} : Option (PSem ε.E β) → Option (G S N ε β) → Prop
  | none, none => True
  | some q, some g => PD q (Accepts e D g) (Rejects e D g) ∧ RW q ∧ SVR e q ∧ WY e ε q (Reports e D g)
  | _, _ => False

theorem wy_repLoop {D : Defs S N} {c : RepCfg} (hc : ∀ m, c.maximum = some m → c.minimum ≤ m) {item : PSem ε.E α}
    {g : G S N ε α} (hp : PD item (Accepts e D g) (Rejects e D g)) (hv : SVR e item) (hw : WY e ε item (Reports e D g))
    {sep : Option (PSem ε.E β)} {gs : Option (G S N ε β)} (hs : WYO e D sep gs) {start : Nat} :
    ∀ (fuel : Nat) (out : List α) (i x : Nat) (es : List ε.E) (j : Nat), Valid e i →
      repLoopSem c item sep false start fuel out none i = .ok (.failed x es, j) →
      Told e ε (ReportsItems e D c g gs out.length i) x es
  | 0, _, _, _, _, _, _, h => by cases h
  | fuel + 1, out, i, x, es, j, hi, h => by
    have ih := wy_repLoop hc hp hv hw hs (start := start) fuel
    have more : ∀ o h', ¬ c.Full out.length → Another e D c g gs out.length i o h' → Valid e h' →
        repLoopSem c item sep false start fuel (out ++ [o]) none h' = .ok (.failed x es, j) →
        Told e ε (ReportsItems e D c g gs out.length i) x es := by
      intro o h' h1 h2 h3 h4
      have h5 := ih _ _ _ _ _ h3 h4
      simp only [List.length_append, List.length_cons, List.length_nil, Nat.zero_add] at h5
      exact h5.mono fun r hr => .another h1 h2 hr
    unfold repLoopSem at h
    split at h
    · cases h
    · rename_i hmax
      simp only [Bool.and_eq_true, Bool.not_eq_true', atMax_iff] at hmax
      have notFull : ¬ (c.allowTrailing = true ∧ c.Full out.length) → ¬ c.Full out.length := by
        intro h1 h2
        cases ht : c.allowTrailing with
        | true => exact h1 ⟨ht, h2⟩
        | false => exact hmax ⟨ht, h2⟩
      simp only at h
      split at h
      · rename_i _ _ q hb
        cases gs with
        | none => exact hs.elim
        | some gs =>
          have hs' : PD q (Accepts e D gs) (Rejects e D gs) := hs.1
          have hws : c.WantsSep out.length := by
            cases hl : out with
            | nil => right; simpa [hl] using hb
            | cons x xs => left; simp
          simp only [Out.bind_eq_ok, Bool.false_and] at h
          obtain ⟨⟨r', j'⟩, h1, h2⟩ := h
          cases r' with
          | success a =>
            have ha := hs'.acc h1
            obtain ⟨h3, h4⟩ := wy_repItem hp hv hw (hs.2.2.1 _ _ _ hi h1).1 h2
            rcases h4 with ⟨o, h', h4, h5, h6⟩ | ⟨h4, h5⟩
            · exact more o h' (notFull h3) (.separated hws ha h4) h5 h6
            · exact h5.mono fun r hr => .tooFew (notFull h3) (.separated hws ha hr) h4
          | recovered a es => exact (hs'.norec h1).elim
          | failed y es' =>
            have hr := hs'.rej h1
            have := hs.2.1 _ _ _ _ h1
            subst this
            simp only at h2
            split at h2
            · rename_i h0
              have hl : out = [] := by simpa using h0
              have hlead : c.allowLeading = true := by
                rcases hws with hws | hws
                · simp [hl] at hws
                · exact hws
              have h00 : out.length = 0 := by simp [hl]
              obtain ⟨h3, h4⟩ := wy_repItem hp hv hw hi h2
              rcases h4 with ⟨o, h', h4, h5, h6⟩ | ⟨h4, h5⟩
              · exact more o h' (notFull h3) (by rw [h00]; exact .noLeading hlead hr h4) h5 h6
              · exact h5.mono fun r hr' => .tooFew (notFull h3) (by rw [h00]; exact .noLeading hlead hr hr') h4
            · rename_i h0
              have hpos : 0 < out.length := by
                cases hl : out with
                | nil => simp [hl] at h0
                | cons x xs => simp
              split at h2
              · cases h2
              · rename_i h5
                cases h2
                have hf : ¬ c.Full out.length := fun hf => h5 (Full.min_le hc hf)
                exact (hs.2.2.2 _ _ _ _ hi h1).mono fun r hr => .tooFew hf (.noSeparator hpos hr) (by omega)
      · rename_i sep _ _ hns
        have hn : gs = none ∨ ¬ c.WantsSep out.length := by
          cases gs with
          | none => exact .inl rfl
          | some gs =>
            right
            cases sep with
            | none => exact hs.elim
            | some q =>
              have h5 := hns q
              intro hw
              apply h5 rfl
              rcases hw with hw | hw
              · cases hl : out with
                | nil => simp [hl] at hw
                | cons x xs => rfl
              · rw [hw]; simp
        have an : ∀ o h', Accepts e D g i o h' → Another e D c g gs out.length i o h' := by
          intro o h' ha
          cases gs with
          | none => exact .plain ha
          | some gs =>
            rcases hn with hn | hn
            · cases hn
            · exact .unwanted hn ha
        have no : ∀ r, Reports e D g i r → ReportsNoOther e D c g gs out.length i r := by
          intro r ha
          cases gs with
          | none => exact .plain ha
          | some gs =>
            rcases hn with hn | hn
            · cases hn
            · exact .unwanted hn ha
        obtain ⟨h3, h4⟩ := wy_repItem hp hv hw hi h
        rcases h4 with ⟨o, h', h4, h5, h6⟩ | ⟨h4, h5⟩
        · exact more o h' (notFull h3) (an o h' h4) h5 h6
        · exact h5.mono fun r hr => .tooFew (notFull h3) (no r hr) h4

/-! ## All parsers -/

section

variable {D : Defs S N} {n : Nat}

theorem G.sem_sv (n : Nat) {ε : ErrTy S} {α : Type} (g : G S N ε α) : SVR e (g.sem e D n) := by
  intro i r j hi h
  obtain ⟨-, h1, h2⟩ := G.sem_valid D n g false hi h
  exact ⟨h1, fun x es hr => (h2 x es hr).2⟩

theorem callSem_sv (n : Nat) (k : N.K) : SVR e (callSem e D n k) := by
  have h := G.sem_sv (e := e) (D := D) n (.call k)
  rw [G.sem, G.den] at h
  exact h

mutual

/-- A failing parser without recovery and without errors of the user's own fails as specified. -/
theorem G.wy (hp : ExactPlaces e) (hN : ∀ k, Speaks (N.err k)) (hD : D.Plain)
    (hρ : ∀ k, WY e (N.err k) (callSem e D n k) (Reports e D (.call k))) :
    ∀ {ε : ErrTy S} {α : Type} (g : G S N ε α), Speaks ε → g.All (plainL S N) → g.All (noUserErrL S N) →
      WY e ε (g.sem e D n) (Reports e D g)
  | _, _, .empty, _, _, _ => by rw [G.sem, G.den]; intro i x es j _ h; cases h
  | _, _, .none _, _, _, _ => by rw [G.sem, G.den]; intro i x es j _ h; cases h
  | ε, _, .eof, _, _, _ => by
    rw [G.sem, G.den]; intro i x es j _ h
    unfold qEnd at h
    split at h
    · cases h
    · rename_i t h1
      cases h
      refine ⟨⟨i, true, _⟩, _, .eof h1, rfl, rfl, ?_⟩
      rw [h1]
      exact (Says.mk (ε := ε) [Option.none] _ _).congr fun z => by simp
  | _, _, .just t, _, _, _ => by
    rw [G.sem, G.den]; intro i x es j _ h
    simp only [qJust] at h
    split at h
    · cases h
    · rename_i h1
      exact told_mismatch (Prod.mk.inj (Out.ok.inj h)).1 (fun z => by simp) (.just (isTok_false h1))
  | _, _, .filter p, _, _, _ => by
    rw [G.sem, G.den]; intro i x es j _ h
    simp only [qFilter] at h
    split at h
    · rename_i t h1
      split at h
      · cases h
      · rename_i h2
        refine told_mismatch (Prod.mk.inj (Out.ok.inj h)).1 (fun z => by simp) (.filter fun t' ht => ?_)
        rw [h1] at ht; cases ht; simpa using h2
    · rename_i h1
      refine told_mismatch (Prod.mk.inj (Out.ok.inj h)).1 (fun z => by simp) (.filter fun t' ht => ?_)
      rw [h1] at ht; cases ht
  | _, _, .filterMap f, _, _, _ => by
    rw [G.sem, G.den]; intro i x es j _ h
    simp only [qFilterMap] at h
    cases hs : e.source i with
    | none =>
      rw [hs] at h
      refine told_mismatch (Prod.mk.inj (Out.ok.inj h)).1 (fun z => by simp) (.filterMap fun t' ht => ?_)
      rw [hs] at ht; cases ht
    | some t =>
      rw [hs] at h
      simp only [Option.bind_some] at h
      cases hf : f t with
      | none =>
        rw [hf] at h
        refine told_mismatch (Prod.mk.inj (Out.ok.inj h)).1 (fun z => by simp) (.filterMap fun t' ht => ?_)
        rw [hs] at ht; cases ht; exact hf
      | some o => rw [hf] at h; cases h
  | _, _, .seq v items, _, _, _ => by
    rw [G.sem, G.den]; intro i x es j _ h
    simp only [qSeq] at h
    split at h
    · cases h
    · rename_i hm
      obtain ⟨k, rfl, h2, h3, h4⟩ := matchSeq_first _ _ hm
      exact told_mismatch (Prod.mk.inj (Out.ok.inj h)).1 (fun z => by simp) (.seq h3 h2 h4)
  | _, _, .oneOf items, _, _, _ => by
    rw [G.sem, G.den]; intro i x es j _ h
    simp only [qOneOf] at h
    split at h
    · rename_i t h1
      split at h
      · cases h
      · rename_i h2
        refine told_mismatch (Prod.mk.inj (Out.ok.inj h)).1 (fun z => by simp [eq_comm]) (.oneOf fun t' ht y hy => ?_)
        rw [h1] at ht; cases ht
        simp only [List.any_eq_true, not_exists, not_and, Bool.not_eq_true] at h2
        exact h2 y hy
    · rename_i h1
      refine told_mismatch (Prod.mk.inj (Out.ok.inj h)).1 (fun z => by simp [eq_comm]) (.oneOf fun t' ht => ?_)
      rw [h1] at ht; cases ht
  | ε, _, .noneOf items, _, _, _ => by
    rw [G.sem, G.den]; intro i x es j _ h
    simp only [qNoneOf] at h
    split at h
    · rename_i t h1
      split at h
      · rename_i h2
        obtain ⟨y, hy, h3⟩ := List.any_eq_true.1 h2
        exact told_mismatch (Prod.mk.inj (Out.ok.inj h)).1 (fun z => by simp) (.noneOf h1 hy h3)
      · cases h
    · rename_i h1
      cases h
      refine ⟨⟨i, true, _⟩, _, .noneOfEnd h1, rfl, rfl, ?_⟩
      rw [h1]
      exact (Says.mk (ε := ε) [] _ _).congr fun z => by simp
  | _, _, .boxed g, he, h, hu => by
    rw [G.All] at h hu
    have := G.wy hp hN hD hρ g he h.2 hu.2
    rw [G.sem] at this ⊢; rw [G.den]
    exact this.mono fun _ _ => .boxed
  | _, _, .withError g, he, h, hu => by
    rw [G.All] at h hu
    have := G.wy hp hN hD hρ g he h.2 hu.2
    rw [G.sem] at this ⊢; rw [G.den]
    exact this.mono fun _ _ => .withError
  | _, _, .to g v, he, h, hu => by
    rw [G.All] at h hu
    have := G.wy hp hN hD hρ g he h.2 hu.2
    rw [G.sem] at this ⊢; rw [G.den]
    exact (wy_map this).mono fun _ _ => .to
  | _, _, .some g, he, h, hu => by
    rw [G.All] at h hu
    have := G.wy hp hN hD hρ g he h.2 hu.2
    rw [G.sem] at this ⊢; rw [G.den]
    exact (wy_map this).mono fun _ _ => .some
  | _, _, .map f g, he, h, hu => by
    rw [G.All] at h hu
    have := G.wy hp hN hD hρ g he h.2 hu.2
    rw [G.sem] at this ⊢; rw [G.den]
    exact (wy_map this).mono fun _ _ => .map
  | _, _, .mapWithSpan f g, he, h, hu => by
    rw [G.All] at h hu
    have := G.wy hp hN hD hρ g he h.2 hu.2
    rw [G.sem] at this ⊢; rw [G.den]
    exact (wy_mapWithSpan this).mono fun _ _ => .mapWithSpan
  | _, _, .mapErr f g, _, _, hu => by rw [G.All] at hu; exact hu.1.elim
  | _, _, .mapErrWithSpan f g, _, _, hu => by rw [G.All] at hu; exact hu.1.elim
  | _, _, .tryMap f g, he, h, hu => by
    rw [G.All] at h hu
    have := G.wy hp hN hD hρ g he h.2 hu.2
    rw [G.sem] at this ⊢; rw [G.den]
    exact (wy_tryMap hu.1 this).mono fun _ _ => .tryMap
  | _, _, .then_ a b, he, h, hu => by
    rw [G.All] at h hu
    have h1 := G.wy hp hN hD hρ a he h.2.1 hu.2.1
    have h2 := G.wy hp hN hD hρ b he h.2.2 hu.2.2
    have h3 := G.sem_pd (e := e) hD n a h.2.1
    have h4 := G.sem_sv (e := e) (D := D) n a
    rw [G.sem, G.den]
    refine (wy_concat2 h3 h4 h1 h2).mono ?_
    rintro i r (h5 | ⟨o, j, h5, h6⟩)
    · exact .thenFirst h5
    · exact .thenSecond h5 h6
  | _, _, .thenIgnore a b, he, h, hu => by
    rw [G.All] at h hu
    have h1 := G.wy hp hN hD hρ a he h.2.1 hu.2.1
    have h2 := G.wy hp hN hD hρ b he h.2.2 hu.2.2
    have h3 := G.sem_pd (e := e) hD n a h.2.1
    have h4 := G.sem_sv (e := e) (D := D) n a
    rw [G.sem, G.den]
    refine (wy_concat2 h3 h4 h1 h2).mono ?_
    rintro i r (h5 | ⟨o, j, h5, h6⟩)
    · exact .thenIgnoreFirst h5
    · exact .thenIgnoreSecond h5 h6
  | _, _, .ignoreThen a b, he, h, hu => by
    rw [G.All] at h hu
    have h1 := G.wy hp hN hD hρ a he h.2.1 hu.2.1
    have h2 := G.wy hp hN hD hρ b he h.2.2 hu.2.2
    have h3 := G.sem_pd (e := e) hD n a h.2.1
    have h4 := G.sem_sv (e := e) (D := D) n a
    rw [G.sem, G.den]
    refine (wy_concat2 h3 h4 h1 h2).mono ?_
    rintro i r (h5 | ⟨o, j, h5, h6⟩)
    · exact .ignoreThenFirst h5
    · exact .ignoreThenSecond h5 h6
  | _, _, .delimitedBy l m c, he, h, hu => by
    rw [G.All] at h hu
    have h1 := G.wy hp hN hD hρ l he h.2.1 hu.2.1
    have h2 := G.wy hp hN hD hρ m he h.2.2.1 hu.2.2.1
    have h3 := G.wy hp hN hD hρ c he h.2.2.2 hu.2.2.2
    have h4 := G.sem_pd (e := e) hD n l h.2.1
    have h5 := G.sem_pd (e := e) hD n m h.2.2.1
    have h6 := G.sem_sv (e := e) (D := D) n l
    have h7 := G.sem_sv (e := e) (D := D) n m
    rw [G.sem, G.den]
    refine (wy_concat3 h4 h5 h6 h7 h1 h2 h3).mono ?_
    rintro i r (h8 | ⟨o, j, h8, h9⟩ | ⟨o, j, p, k, h8, h9, h10⟩)
    · exact .delimitedByLeft h8
    · exact .delimitedByMiddle h8 h9
    · exact .delimitedByRight h8 h9 h10
  | _, _, .paddedBy p m, he, h, hu => by
    rw [G.All] at h hu
    have h1 := G.wy hp hN hD hρ p he h.2.1 hu.2.1
    have h2 := G.wy hp hN hD hρ m he h.2.2 hu.2.2
    have h4 := G.sem_pd (e := e) hD n p h.2.1
    have h5 := G.sem_pd (e := e) hD n m h.2.2
    have h6 := G.sem_sv (e := e) (D := D) n p
    have h7 := G.sem_sv (e := e) (D := D) n m
    rw [G.sem, G.den]
    refine (wy_concat3 h4 h5 h6 h7 h1 h2 h1).mono ?_
    rintro i r (h8 | ⟨o, j, h8, h9⟩ | ⟨o, j, p, k, h8, h9, h10⟩)
    · exact .paddedByLeft h8
    · exact .paddedByMiddle h8 h9
    · exact .paddedByRight h8 h9 h10
  | _, _, .chain gs, he, h, hu => by
    rw [G.All] at h hu
    have h1 := (GL.wy hp hN hD hρ gs he h.2 hu.2).1
    rw [G.sem, G.den]
    exact (wy_concat h1).mono fun _ _ => .chain
  | _, _, .or a b, he, h, hu => by
    rw [G.All] at h hu
    have h1 := G.wy hp hN hD hρ a he h.2.1 hu.2.1
    have h2 := G.wy hp hN hD hρ b he h.2.2 hu.2.2
    have h3 := G.sem_sv (e := e) (D := D) n a
    have h4 := G.sem_sv (e := e) (D := D) n b
    have h5 := G.sem_rw (e := e) hD n a h.2.1 h.1
    rw [G.sem, G.den]
    refine (wy_alternate he hp (qs := [a.sem e D n, b.sem e D n]) (Rs := [Reports e D a, Reports e D b])
      ⟨h3, h1, fun _ => h5, h4, h2, fun h => (h rfl).elim, trivial⟩).mono ?_
    rintro i r ⟨ps, h6, h7⟩
    match ps, h6 with
    | [p, q], h6 => exact .or h6.1 h6.2.1 h7
  | _, _, .orNot g, he, h, hu => by
    intro i x es j hi hr
    have := G.sem_pd (e := e) hD n (.orNot g) h
    rcases this _ _ _ hr with ⟨o, h1, -⟩ | ⟨y, es', -, h1⟩
    · cases h1
    · exact (rejects_iff.1 h1).elim
  | _, _, .alters gs, he, h, hu => by
    rw [G.All] at h hu
    have h1 := (GL.wy hp hN hD hρ gs he h.2 hu.2).2 h.1.2
    rw [G.sem, G.den]
    refine (wy_alternate he hp h1).mono ?_
    rintro i r ⟨ps, h6, h7⟩
    exact .alters (allW_iff gs h6) h7
  | _, _, .repeated c g, he, h, hu => by
    rw [G.All] at h hu
    have h1 := G.wy hp hN hD hρ g he h.2 hu.2
    have h2 := G.sem_pd (e := e) hD n g h.2
    have h3 := G.sem_sv (e := e) (D := D) n g
    have hc : ∀ m, c.maximum = Option.some m → c.minimum ≤ m := h.1.1
    rw [G.sem, G.den]
    intro i x es j hi hr
    exact (wy_repLoop hc h2 h3 h1 (gs := Option.none) (by exact trivial) n [] i x es j hi hr).mono fun _ => .repeated
  | _, _, .separatedBy c g sep, he, h, hu => by
    rw [G.All] at h hu
    have h1 := G.wy hp hN hD hρ g he h.2.1 hu.2.1
    have h2 := G.sem_pd (e := e) hD n g h.2.1
    have h3 := G.sem_sv (e := e) (D := D) n g
    have h4 := G.wy hp hN hD hρ sep he h.2.2 hu.2.2
    have h5 := G.sem_pd (e := e) hD n sep h.2.2
    have h6 := G.sem_sv (e := e) (D := D) n sep
    have h7 := G.sem_rw (e := e) hD n sep h.2.2 h.1.2.2
    have hc : ∀ m, c.maximum = Option.some m → c.minimum ≤ m := h.1.1
    rw [G.sem, G.den]
    intro i x es j hi hr
    exact (wy_repLoop hc h2 h3 h1 (sep := Option.some (sep.sem e D n)) (gs := Option.some sep) ⟨h5, h7, h6, h4⟩
      n [] i x es j hi hr).mono fun _ => .separatedBy
  | _, _, .toRecover g st, he, h, hu => by
    rw [G.All] at h hu
    have := G.wy hp hN hD hρ g he h.2.1 hu.2.1
    rw [G.sem] at this ⊢; rw [G.den]
    exact (wy_toRecover this).mono fun _ _ => .toRecover
  | _, _, .call k, _, _, _ => by rw [G.sem, G.den]; exact hρ k

theorem GL.wy (hp : ExactPlaces e) (hN : ∀ k, Speaks (N.err k)) (hD : D.Plain)
    (hρ : ∀ k, WY e (N.err k) (callSem e D n k) (Reports e D (.call k))) :
    ∀ {ε : ErrTy S} {α : Type} (gs : GL S N ε α), Speaks ε → gs.All (plainL S N) → gs.All (noUserErrL S N) →
      WYs e D (gs.den e (callSem e D n) n) gs ∧
      (gs.InitTidy → WYL e ε (gs.den e (callSem e D n) n) (gs.toList.map fun g => Reports e D g))
  | _, _, .nil, _, _, _ => by rw [GL.den]; exact ⟨trivial, fun _ => trivial⟩
  | _, _, .cons g gs, he, h, hu => by
    rw [GL.All] at h hu
    have h1 := G.wy hp hN hD hρ g he h.1 hu.1
    have h2 := GL.wy hp hN hD hρ gs he h.2 hu.2
    have h3 := G.sem_pd (e := e) hD n g h.1
    have h4 := G.sem_sv (e := e) (D := D) n g
    rw [GL.den]
    refine ⟨⟨h3, h4, h1, h2.1⟩, fun ht => ⟨h4, h1, fun hl => ?_, ?_⟩⟩
    · cases gs with
      | nil => rw [GL.den] at hl; exact (hl rfl).elim
      | cons g' gs => rw [GL.InitTidy] at ht; exact G.sem_rw hD n g h.1 ht.1
    · cases gs with
      | nil => exact h2.2 trivial
      | cons g' gs => rw [GL.InitTidy] at ht; exact h2.2 ht.2

end

theorem callSem_wy (hp : ExactPlaces e) (hN : ∀ k, Speaks (N.err k)) (hD : D.Plain) (hU : D.All (noUserErrL S N)) :
    ∀ (n : Nat) (k : N.K), WY e (N.err k) (callSem e D n k) (Reports e D (.call k))
  | 0, k, i, x, es, j, _, h => by cases h
  | n + 1, k, i, x, es, j, hi, h => by
    rw [callSem] at h
    cases hk : D k with
    | none => rw [hk] at h; cases h
    | some g =>
      rw [hk] at h
      exact (G.wy hp hN hD (callSem_wy hp hN hD hU n) g (hN k) (hD k g hk).1 (hU k g hk) _ _ _ _ hi h).mono
        fun _ => .call hk

theorem G.sem_wy (hp : ExactPlaces e) (hN : ∀ k, Speaks (N.err k)) (hD : D.Plain) (hU : D.All (noUserErrL S N))
    (n : Nat) {ε : ErrTy S} {α : Type} (g : G S N ε α) (he : Speaks ε) (hg : g.All (plainL S N))
    (hu : g.All (noUserErrL S N)) : WY e ε (g.sem e D n) (Reports e D g) :=
  G.wy hp hN hD (callSem_wy hp hN hD hU n) g he hg hu

end

end PPC
