import Verif.SpecHonest
import Verif.SemErr

/-!
# Truthful error reports: lemmas

Every error of every result has a property `T`, if `T` holds of the errors that the primitives make at
valid positions, of merged errors, and of the errors made by user functions.
-/

namespace PPC

variable {S : Sig} {N : Names S} {e : Env S}

/-- A property of errors that the library's own errors have. -/
structure ErrClosed (e : Env S) (T : (ε : ErrTy S) → ε.E → Prop) : Prop where
  span : ∀ ε exp k, Valid e k → Unmet exp (e.source k) → T ε (ε.expectedFound exp (e.source k) (.span (e.here k)))
  location : ∀ ε exp k, Valid e k → Unmet exp (e.source k) → T ε (ε.expectedFound exp (e.source k) (.location (e.locationAt k)))
  merge : ∀ ε x y, T ε x → T ε y → At.beq S (ε.location y) (ε.location x) = true → T ε (ε.merge x y)

theorem Unmet.nil {found : Option S.I} : Unmet [] found := ⟨fun _ _ h => (by cases h), fun h => (by cases h)⟩

theorem Unmet.tok {found : Option S.I} {x : S.I} (h : ¬isTok S found x = true) : Unmet [some x] found := by
  refine ⟨fun y t hy ht => ?_, fun h => by simp at h⟩
  subst ht
  have : y = x := by simpa using hy
  subst this
  simpa [isTok] using h

theorem Unmet.eof {t : S.I} : Unmet [none] (some t) := ⟨fun y t hy _ => by simp at hy, fun _ h => by cases h⟩

theorem Unmet.items {items : List S.I} {t : S.I} (h : ¬items.any (fun x => S.eqI t x) = true) :
    Unmet (items.map some) (some t) := by
  refine ⟨fun y t' hy ht => ?_, fun h => by simp at h⟩
  cases ht
  simp only [List.any_eq_true, not_exists, not_and, Bool.not_eq_true] at h
  exact h y (by simpa using hy)

theorem Unmet.itemsEof {items : List S.I} : Unmet (items.map some) none :=
  ⟨fun _ _ _ h => (by cases h), fun h => by simp at h⟩

/-- All errors of a result have property `T`, and its positions are valid. -/
def HR {α E : Type} (e : Env S) (T : E → Prop) (r : Res α E) (j : Nat) : Prop :=
  Valid e j ∧ r.AllErrors T ∧ ∀ x es, r = .failed x es → Valid e x

/-- Results of a parser started at a valid position. -/
def HE {α E : Type} (e : Env S) (T : E → Prop) (q : PSem E α) : Prop :=
  ∀ en i r j, Valid e i → q en i = .ok (r, j) → HR e T r j

/-- Errors and positions of a strategy. -/
def SHE {α E : Type} (e : Env S) (T : E → Prop) (s : SSem E α) : Prop :=
  ∀ q, HE e T q → ∀ st fa es i o fa' es' j, Valid e st → Valid e fa → Valid e i → (∀ x ∈ es, T x) →
    s q st fa es i = .ok ((o, fa', es'), j) → Valid e j ∧ Valid e fa' ∧ ∀ x ∈ es', T x

theorem HR.success {α E : Type} {T : E → Prop} {o : α} {j : Nat} (h : Valid e j) : HR e T (.success o) j :=
  ⟨h, trivial, fun _ _ h => by cases h⟩

theorem HR.recovered {α E : Type} {T : E → Prop} {o : α} {es : List E} {j : Nat} (h : Valid e j)
    (hs : ∀ x ∈ es, T x) : HR e T (.recovered o es) j :=
  ⟨h, hs, fun _ _ h => by cases h⟩

theorem HR.failed {α E : Type} {T : E → Prop} {es : List E} {j x : Nat} (h : Valid e j) (hx : Valid e x)
    (hs : ∀ x ∈ es, T x) : HR e T (.failed x es : Res α E) j :=
  ⟨h, hs, fun _ _ h => by cases h; exact hx⟩

/-! ## Primitives -/

section

variable {T : (ε : ErrTy S) → ε.E → Prop}

theorem hr_mismatch {α : Type} (hT : ErrClosed e T) {ε : ErrTy S} {exp : List (Option S.I)} {i j : Nat}
    (hi : Valid e i) (hj : Valid e j) (hu : Unmet exp (e.source i)) : HR e (T ε) (mismatch e ε exp i : Res α ε.E) j :=
  .failed hj hi (by intro x hx; rw [List.mem_singleton.1 hx]; exact hT.span ε exp i hi hu)

theorem he_empty {E : Type} {T : E → Prop} : HE e T qEmpty := by
  intro en i r j hv h; cases h; exact .success hv

theorem he_none {E α : Type} {T : E → Prop} : HE e T (qNone (α := α)) := by
  intro en i r j hv h; cases h; exact .success hv

theorem he_end (hT : ErrClosed e T) {ε : ErrTy S} : HE e (T ε) (qEnd e ε) := by
  intro en i r j hv h
  unfold qEnd at h
  split at h <;> cases h
  · exact .success hv
  · rename_i t ht
    refine .failed hv hv ?_
    intro x hx
    rw [List.mem_singleton.1 hx]
    have := hT.location ε [none] i hv (by rw [ht]; exact .eof)
    rwa [ht] at this

theorem he_just (hT : ErrClosed e T) {ε : ErrTy S} {t : S.I} : HE e (T ε) (qJust e ε t) := by
  intro en i r j hv h
  simp only [qJust] at h
  split at h
  · rename_i ht; cases h; exact .success (hv.succ (isTok_some ht))
  · rename_i ht; cases h; exact hr_mismatch hT hv hv (.tok ht)

theorem he_filter (hT : ErrClosed e T) {ε : ErrTy S} {p : S.I → Bool} : HE e (T ε) (qFilter e ε p) := by
  intro en i r j hv h
  simp only [qFilter] at h
  split at h
  · rename_i t ht
    split at h
    · cases h; exact .success (hv.succ (by rw [ht]; rfl))
    · cases h; exact hr_mismatch hT hv hv .nil
  · cases h; exact hr_mismatch hT hv hv .nil

theorem he_filterMap (hT : ErrClosed e T) {ε : ErrTy S} {α : Type} {f : S.I → Option α} :
    HE e (T ε) (qFilterMap e ε f) := by
  intro en i r j hv h
  simp only [qFilterMap] at h
  split at h
  · rename_i o ht
    cases h
    refine .success (hv.succ ?_)
    cases hs : e.source i with
    | none => rw [hs] at ht; cases ht
    | some t => rfl
  · cases h; exact hr_mismatch hT hv hv .nil

theorem matchSeq_valid : ∀ (xs : List S.I) (i : Nat), Valid e i →
    (matchSeq e xs i = none → Valid e (i + xs.length)) ∧
      ∀ j x, matchSeq e xs i = some (j, x) → Valid e j ∧ ¬isTok S (e.source j) x = true
  | [], i, hv => ⟨fun _ => hv, fun j x h => by cases h⟩
  | y :: ys, i, hv => by
    unfold matchSeq
    split
    · rename_i ht
      have := matchSeq_valid ys (i + 1) (hv.succ (isTok_some ht))
      refine ⟨fun h => ?_, this.2⟩
      have h1 := this.1 h
      rwa [show i + (y :: ys).length = i + 1 + ys.length by simp only [List.length_cons]; omega]
    · rename_i ht
      exact ⟨fun h => (by cases h), fun j x h => (by cases h; exact ⟨hv, ht⟩)⟩

theorem he_seq (hT : ErrClosed e T) {ε : ErrTy S} {α : Type} {v : α} {items : List S.I} :
    HE e (T ε) (qSeq e ε v items) := by
  intro en i r j hv h
  have hm := matchSeq_valid items i hv
  simp only [qSeq] at h
  split at h
  · rename_i h1; cases h; exact .success (hm.1 h1)
  · rename_i h1; cases h; exact hr_mismatch hT (hm.2 _ _ h1).1 hv (.tok (hm.2 _ _ h1).2)

theorem he_oneOf (hT : ErrClosed e T) {ε : ErrTy S} {items : List S.I} : HE e (T ε) (qOneOf e ε items) := by
  intro en i r j hv h
  simp only [qOneOf] at h
  split at h
  · rename_i t ht
    split at h
    · cases h; exact .success (hv.succ (by rw [ht]; rfl))
    · rename_i hu; cases h; exact hr_mismatch hT hv hv (by rw [ht]; exact .items hu)
  · rename_i ht; cases h; exact hr_mismatch hT hv hv (by rw [ht]; exact .itemsEof)

theorem he_noneOf (hT : ErrClosed e T) {ε : ErrTy S} {items : List S.I} : HE e (T ε) (qNoneOf e ε items) := by
  intro en i r j hv h
  simp only [qNoneOf] at h
  split at h
  · rename_i t ht
    split at h
    · cases h; exact hr_mismatch hT hv hv .nil
    · cases h; exact .success (hv.succ (by rw [ht]; rfl))
  · rename_i ht
    cases h
    refine .failed hv hv ?_
    intro x hx
    rw [List.mem_singleton.1 hx]
    have := hT.location ε [] i hv .nil
    rwa [ht] at this

end

section

variable {E : Type} {T : E → Prop}

/-! ## Mapping -/

theorem he_map {α β : Type} {f : α → β} {q : PSem E α} (hq : HE e T q) : HE e T (qMap f q) := by
  intro en i r j hv h
  simp only [qMap, Out.bind_eq_ok] at h
  obtain ⟨⟨r, k⟩, h1, h2⟩ := h
  have h3 := hq _ _ _ _ hv h1
  cases r <;> cases h2
  · exact .success h3.1
  · exact .recovered h3.1 h3.2.1
  · exact .failed h3.1 (h3.2.2 _ _ rfl) h3.2.1

theorem he_mapWithSpan {α β : Type} {f : α → S.Span → β} {q : PSem E α} (hq : HE e T q) :
    HE e T (qMapWithSpan e f q) := by
  intro en i r j hv h
  simp only [qMapWithSpan, Out.bind_eq_ok] at h
  obtain ⟨⟨r, k⟩, h1, h2⟩ := h
  have h3 := hq _ _ _ _ hv h1
  cases r <;> cases h2
  · exact .success h3.1
  · exact .recovered h3.1 h3.2.1
  · exact .failed h3.1 (h3.2.2 _ _ rfl) h3.2.1

theorem he_mapErr {X α : Type} {T' : X → Prop} {f : X → E} (hf : ∀ x, T' x → T (f x)) {q : PSem X α}
    (hq : HE e T' q) : HE e T (qMapErr f q) := by
  intro en i r j hv h
  simp only [qMapErr, Out.bind_eq_ok] at h
  obtain ⟨⟨r, k⟩, h1, h2⟩ := h
  have h3 := hq _ _ _ _ hv h1
  have hm : ∀ es : List X, (∀ x ∈ es, T' x) → ∀ x ∈ es.map f, T x := by
    intro es hes x hx
    obtain ⟨y, hy, rfl⟩ := List.mem_map.1 hx
    exact hf y (hes y hy)
  cases r <;> cases h2
  · exact .success h3.1
  · exact .recovered h3.1 (hm _ h3.2.1)
  · exact .failed h3.1 (h3.2.2 _ _ rfl) (hm _ h3.2.1)

theorem he_mapErrWithSpan {X α : Type} {T' : X → Prop} {f : X → S.Span → E}
    (hf : ∀ x sp, T' x → T (f x sp)) {q : PSem X α} (hq : HE e T' q) : HE e T (qMapErrWithSpan e f q) := by
  intro en i r j hv h
  simp only [qMapErrWithSpan, Out.bind_eq_ok] at h
  obtain ⟨⟨r, k⟩, h1, h2⟩ := h
  have h3 := hq _ _ _ _ hv h1
  have hm : ∀ (es : List X) (sp : S.Span), (∀ x ∈ es, T' x) → ∀ x ∈ es.map (fun x => f x sp), T x := by
    intro es sp hes x hx
    obtain ⟨y, hy, rfl⟩ := List.mem_map.1 hx
    exact hf y sp (hes y hy)
  cases r <;> cases h2
  · exact .success h3.1
  · exact .recovered h3.1 (hm _ _ h3.2.1)
  · exact .failed h3.1 (h3.2.2 _ _ rfl) (hm _ _ h3.2.1)

/-- The errors that a function given to `try_map` makes. -/
def TryErrs {α β : Type} (S : Sig) (T : E → Prop) (f : α → S.Span → TryMapResult β E) : Prop :=
  (∀ a sp es, f a sp = .err es → ∀ x ∈ es, T x) ∧ ∀ a sp o es, f a sp = .recovered o es → ∀ x ∈ es, T x

theorem he_tryMapStep {α β : Type} {f : α → S.Span → TryMapResult β E} (hf : TryErrs S T f) {en : Bool}
    {i j k : Nat} {a : α} {r : Res β E} (hi : Valid e i) (hj : Valid e j)
    (h : tryMapStep e f en i j a = .ok (r, k)) : HR e T r k := by
  unfold tryMapStep at h
  split at h
  · cases h; exact .success hj
  · rename_i es h0
    split at h <;> cases h
    exact .failed hi hi (hf.1 _ _ _ h0)
  · rename_i o es h0
    split at h
    · cases h
    · split at h <;> cases h
      · exact .recovered hj (hf.2 _ _ _ _ h0)
      · exact .failed hj hi (hf.2 _ _ _ _ h0)

theorem mem_append_all {es es' : List E} (h : ∀ x ∈ es, T x) (h' : ∀ x ∈ es', T x) : ∀ x ∈ es ++ es', T x := by
  intro x hx
  rcases List.mem_append.1 hx with h1 | h1
  · exact h x h1
  · exact h' x h1

theorem mem_snoc_all {es : List E} {y : E} (h : ∀ x ∈ es, T x) (h' : T y) : ∀ x ∈ es ++ [y], T x :=
  mem_append_all h (by intro x hx; rw [List.mem_singleton.1 hx]; exact h')

theorem he_tryMap {α β : Type} {f : α → S.Span → TryMapResult β E} (hf : TryErrs S T f) {q : PSem E α}
    (hq : HE e T q) : HE e T (qTryMap e f q) := by
  intro en i r j hv h
  simp only [qTryMap, Out.bind_eq_ok] at h
  obtain ⟨⟨r, k⟩, h1, h2⟩ := h
  have h3 := hq _ _ _ _ hv h1
  cases r with
  | success x => exact he_tryMapStep hf hv h3.1 h2
  | recovered x es' =>
    simp only [Out.bind_eq_ok] at h2
    obtain ⟨⟨r', k'⟩, h4, h5⟩ := h2
    have h6 := he_tryMapStep hf hv h3.1 h4
    cases r' <;> cases h5
    · exact .success h6.1
    · exact .recovered h6.1 (mem_append_all h3.2.1 h6.2.1)
    · exact .failed h6.1 (h6.2.2 _ _ rfl) (mem_append_all h3.2.1 h6.2.1)
  | failed x es' => cases h2; exact .failed h3.1 (h3.2.2 _ _ rfl) h3.2.1

/-! ## Sequencing -/

/-- Recovered errors collected so far. -/
def RecAll (T : E → Prop) (r : Option (List E)) : Prop := ∀ es, r = some es → ∀ x ∈ es, T x

theorem RecAll.none : RecAll T (none : Option (List E)) := by intro es h; cases h

theorem RecAll.some {es : List E} (h : ∀ x ∈ es, T x) : RecAll T (some es) := by
  intro es' h'; cases h'; exact h

theorem RecAll.extend {r : Option (List E)} {es : List E} (hr : RecAll T r) (h : ∀ x ∈ es, T x) :
    RecAll T (extendRec r es) := by
  cases r with
  | none => exact .some h
  | some es0 => exact .some (mem_append_all (hr _ rfl) h)

theorem he_finish {α : Type} {en : Bool} {o : α} {r : Option (List E)} {j k : Nat}
    {x : Res α E} (hj : Valid e j) (hr : RecAll T r) (h : finishSem en o r j = .ok (x, k)) : HR e T x k := by
  unfold finishSem at h
  split at h
  · split at h <;> cases h; exact .recovered hj (hr _ rfl)
  · cases h; exact .success hj

theorem he_concatRest {α : Type} {en : Bool} {start : Nat} (hst : Valid e start) :
    ∀ (qs : List (PSem E α)) (out : List α) (r : Option (List E)) (i : Nat),
    (∀ q ∈ qs, HE e T q) → RecAll T r → Valid e i → ∀ x j,
      concatRestSem en start qs out r i = .ok (x, j) → HR e T x j
  | [], out, r, i, _, hr, hi, x, j, h => by
    rw [concatRestSem] at h; exact he_finish hi hr h
  | q :: qs, out, r, i, hq, hr, hi, x, j, h => by
    simp only [concatRestSem, Out.bind_eq_ok] at h
    obtain ⟨⟨r, k⟩, h1, h2⟩ := h
    have h3 := hq q (by simp) _ _ _ _ hi h1
    cases r with
    | success b => exact he_concatRest hst qs _ _ _ (fun q' h' => hq q' (by simp [h'])) hr h3.1 _ _ h2
    | recovered b es' =>
      exact he_concatRest hst qs _ _ _ (fun q' h' => hq q' (by simp [h'])) (hr.extend h3.2.1) h3.1 _ _ h2
    | failed b es' => cases h2; exact .failed hst (h3.2.2 _ _ rfl) h3.2.1

theorem he_concat {α : Type} {qs : List (PSem E α)} (hq : ∀ q ∈ qs, HE e T q) : HE e T (qConcat qs) := by
  intro en i x j hv h
  cases qs with
  | nil => cases h; exact .success hv
  | cons q qs =>
    simp only [qConcat, Out.bind_eq_ok] at h
    obtain ⟨⟨r, k⟩, h1, h2⟩ := h
    have h3 := hq q (by simp) _ _ _ _ hv h1
    cases r with
    | success b => exact he_concatRest hv qs _ _ _ (fun q' h' => hq q' (by simp [h'])) .none h3.1 _ _ h2
    | recovered b es' =>
      exact he_concatRest hv qs _ _ _ (fun q' h' => hq q' (by simp [h'])) (.some h3.2.1) h3.1 _ _ h2
    | failed b es' => cases h2; exact .failed h3.1 (h3.2.2 _ _ rfl) h3.2.1

theorem he_concatLast {β γ : Type} {en : Bool} {start : Nat} (hst : Valid e start) {f : β → γ}
    {qb : PSem E β} (hb : HE e T qb) {r : Option (List E)} {i : Nat} {x : Res γ E} {j : Nat}
    (hr : RecAll T r) (hi : Valid e i) (h : concatLastSem en start f qb r i = .ok (x, j)) : HR e T x j := by
  simp only [concatLastSem, Out.bind_eq_ok] at h
  obtain ⟨⟨r, k⟩, h1, h2⟩ := h
  have h3 := hb _ _ _ _ hi h1
  cases r with
  | success b => exact he_finish h3.1 hr h2
  | recovered b es' => exact he_finish h3.1 (hr.extend h3.2.1) h2
  | failed b es' => cases h2; exact .failed hst (h3.2.2 _ _ rfl) h3.2.1

theorem he_concat2 {α β γ : Type} {f : α × β → γ} {qa : PSem E α} {qb : PSem E β} (ha : HE e T qa)
    (hb : HE e T qb) : HE e T (qConcat2 f qa qb) := by
  intro en i x j hv h
  simp only [qConcat2, Out.bind_eq_ok] at h
  obtain ⟨⟨r, k⟩, h1, h2⟩ := h
  have h3 := ha _ _ _ _ hv h1
  cases r with
  | success b => exact he_concatLast hv hb .none h3.1 h2
  | recovered b es' => exact he_concatLast hv hb (.some h3.2.1) h3.1 h2
  | failed b es' => cases h2; exact .failed h3.1 (h3.2.2 _ _ rfl) h3.2.1

theorem he_concatMid {β γ δ : Type} {en : Bool} {start : Nat} (hst : Valid e start) {f : β × γ → δ}
    {qb : PSem E β} {qc : PSem E γ} (hb : HE e T qb) (hc : HE e T qc) {r : Option (List E)} {i : Nat}
    {x : Res δ E} {j : Nat} (hr : RecAll T r) (hi : Valid e i)
    (h : concatMidSem en start f qb qc r i = .ok (x, j)) : HR e T x j := by
  simp only [concatMidSem, Out.bind_eq_ok] at h
  obtain ⟨⟨r, k⟩, h1, h2⟩ := h
  have h3 := hb _ _ _ _ hi h1
  cases r with
  | success b => exact he_concatLast hst hc hr h3.1 h2
  | recovered b es' => exact he_concatLast hst hc (hr.extend h3.2.1) h3.1 h2
  | failed b es' => cases h2; exact .failed hst (h3.2.2 _ _ rfl) h3.2.1

theorem he_concat3 {α β γ δ : Type} {f : α × β × γ → δ} {qa : PSem E α} {qb : PSem E β}
    {qc : PSem E γ} (ha : HE e T qa) (hb : HE e T qb) (hc : HE e T qc) : HE e T (qConcat3 f qa qb qc) := by
  intro en i x j hv h
  simp only [qConcat3, Out.bind_eq_ok] at h
  obtain ⟨⟨r, k⟩, h1, h2⟩ := h
  have h3 := ha _ _ _ _ hv h1
  cases r with
  | success b => exact he_concatMid hv hb hc .none h3.1 h2
  | recovered b es' => exact he_concatMid hv hb hc (.some h3.2.1) h3.1 h2
  | failed b es' => cases h2; exact .failed h3.1 (h3.2.2 _ _ rfl) h3.2.1

/-! ## Repetition -/

theorem he_repItem {α : Type} {cfg : RepCfg} {item : PSem E α} (hi : HE e T item) {en : Bool}
    {start : Nat} (hst : Valid e start)
    {again : List α → Option (List E) → Nat → Out (Res (List α) E × Nat)}
    (ha : ∀ out r i x j, RecAll T r → Valid e i → again out r i = .ok (x, j) → HR e T x j)
    {out : List α} {r : Option (List E)} {before : Option Nat} {i : Nat} {x : Res (List α) E}
    {j : Nat} (hr : RecAll T r) (hv : Valid e i) (hb : ∀ b, before = some b → Valid e b)
    (h : repItemSem cfg item en start again out r before i = .ok (x, j)) : HR e T x j := by
  unfold repItemSem at h
  split at h
  · exact he_finish hv hr h
  · simp only [Out.bind_eq_ok] at h
    obtain ⟨⟨r, k⟩, h1, h2⟩ := h
    have h3 := hi _ _ _ _ hv h1
    cases r with
    | success x => exact ha _ _ _ _ _ hr h3.1 h2
    | recovered x es' => exact ha _ _ _ _ _ (hr.extend h3.2.1) h3.1 h2
    | failed x es' =>
      simp only at h2
      split at h2
      · obtain ⟨h5, h6⟩ := Prod.mk.inj (Out.ok.inj h2)
        rw [← h5]
        refine .success ?_
        rw [← h6]
        split
        · split
          · exact h3.1
          · exact hb _ rfl
        · exact h3.1
      · cases h2; exact .failed hst (h3.2.2 _ _ rfl) h3.2.1

theorem he_repLoop {α β : Type} {cfg : RepCfg} {item : PSem E α} {sep : Option (PSem E β)}
    (hi : HE e T item) (hs : ∀ q, sep = some q → HE e T q) {en : Bool} {start : Nat} (hst : Valid e start) :
    ∀ (fuel : Nat) (out : List α) (r : Option (List E)) (i : Nat) (x : Res (List α) E) (j : Nat),
      RecAll T r → Valid e i → repLoopSem cfg item sep en start fuel out r i = .ok (x, j) → HR e T x j
  | 0, _, _, _, _, _, _, _, h => by cases h
  | fuel + 1, out, r, i, x, j, hr, hv, h => by
    have ih := he_repLoop (cfg := cfg) hi hs (en := en) hst fuel
    unfold repLoopSem at h
    split at h
    · exact he_finish hv hr h
    · simp only at h
      split at h
      · rename_i q _ _
        simp only [Out.bind_eq_ok] at h
        obtain ⟨⟨r, k⟩, h1, h2⟩ := h
        have h3 := hs _ rfl _ _ _ _ hv h1
        have hb : ∀ b, some i = some b → Valid e b := by intro b hb; cases hb; exact hv
        cases r with
        | success x => exact he_repItem hi hst ih hr h3.1 hb h2
        | recovered x es' => exact he_repItem hi hst ih (hr.extend h3.2.1) h3.1 hb h2
        | failed x es' =>
          simp only at h2
          split at h2
          · exact he_repItem hi hst ih hr h3.1 hb h2
          · split at h2 <;> cases h2
            · exact .success h3.1
            · exact .failed hst (h3.2.2 _ _ rfl) h3.2.1
      · exact he_repItem hi hst ih hr hv (fun b hb => by cases hb) h

theorem he_repeat {α β : Type} {fuel : Nat} {cfg : RepCfg} {item : PSem E α}
    {sep : Option (PSem E β)} (hi : HE e T item) (hs : ∀ q, sep = some q → HE e T q) :
    HE e T (qRepeat fuel cfg item sep) :=
  fun _ i x j hv h => he_repLoop hi hs hv fuel [] none i x j .none hv h

/-! ## Choice -/

/-- What is known of a failed alternative. -/
def FailOk {α : Type} (e : Env S) (T : E → Prop) (f : FailSem E α) : Prop :=
  Valid e f.1 ∧ (∀ x ∈ f.2.1, T x) ∧ HE e T f.2.2

theorem he_altFirst {α : Type} : ∀ (qs : List (PSem E α)) (fails : List (FailSem E α)) (i : Nat),
    (∀ q ∈ qs, HE e T q) → (∀ f ∈ fails, FailOk e T f) → Valid e i → ∀ y j,
      altFirstSem qs fails i = .ok (y, j) → Valid e j ∧ ∀ fs, y = .inr fs → ∀ f ∈ fs, FailOk e T f
  | [], fails, i, hq, hf, hi, y, j, h => by cases h; exact ⟨hi, fun fs h => by cases h; exact hf⟩
  | q :: qs, fails, i, hq, hf, hi, y, j, h => by
    simp only [altFirstSem, Out.bind_eq_ok] at h
    obtain ⟨⟨r, k⟩, h1, h2⟩ := h
    have h3 := hq q (by simp) _ _ _ _ hi h1
    cases r with
    | success o => cases h2; exact ⟨h3.1, fun fs h => by cases h⟩
    | recovered o es => cases h2
    | failed y es =>
      refine he_altFirst qs _ _ (fun q' h' => hq q' (by simp [h'])) ?_ h3.1 _ _ h2
      exact mem_snoc_all hf ⟨h3.2.2 _ _ rfl, h3.2.1, hq q (by simp)⟩

theorem he_altRecover {α : Type} : ∀ (fails : List (FailSem E α)) (i : Nat),
    (∀ f ∈ fails, HE e T f.2.2) → Valid e i → ∀ x j, altRecoverSem fails i = .ok (x, j) →
      Valid e j ∧ ∀ r, x = some r → HR e T r j
  | [], _, _, hi, x, j, h => by cases h; exact ⟨hi, fun r h => by cases h⟩
  | (y, es, q) :: rest, i, hq, hi, x, j, h => by
    simp only [altRecoverSem, Out.bind_eq_ok] at h
    obtain ⟨⟨r, k⟩, h1, h2⟩ := h
    have h3 := hq _ List.mem_cons_self _ _ _ _ hi h1
    cases r with
    | success o => cases h2
    | recovered o es' => cases h2; exact ⟨h3.1, fun r h => by cases h; exact h3⟩
    | failed y' es' => exact he_altRecover rest _ (fun f hf => hq f (by simp [hf])) h3.1 _ _ h2

end

theorem mergeAll_closed {ε : ErrTy S} {T : ε.E → Prop}
    (hm : ∀ x y, T x → T y → At.beq S (ε.location y) (ε.location x) = true → T (ε.merge x y)) :
    ∀ (es : List ε.E) (d : ε.E), T d → (∀ x ∈ es, T x) → T (mergeAll ε d es)
  | [], d, hd, _ => hd
  | y :: ys, d, hd, h => by
    show T (mergeAll ε _ ys)
    refine mergeAll_closed hm ys _ ?_ (fun x hx => h x (by simp [hx]))
    simp only
    split
    · rename_i hc
      simp only [Bool.and_eq_true] at hc
      exact hm _ _ hd (h y (by simp)) hc.2
    · exact hd

section

variable {T : (ε : ErrTy S) → ε.E → Prop}

theorem he_altCombine (hT : ErrClosed e T) {α : Type} {ε : ErrTy S} {fails : List (Nat × List ε.E)} {i : Nat}
    (hi : Valid e i) (hf : ∀ f ∈ fails, Valid e f.1 ∧ ∀ x ∈ f.2, T ε x) {r : Res α ε.E} {j : Nat}
    (h : altCombineSem ε fails i = .ok (r, j)) : HR e (T ε) r j := by
  unfold altCombineSem at h
  simp only at h
  have second : ∀ (f : Nat × List ε.E), f ∈ fails → HR e (T ε) (.failed f.1 f.2 : Res α ε.E) i :=
    fun f h => .failed hi (hf f h).1 (hf f h).2
  split at h
  · cases h
  · rename_i x es rest
    split at h
    · rename_i d
      split at h
      · cases h
        refine .failed hi (hf _ List.mem_cons_self).1 ?_
        intro y hy
        rw [List.mem_singleton.1 hy]
        refine mergeAll_closed (hT.merge ε) _ _ ((hf _ List.mem_cons_self).2 d (by simp)) ?_
        intro z hz
        obtain ⟨f, hf1, hf2⟩ := List.mem_flatMap.1 hz
        exact (hf f (by simp [hf1])).2 z hf2
      · split at h
        · cases h; exact second _ (List.mem_cons_of_mem _ List.mem_cons_self)
        · cases h
    · split at h
      · cases h; exact second _ (List.mem_cons_of_mem _ List.mem_cons_self)
      · cases h

theorem he_alternate (hT : ErrClosed e T) {α : Type} {ε : ErrTy S} {qs : List (PSem ε.E α)}
    (hq : ∀ q ∈ qs, HE e (T ε) q) : HE e (T ε) (qAlternate ε qs) := by
  intro en i x j hv h
  simp only [qAlternate, Out.bind_eq_ok] at h
  obtain ⟨⟨r, k⟩, h1, h2⟩ := h
  have h4 := he_altFirst qs [] i hq (by simp) hv _ _ h1
  cases r with
  | inl o => cases h2; exact .success h4.1
  | inr fails =>
    have h4' := h4.2 _ rfl
    simp only at h2
    split at h2
    · cases h2
    · have h5 : ∀ (z : Res α ε.E) (k l : Nat), Valid e k →
          altCombineSem ε ((sortDesc fails).map fun f => (f.1, f.2.1)) k = .ok (z, l) → HR e (T ε) z l := by
        intro z k l hk hz
        refine he_altCombine hT hk ?_ hz
        intro f hf
        obtain ⟨f', hf', rfl⟩ := List.mem_map.1 hf
        have := h4' f' (mem_sortDesc.1 hf')
        exact ⟨this.1, this.2.1⟩
      split at h2
      · simp only [Out.bind_eq_ok] at h2
        obtain ⟨⟨r', k'⟩, h6, h7⟩ := h2
        have h8 := he_altRecover _ _ (fun f hf => (h4' f (mem_sortDesc.1 hf)).2.2) h4.1 _ _ h6
        cases r' with
        | none => exact h5 _ _ _ h8.1 h7
        | some r' => cases h7; exact h8.2 _ rfl
      · exact h5 _ _ _ h4.1 h2

end

/-! ## Recovery -/

section

variable {E : Type} {T : E → Prop}

theorem she_orElse {α : Type} {s t : SSem E α} (hs : SHE e T s) (ht : SHE e T t) : SHE e T (s.orElse t) := by
  intro q hq st fa es i o fa' es' j hst hfa hi h1 h
  simp only [SSem.orElse, Out.bind_eq_ok] at h
  obtain ⟨⟨⟨o1, fa1, es1⟩, j1⟩, h3, h4⟩ := h
  have h5 := hs q hq st fa es i o1 fa1 es1 j1 hst hfa hi h1 h3
  cases o1 with
  | some o1 => cases h4; exact h5
  | none => exact ht q hq st fa1 es1 j1 o fa' es' j hst h5.2.1 h5.1 h5.2.2 h4

theorem she_giveUp {α : Type} {p : Nat → Nat → Nat → Nat} {f : List E → Nat → Nat → List E}
    (hp : ∀ st fa i, Valid e st → Valid e fa → Valid e i → Valid e (p st fa i))
    (hf : ∀ es st i, (∀ x ∈ es, T x) → ∀ x ∈ f es st i, T x) :
    SHE e T (fun _ st fa es i => giveUp (α := α) fa (f es st i) (p st fa i)) := by
  intro q hq st fa es i o fa' es' j hst hfa hi h1 h
  cases h
  exact ⟨hp _ _ _ hst hfa hi, hfa, hf _ _ _ h1⟩

theorem she_ret {α : Type} {f : Nat → Nat → α} :
    SHE e T (fun _ st fa es i => .ok ((some (f st i), fa, es), i)) := by
  intro q hq st fa es i o fa' es' j hst hfa hi h1 h
  cases h
  exact ⟨hi, hfa, h1⟩

theorem Valid.skipIf {p : S.I → Bool} {i : Nat} (h : Valid e i) :
    Valid e (if e.tokIs p false i then i + 1 else i) := by
  split
  · rename_i hc
    refine h.succ ?_
    unfold Env.tokIs at hc
    cases hs : e.source i with
    | none => rw [hs] at hc; cases hc
    | some t => rfl
  · exact h

theorem she_find {p : S.I → Bool} : ∀ {fuel i j : Nat}, Valid e i → findSem e p fuel i = .ok j → Valid e j
  | 0, _, _, _, h => by cases h
  | fuel + 1, i, j, hi, h => by
    unfold findSem at h
    split at h
    · cases h; exact hi
    · exact she_find hi.next h

theorem she_scan {sc : Scanner S E} (hk : sc.Keeps T) :
    ∀ {fuel : Nat} {st : sc.σ} {es : List E} {i : Nat} {es' : List E} {j : Nat},
      scanSem e sc fuel st es i = .ok (es', j) → Valid e i → (∀ x ∈ es, T x) → Valid e j ∧ ∀ x ∈ es', T x
  | 0, _, _, _, _, _, h, _, _ => by cases h
  | fuel + 1, st, es, i, es', j, h, hi, hn => by
    unfold scanSem at h
    split at h
    · rename_i t ht
      split at h
      · cases h
      · rename_i h1; cases h; exact ⟨hi, hk.1 _ _ _ _ _ _ _ h1 hn⟩
      · rename_i h1
        exact she_scan hk h (hi.succ (by rw [ht]; rfl)) (hk.1 _ _ _ _ _ _ _ h1 hn)
    · cases h; exact ⟨hi, hk.2 _ _ _ hn⟩

theorem she_runIn {α : Type} {q : PSem E α} (hq : HE e T q) {exact silent : Bool} {fa : Nat}
    {es : List E} {i : Nat} {o : Option α} {fa' : Nat} {es' : List E} {j : Nat} (hfa : Valid e fa)
    (hi : Valid e i) (hn : ∀ x ∈ es, T x) (h : runInSem q exact silent fa es i = .ok ((o, fa', es'), j)) :
    Valid e j ∧ Valid e fa' ∧ ∀ x ∈ es', T x := by
  simp only [runInSem, Out.bind_eq_ok] at h
  obtain ⟨⟨r, k⟩, h3, h4⟩ := h
  have h5 := hq _ _ _ _ hi h3
  cases r with
  | success x => cases h4; exact ⟨h5.1, hfa, hn⟩
  | recovered x es2 =>
    have h6 := Prod.mk.inj (Out.ok.inj h4)
    have h7 := Prod.mk.inj (Prod.mk.inj h6.1).2
    rw [← h7.2, ← h7.1, ← h6.2]
    refine ⟨h5.1, hfa, ?_⟩
    split
    · exact hn
    · exact mem_append_all hn h5.2.1
  | failed x es2 =>
    simp only [Out.bind_eq_ok] at h4
    obtain ⟨y, h6, h7⟩ := h4
    have h10 := Prod.mk.inj (Out.ok.inj h7)
    have h11 := Prod.mk.inj (Prod.mk.inj h10.1).2
    rw [← h11.2, ← h11.1, ← h10.2, (saveAt_eq h6).1]
    refine ⟨h5.1, h5.2.2 _ _ rfl, ?_⟩
    split
    · exact hn
    · exact mem_append_all hn h5.2.1

theorem she_whileNot {α : Type} {p : S.I → Bool} {t : SSem E α} (ht : SHE e T t)
    {q : PSem E α} (hq : HE e T q) {st : Nat} (hst : Valid e st) : ∀ (fuel fa : Nat) (es : List E) (i : Nat)
    (o : Option α) (fa' : Nat) (es' : List E) (j : Nat), Valid e fa → Valid e i → (∀ x ∈ es, T x) →
    whileNotSem e p t q st fuel fa es i = .ok ((o, fa', es'), j) → Valid e j ∧ Valid e fa' ∧ ∀ x ∈ es', T x
  | 0, _, _, _, _, _, _, _, _, _, _, h => by cases h
  | fuel + 1, fa, es, i, o, fa', es', j, hfa, hi, h1, h => by
    unfold whileNotSem at h
    split at h
    · cases h; exact ⟨hi, hfa, h1⟩
    · simp only [Out.bind_eq_ok] at h
      obtain ⟨⟨⟨o1, fa1, es1⟩, j1⟩, h3, h4⟩ := h
      have h5 := ht q hq st fa es i o1 fa1 es1 j1 hst hfa hi h1 h3
      cases o1 with
      | some o1 => cases h4; exact h5
      | none => exact she_whileNot ht hq hst fuel fa1 es1 _ o fa' es' j h5.2.1 h5.1.next h5.2.2 h4

theorem he_toRecover {α : Type} {q : PSem E α} {s : SSem E α} (hq : HE e T q) (hs : SHE e T s) :
    HE e T (qToRecover q s) := by
  intro en i x j hv h
  simp only [qToRecover, Out.bind_eq_ok] at h
  obtain ⟨⟨r, k⟩, h1, h2⟩ := h
  have h3 := hq _ _ _ _ hv h1
  cases r with
  | success x => cases h2; exact h3
  | recovered x es' => cases h2; exact h3
  | failed x es' =>
    simp only at h2
    split at h2
    · cases h2; exact h3
    · simp only [Out.bind_eq_ok] at h2
      obtain ⟨fa, h5, ⟨⟨o, fa', es''⟩, l⟩, h6, h7⟩ := h2
      have hx := h3.2.2 _ _ rfl
      rw [(saveAt_eq h5).1] at h6
      have h9 := hs q hq _ _ _ _ _ _ _ _ h3.1 hx h3.1 h3.2.1 h6
      cases o <;> cases h7
      · exact .failed h3.1 hx h9.2.2
      · exact .recovered h9.1 h9.2.2

end

/-! ## Every grammar -/

section

variable {ρ : QEnv S N} {T : (ε : ErrTy S) → ε.E → Prop}

mutual
theorem G.he (hT : ErrClosed e T) (hρ : ∀ k, HE e (T (N.err k)) (ρ k)) (n : Nat) : ∀ {ε : ErrTy S} {α : Type} (g : G S N ε α),
    g.All (keepsErrL N T) → HE e (T _) (g.den e ρ n)
  | _, _, .empty, h => by rw [G.den]; exact he_empty
  | _, _, .none _, h => by rw [G.den]; exact he_none
  | _, _, .eof, h => by rw [G.den]; exact he_end hT
  | _, _, .just t, h => by rw [G.den]; exact he_just hT
  | _, _, .filter p, h => by rw [G.den]; exact he_filter hT
  | _, _, .filterMap f, h => by rw [G.den]; exact he_filterMap hT
  | _, _, .seq v items, h => by rw [G.den]; exact he_seq hT
  | _, _, .oneOf items, h => by rw [G.den]; exact he_oneOf hT
  | _, _, .noneOf items, h => by rw [G.den]; exact he_noneOf hT
  | _, _, .boxed g, h => by rw [G.All] at h; rw [G.den]; exact G.he hT hρ n g h.2
  | _, _, .withError g, h => by rw [G.All] at h; rw [G.den]; exact G.he hT hρ n g h.2
  | _, _, .to g v, h => by
    rw [G.All] at h; rw [G.den]; exact he_map (G.he hT hρ n g h.2)
  | _, _, .some g, h => by
    rw [G.All] at h; rw [G.den]; exact he_map (G.he hT hρ n g h.2)
  | _, _, .map f g, h => by
    rw [G.All] at h; rw [G.den]; exact he_map (G.he hT hρ n g h.2)
  | _, _, .mapWithSpan f g, h => by
    rw [G.All] at h; rw [G.den]; exact he_mapWithSpan (G.he hT hρ n g h.2)
  | _, _, .mapErr f g, h => by
    rw [G.All] at h; rw [G.den]; exact he_mapErr h.1 (G.he hT hρ n g h.2)
  | _, _, .mapErrWithSpan f g, h => by
    rw [G.All] at h; rw [G.den]; exact he_mapErrWithSpan h.1 (G.he hT hρ n g h.2)
  | _, _, .tryMap f g, h => by
    rw [G.All] at h; rw [G.den]; exact he_tryMap h.1 (G.he hT hρ n g h.2)
  | _, _, .then_ a b, h => by
    rw [G.All] at h; rw [G.den]; exact he_concat2 (G.he hT hρ n a h.2.1) (G.he hT hρ n b h.2.2)
  | _, _, .thenIgnore a b, h => by
    rw [G.All] at h; rw [G.den]; exact he_concat2 (G.he hT hρ n a h.2.1) (G.he hT hρ n b h.2.2)
  | _, _, .ignoreThen a b, h => by
    rw [G.All] at h; rw [G.den]; exact he_concat2 (G.he hT hρ n a h.2.1) (G.he hT hρ n b h.2.2)
  | _, _, .delimitedBy l m r, h => by
    rw [G.All] at h; rw [G.den]
    exact he_concat3 (G.he hT hρ n l h.2.1) (G.he hT hρ n m h.2.2.1) (G.he hT hρ n r h.2.2.2)
  | _, _, .paddedBy p m, h => by
    rw [G.All] at h; rw [G.den]
    exact he_concat3 (G.he hT hρ n p h.2.1) (G.he hT hρ n m h.2.2) (G.he hT hρ n p h.2.1)
  | _, _, .chain gs, h => by rw [G.All] at h; rw [G.den]; exact he_concat (GL.he hT hρ n gs h.2)
  | _, _, .or a b, h => by
    rw [G.All] at h; rw [G.den]
    refine he_alternate hT fun q hq => ?_
    simp only [List.mem_cons, List.not_mem_nil, or_false] at hq
    rcases hq with rfl | rfl
    · exact G.he hT hρ n a h.2.1
    · exact G.he hT hρ n b h.2.2
  | _, _, .orNot g, h => by
    rw [G.All] at h; rw [G.den]
    refine he_alternate hT fun q hq => ?_
    simp only [List.mem_cons, List.not_mem_nil, or_false] at hq
    rcases hq with rfl | rfl
    · exact he_map (G.he hT hρ n g h.2)
    · exact he_none
  | _, _, .alters gs, h => by
    rw [G.All] at h; rw [G.den]; exact he_alternate hT (GL.he hT hρ n gs h.2)
  | _, _, .repeated cfg item, h => by
    rw [G.All] at h; rw [G.den]; exact he_repeat (G.he hT hρ n item h.2) (fun q h => by cases h)
  | _, _, .separatedBy cfg item sep, h => by
    rw [G.All] at h; rw [G.den]
    refine he_repeat (G.he hT hρ n item h.2.1) (fun q hq => ?_)
    cases hq
    exact G.he hT hρ n sep h.2.2
  | _, _, .toRecover g st, h => by
    rw [G.All] at h; rw [G.den]; exact he_toRecover (G.he hT hρ n g h.2.1) (CS.he hT hρ n st h.2.2)
  | _, _, .call k, h => by rw [G.den]; exact hρ k

theorem GL.he (hT : ErrClosed e T) (hρ : ∀ k, HE e (T (N.err k)) (ρ k)) (n : Nat) : ∀ {ε : ErrTy S} {α : Type} (gs : GL S N ε α),
    gs.All (keepsErrL N T) → ∀ q ∈ gs.den e ρ n, HE e (T _) q
  | _, _, .nil, _, q, h => by rw [GL.den] at h; cases h
  | _, _, .cons g gs, hc, q, h => by
    rw [GL.All] at hc
    rw [GL.den] at h
    rcases List.mem_cons.1 h with h | h
    · rw [h]; exact G.he hT hρ n g hc.1
    · exact GL.he hT hρ n gs hc.2 q h

theorem IS.he (hT : ErrClosed e T) (hρ : ∀ k, HE e (T (N.err k)) (ρ k)) (n : Nat) : ∀ {ε : ErrTy S} {α : Type} (s : IS S N ε α),
    s.All (keepsErrL N T) → SHE e (T _) (s.den e ρ n)
  | _, _, .attemptTo, h => by
    rw [IS.den]; exact she_giveUp (f := fun es _ _ => es) (p := fun _ _ i => i) (fun _ _ _ _ _ h => h) (fun _ _ _ h => h)
  | _, _, .restart s, h => by
    rw [IS.All] at h; rw [IS.den]
    exact she_orElse (IS.he hT hρ n s h.2)
      (she_giveUp (f := fun es _ _ => es) (p := fun st fa i => st) (fun _ _ _ h _ _ => h) (fun _ _ _ h => h))
  | _, _, .seekToFailed s, h => by
    rw [IS.All] at h; rw [IS.den]
    exact she_orElse (IS.he hT hρ n s h.2)
      (she_giveUp (f := fun es _ _ => es) (p := fun st fa i => fa) (fun _ _ _ _ h _ => h) (fun _ _ _ h => h))
  | _, _, .skip s, h => by
    rw [IS.All] at h; rw [IS.den]
    exact she_orElse (IS.he hT hρ n s h.2)
      (she_giveUp (f := fun es _ _ => es) (p := fun st fa i => (e.next i)) (fun _ _ _ _ _ h => h.next) (fun _ _ _ h => h))
  | _, _, .skipIf s p, h => by
    rw [IS.All] at h; rw [IS.den]
    exact she_orElse (IS.he hT hρ n s h.2)
      (she_giveUp (f := fun es _ _ => es) (p := fun st fa i => if e.tokIs p false i then i + 1 else i) (fun _ _ _ _ _ h => h.skipIf) (fun _ _ _ h => h))
  | _, _, .find s p, h => by
    rw [IS.All] at h; rw [IS.den]
    refine she_orElse (IS.he hT hρ n s h.2) ?_
    intro q hq st fa es i o fa' es' j hst hfa hi h1 h
    simp only [Out.bind_eq_ok] at h
    obtain ⟨k, h3, h4⟩ := h
    cases h4
    exact ⟨she_find hi h3, hfa, h1⟩
  | _, _, .scan s sc, h => by
    rw [IS.All] at h; rw [IS.den]
    refine she_orElse (IS.he hT hρ n s h.2) ?_
    intro q hq st fa es i o fa' es' j hst hfa hi h1 h'
    simp only [Out.bind_eq_ok] at h'
    obtain ⟨⟨es1, k⟩, h3, h4⟩ := h'
    cases h4
    have h5 := she_scan h.1 h3 hi h1
    exact ⟨h5.1, hfa, h5.2⟩
  | _, _, .maybe s t, h => by
    rw [IS.All] at h; rw [IS.den]
    refine she_orElse (IS.he hT hρ n s h.2.1) ?_
    intro q hq st fa es i o fa' es' j hst hfa hi h1 h'
    simp only [Out.bind_eq_ok] at h'
    obtain ⟨⟨⟨o1, fa1, es1⟩, k⟩, h3, h4⟩ := h'
    have h5 := IS.he hT hρ n t h.2.2 q hq st fa es i o1 fa1 es1 k hst hfa hi h1 h3
    have h6 := Prod.mk.inj (Out.ok.inj h4)
    have h7 := Prod.mk.inj h6.1
    have h8 := Prod.mk.inj h7.2
    rw [← h8.2, ← h8.1, ← h6.2]
    refine ⟨?_, h5.2⟩
    split
    · exact h5.1
    · exact hi
  | _, _, .whileNot s p t, h => by
    rw [IS.All] at h; rw [IS.den]
    refine she_orElse (IS.he hT hρ n s h.2.1) ?_
    intro q hq st fa es i o fa' es' j hst hfa hi h1 h'
    exact she_whileNot (IS.he hT hρ n t h.2.2) hq hst n fa es i o fa' es' j hfa hi h1 h'
  | _, _, .retry s exact silent, h => by
    rw [IS.All] at h; rw [IS.den]
    refine she_orElse (IS.he hT hρ n s h.2) ?_
    intro q hq st fa es i o fa' es' j hst hfa hi h1 h'
    exact she_runIn hq hfa hi h1 h'
  | _, _, .tryToParse s g exact silent, h => by
    rw [IS.All] at h; rw [IS.den]
    refine she_orElse (IS.he hT hρ n s h.2.1) ?_
    intro q hq st fa es i o fa' es' j hst hfa hi h1 h'
    exact she_runIn (G.he hT hρ n g h.2.2) hfa hi h1 h'
  | _, _, .pushError s f, h => by
    rw [IS.All] at h; rw [IS.den]
    exact she_orElse (IS.he hT hρ n s h.2)
      (she_giveUp (f := fun es st i => es ++ [f ()]) (p := fun _ _ i => i) (fun _ _ _ _ _ h => h) (fun _ _ _ h' => mem_snoc_all h' (by apply h.1)))
  | _, _, .pushErrorHere s f, h => by
    rw [IS.All] at h; rw [IS.den]
    exact she_orElse (IS.he hT hρ n s h.2)
      (she_giveUp (f := fun es st i => es ++ [f (e.locationAt i)]) (p := fun _ _ i => i) (fun _ _ _ _ _ h => h) (fun _ _ _ h' => mem_snoc_all h' (by apply h.1)))
  | _, _, .pushErrorUpToHere s f, h => by
    rw [IS.All] at h; rw [IS.den]
    exact she_orElse (IS.he hT hρ n s h.2)
      (she_giveUp (f := fun es st i => es ++ [f (e.spanOf st i)]) (p := fun _ _ i => i) (fun _ _ _ _ _ h => h) (fun _ _ _ h' => mem_snoc_all h' (by apply h.1)))
  | _, _, .pushErrorForToken s f, h => by
    rw [IS.All] at h; rw [IS.den]
    exact she_orElse (IS.he hT hρ n s h.2)
      (she_giveUp (f := fun es st i => es ++ [f (e.source i) (e.here i)]) (p := fun _ _ i => i) (fun _ _ _ _ _ h => h) (fun _ _ _ h' => mem_snoc_all h' (by apply h.1)))
  | _, _, .updateErrors s f, h => by
    rw [IS.All] at h; rw [IS.den]
    exact she_orElse (IS.he hT hρ n s h.2)
      (she_giveUp (f := fun es st i => f es) (p := fun _ _ i => i) (fun _ _ _ _ _ h => h)
        (fun es st i he => by apply h.1; exact he))
  | _, _, .updateErrorsHere s f, h => by
    rw [IS.All] at h; rw [IS.den]
    exact she_orElse (IS.he hT hρ n s h.2)
      (she_giveUp (f := fun es st i => f es (e.locationAt i)) (p := fun _ _ i => i) (fun _ _ _ _ _ h => h)
        (fun es st i he => by apply h.1; exact he))
  | _, _, .updateErrorsUpToHere s f, h => by
    rw [IS.All] at h; rw [IS.den]
    exact she_orElse (IS.he hT hρ n s h.2)
      (she_giveUp (f := fun es st i => f es (e.spanOf st i)) (p := fun _ _ i => i) (fun _ _ _ _ _ h => h)
        (fun es st i he => by apply h.1; exact he))
  | _, _, .updateErrorsForToken s f, h => by
    rw [IS.All] at h; rw [IS.den]
    exact she_orElse (IS.he hT hρ n s h.2)
      (she_giveUp (f := fun es st i => f es (e.source i) (e.here i)) (p := fun _ _ i => i) (fun _ _ _ _ _ h => h)
        (fun es st i he => by apply h.1; exact he))
  | _, _, .boxed s, h => by rw [IS.All] at h; rw [IS.den]; exact IS.he hT hρ n s h.2

theorem CS.he (hT : ErrClosed e T) (hρ : ∀ k, HE e (T (N.err k)) (ρ k)) (n : Nat) : ∀ {ε : ErrTy S} {α : Type} (s : CS S N ε α),
    s.All (keepsErrL N T) → SHE e (T _) (s.den e ρ n)
  | _, _, .ret s o, h => by
    rw [CS.All] at h; rw [CS.den]
    exact she_orElse (IS.he hT hρ n s h) (she_ret (f := fun _ _ => o))
  | _, _, .retWith s o, h => by
    rw [CS.All] at h; rw [CS.den]
    exact she_orElse (IS.he hT hρ n s h) (she_ret (f := fun _ _ => o ()))
  | _, _, .retWithSpan s f, h => by
    rw [CS.All] at h; rw [CS.den]
    exact she_orElse (IS.he hT hρ n s h) (she_ret (f := fun st i => f (e.spanOf st i)))
  | _, _, .orFail s, h => by rw [CS.All] at h; rw [CS.den]; exact IS.he hT hρ n s h

end

theorem callSem_he (hT : ErrClosed e T) {D : Defs S N} (hD : D.All (keepsErrL N T)) : ∀ (n : Nat) (k : N.K),
    HE e (T (N.err k)) (callSem e D n k)
  | 0, k, en, i, r, j, hv, h => by cases h
  | n + 1, k, en, i, r, j, hv, h => by
    rw [callSem] at h
    cases hk : D k with
    | none => rw [hk] at h; cases h
    | some g => rw [hk] at h; exact G.he hT (callSem_he hT hD n) n g (hD k g hk) _ _ _ _ hv h

theorem G.sem_he (hT : ErrClosed e T) {D : Defs S N} (hD : D.All (keepsErrL N T)) (n : Nat) {ε : ErrTy S}
    {α : Type} (g : G S N ε α) (hg : g.All (keepsErrL N T)) : HE e (T ε) (g.sem e D n) :=
  G.he hT (callSem_he hT hD n) n g hg

end

/-! ## Failures with recovery disabled -/

/-- A failure with recovery disabled has one error, about the position of the failure. -/
def HF (e : Env S) (ε : ErrTy S) {α : Type} (q : PSem ε.E α) : Prop :=
  ∀ i x es j, q false i = .ok (.failed x es, j) → ∃ d, es = [d] ∧ HonestAt e ε x d

section

variable {ε : ErrTy S}

theorem hf_empty : HF e ε qEmpty := by intro i x es j h; cases h

theorem hf_none {α : Type} : HF e ε (qNone (α := α)) := by intro i x es j h; cases h

theorem hf_mismatch {α : Type} {exp : List (Option S.I)} {i x : Nat} {es : List ε.E}
    (h : (mismatch e ε exp i : Res α ε.E) = .failed x es) (hu : Unmet exp (e.source i)) :
    ∃ d, es = [d] ∧ HonestAt e ε x d := by
  cases h; exact ⟨_, rfl, .span _ _ hu⟩

theorem hf_end : HF e ε (qEnd e ε) := by
  intro i x es j h
  unfold qEnd at h
  split at h <;> cases h
  rename_i t ht
  refine ⟨_, rfl, ?_⟩
  have := HonestAt.location (e := e) (ε := ε) i [none] (by rw [ht]; exact .eof)
  rwa [ht] at this

theorem hf_just {t : S.I} : HF e ε (qJust e ε t) := by
  intro i x es j h
  simp only [qJust] at h
  split at h
  · cases h
  · rename_i ht; exact hf_mismatch (Prod.mk.inj (Out.ok.inj h)).1 (.tok ht)

theorem hf_filter {p : S.I → Bool} : HF e ε (qFilter e ε p) := by
  intro i x es j h
  simp only [qFilter] at h
  repeat' split at h
  all_goals first
    | exact hf_mismatch (Prod.mk.inj (Out.ok.inj h)).1 .nil
    | cases h

theorem hf_filterMap {α : Type} {f : S.I → Option α} : HF e ε (qFilterMap e ε f) := by
  intro i x es j h
  simp only [qFilterMap] at h
  repeat' split at h
  all_goals first
    | exact hf_mismatch (Prod.mk.inj (Out.ok.inj h)).1 .nil
    | cases h

theorem matchSeq_unmet : ∀ (xs : List S.I) (i : Nat) {j : Nat} {x : S.I}, matchSeq e xs i = some (j, x) →
    ¬isTok S (e.source j) x = true
  | [], _, _, _, h => by cases h
  | y :: ys, i, j, x, h => by
    unfold matchSeq at h
    split at h
    · exact matchSeq_unmet ys _ h
    · rename_i ht; cases h; exact ht

theorem hf_seq {α : Type} {v : α} {items : List S.I} : HF e ε (qSeq e ε v items) := by
  intro i x es j h
  simp only [qSeq] at h
  split at h
  · cases h
  · rename_i hm; exact hf_mismatch (Prod.mk.inj (Out.ok.inj h)).1 (.tok (matchSeq_unmet _ _ hm))

theorem hf_oneOf {items : List S.I} : HF e ε (qOneOf e ε items) := by
  intro i x es j h
  simp only [qOneOf] at h
  split at h
  · rename_i ht
    split at h
    · cases h
    · rename_i hu; exact hf_mismatch (Prod.mk.inj (Out.ok.inj h)).1 (by rw [ht]; exact .items hu)
  · rename_i ht; exact hf_mismatch (Prod.mk.inj (Out.ok.inj h)).1 (by rw [ht]; exact .itemsEof)

theorem hf_noneOf {items : List S.I} : HF e ε (qNoneOf e ε items) := by
  intro i x es j h
  simp only [qNoneOf] at h
  split at h
  · split at h
    · exact hf_mismatch (Prod.mk.inj (Out.ok.inj h)).1 .nil
    · cases h
  · rename_i ht
    cases h
    refine ⟨_, rfl, ?_⟩
    have := HonestAt.location (e := e) (ε := ε) i [] .nil
    rwa [ht] at this

theorem hf_map {α β : Type} {f : α → β} {q : PSem ε.E α} (hq : HF e ε q) : HF e ε (qMap f q) := by
  intro i x es j h
  simp only [qMap, Out.bind_eq_ok] at h
  obtain ⟨⟨r, k⟩, h1, h2⟩ := h
  cases r <;> cases h2
  exact hq _ _ _ _ h1

theorem hf_mapWithSpan {α β : Type} {f : α → S.Span → β} {q : PSem ε.E α} (hq : HF e ε q) :
    HF e ε (qMapWithSpan e f q) := by
  intro i x es j h
  simp only [qMapWithSpan, Out.bind_eq_ok] at h
  obtain ⟨⟨r, k⟩, h1, h2⟩ := h
  cases r <;> cases h2
  exact hq _ _ _ _ h1

theorem hf_tryMap {α β : Type} {f : α → S.Span → TryMapResult β ε.E} (hf : ∀ a sp, ∃ o, f a sp = .ok o)
    {q : PSem ε.E α} (hq : HF e ε q) : HF e ε (qTryMap e f q) := by
  intro i x es j h
  simp only [qTryMap, Out.bind_eq_ok] at h
  obtain ⟨⟨r, k⟩, h1, h2⟩ := h
  cases r with
  | success a =>
    obtain ⟨o, ho⟩ := hf a (e.spanOf i k)
    simp only [tryMapStep, ho] at h2
    cases h2
  | recovered a es' =>
    obtain ⟨o, ho⟩ := hf a (e.spanOf i k)
    simp only [tryMapStep, ho, Out.bind_eq_ok] at h2
    obtain ⟨⟨r', k'⟩, h3, h4⟩ := h2
    cases h3
    cases h4
  | failed y es' => cases h2; exact hq _ _ _ _ h1

theorem hf_finish {α : Type} {o : α} {r : Option (List ε.E)} {j k x : Nat} {es : List ε.E}
    (h : finishSem false o r j = .ok (.failed x es, k)) : False := by
  unfold finishSem at h
  split at h
  · cases h
  · cases h

theorem hf_concatRest {α : Type} {start : Nat} : ∀ (qs : List (PSem ε.E α)) (out : List α)
    (r : Option (List ε.E)) (i : Nat), (∀ q ∈ qs, HF e ε q) → ∀ x es j,
      concatRestSem false start qs out r i = .ok (.failed x es, j) → ∃ d, es = [d] ∧ HonestAt e ε x d
  | [], out, r, i, _, x, es, j, h => by
    rw [concatRestSem] at h; exact (hf_finish h).elim
  | q :: qs, out, r, i, hq, x, es, j, h => by
    simp only [concatRestSem, Out.bind_eq_ok] at h
    obtain ⟨⟨r, k⟩, h1, h2⟩ := h
    cases r with
    | success b => exact hf_concatRest qs _ _ _ (fun q' h' => hq q' (by simp [h'])) _ _ _ h2
    | recovered b es' => exact hf_concatRest qs _ _ _ (fun q' h' => hq q' (by simp [h'])) _ _ _ h2
    | failed b es' => cases h2; exact hq q (by simp) _ _ _ _ h1

theorem hf_concat {α : Type} {qs : List (PSem ε.E α)} (hq : ∀ q ∈ qs, HF e ε q) : HF e ε (qConcat qs) := by
  intro i x es j h
  cases qs with
  | nil => cases h
  | cons q qs =>
    simp only [qConcat, Out.bind_eq_ok] at h
    obtain ⟨⟨r, k⟩, h1, h2⟩ := h
    cases r with
    | success b => exact hf_concatRest qs _ _ _ (fun q' h' => hq q' (by simp [h'])) _ _ _ h2
    | recovered b es' => exact hf_concatRest qs _ _ _ (fun q' h' => hq q' (by simp [h'])) _ _ _ h2
    | failed b es' => cases h2; exact hq q (by simp) _ _ _ _ h1

theorem hf_concatLast {β γ : Type} {start : Nat} {f : β → γ} {qb : PSem ε.E β} (hb : HF e ε qb)
    {r : Option (List ε.E)} {i x j : Nat} {es : List ε.E}
    (h : concatLastSem false start f qb r i = .ok (.failed x es, j)) : ∃ d, es = [d] ∧ HonestAt e ε x d := by
  simp only [concatLastSem, Out.bind_eq_ok] at h
  obtain ⟨⟨r, k⟩, h1, h2⟩ := h
  cases r with
  | success b => exact (hf_finish h2).elim
  | recovered b es' => exact (hf_finish h2).elim
  | failed b es' => cases h2; exact hb _ _ _ _ h1

theorem hf_concat2 {α β γ : Type} {f : α × β → γ} {qa : PSem ε.E α} {qb : PSem ε.E β} (ha : HF e ε qa)
    (hb : HF e ε qb) : HF e ε (qConcat2 f qa qb) := by
  intro i x es j h
  simp only [qConcat2, Out.bind_eq_ok] at h
  obtain ⟨⟨r, k⟩, h1, h2⟩ := h
  cases r with
  | success b => exact hf_concatLast hb h2
  | recovered b es' => exact hf_concatLast hb h2
  | failed b es' => cases h2; exact ha _ _ _ _ h1

theorem hf_concatMid {β γ δ : Type} {start : Nat} {f : β × γ → δ} {qb : PSem ε.E β} {qc : PSem ε.E γ}
    (hb : HF e ε qb) (hc : HF e ε qc) {r : Option (List ε.E)} {i x j : Nat} {es : List ε.E}
    (h : concatMidSem false start f qb qc r i = .ok (.failed x es, j)) : ∃ d, es = [d] ∧ HonestAt e ε x d := by
  simp only [concatMidSem, Out.bind_eq_ok] at h
  obtain ⟨⟨r, k⟩, h1, h2⟩ := h
  cases r with
  | success b => exact hf_concatLast hc h2
  | recovered b es' => exact hf_concatLast hc h2
  | failed b es' => cases h2; exact hb _ _ _ _ h1

theorem hf_concat3 {α β γ δ : Type} {f : α × β × γ → δ} {qa : PSem ε.E α} {qb : PSem ε.E β}
    {qc : PSem ε.E γ} (ha : HF e ε qa) (hb : HF e ε qb) (hc : HF e ε qc) : HF e ε (qConcat3 f qa qb qc) := by
  intro i x es j h
  simp only [qConcat3, Out.bind_eq_ok] at h
  obtain ⟨⟨r, k⟩, h1, h2⟩ := h
  cases r with
  | success b => exact hf_concatMid hb hc h2
  | recovered b es' => exact hf_concatMid hb hc h2
  | failed b es' => cases h2; exact ha _ _ _ _ h1

theorem hf_repItem {α : Type} {cfg : RepCfg} {item : PSem ε.E α} (hi : HF e ε item) {start : Nat}
    {again : List α → Option (List ε.E) → Nat → Out (Res (List α) ε.E × Nat)}
    (ha : ∀ out r i x es j, again out r i = .ok (.failed x es, j) → ∃ d, es = [d] ∧ HonestAt e ε x d)
    {out : List α} {r : Option (List ε.E)} {before : Option Nat} {i x j : Nat} {es : List ε.E}
    (h : repItemSem cfg item false start again out r before i = .ok (.failed x es, j)) :
    ∃ d, es = [d] ∧ HonestAt e ε x d := by
  unfold repItemSem at h
  split at h
  · exact (hf_finish h).elim
  · simp only [Bool.false_and, Out.bind_eq_ok] at h
    obtain ⟨⟨r, k⟩, h1, h2⟩ := h
    cases r with
    | success x => exact ha _ _ _ _ _ _ h2
    | recovered x es' => exact ha _ _ _ _ _ _ h2
    | failed x es' =>
      simp only at h2
      split at h2
      · cases (Prod.mk.inj (Out.ok.inj h2)).1
      · cases h2; exact hi _ _ _ _ h1

theorem hf_repLoop {α β : Type} {cfg : RepCfg} {item : PSem ε.E α} {sep : Option (PSem ε.E β)}
    (hi : HF e ε item) (hs : ∀ q, sep = some q → HF e ε q) {start : Nat} :
    ∀ (fuel : Nat) (out : List α) (r : Option (List ε.E)) (i x : Nat) (es : List ε.E) (j : Nat),
      repLoopSem cfg item sep false start fuel out r i = .ok (.failed x es, j) →
      ∃ d, es = [d] ∧ HonestAt e ε x d
  | 0, _, _, _, _, _, _, h => by cases h
  | fuel + 1, out, r, i, x, es, j, h => by
    have ih := hf_repLoop (cfg := cfg) hi hs (start := start) fuel
    unfold repLoopSem at h
    split at h
    · exact (hf_finish h).elim
    · simp only [Bool.false_and] at h
      split at h
      · rename_i q _ _
        simp only [Out.bind_eq_ok] at h
        obtain ⟨⟨r, k⟩, h1, h2⟩ := h
        cases r with
        | success x => exact hf_repItem hi ih h2
        | recovered x es' => exact hf_repItem hi ih h2
        | failed x es' =>
          simp only at h2
          split at h2
          · exact hf_repItem hi ih h2
          · split at h2 <;> cases h2
            exact hs _ rfl _ _ _ _ h1
      · exact hf_repItem hi ih h

theorem hf_repeat {α β : Type} {fuel : Nat} {cfg : RepCfg} {item : PSem ε.E α}
    {sep : Option (PSem ε.E β)} (hi : HF e ε item) (hs : ∀ q, sep = some q → HF e ε q) :
    HF e ε (qRepeat fuel cfg item sep) :=
  fun i x es j h => hf_repLoop hi hs fuel [] none i x es j h

/-- A failed alternative with one error. -/
def FailOne {α : Type} (e : Env S) (ε : ErrTy S) (f : FailSem ε.E α) : Prop :=
  ∃ d, f.2.1 = [d] ∧ HonestAt e ε f.1 d

theorem hf_altFirst {α : Type} : ∀ (qs : List (PSem ε.E α)) (fails : List (FailSem ε.E α)) (i : Nat),
    (∀ q ∈ qs, HF e ε q) → (∀ f ∈ fails, FailOne e ε f) → ∀ fs j,
      altFirstSem qs fails i = .ok (.inr fs, j) → ∀ f ∈ fs, FailOne e ε f
  | [], fails, i, hq, hf, fs, j, h => by cases h; exact hf
  | q :: qs, fails, i, hq, hf, fs, j, h => by
    simp only [altFirstSem, Out.bind_eq_ok] at h
    obtain ⟨⟨r, k⟩, h1, h2⟩ := h
    cases r with
    | success o => cases h2
    | recovered o es => cases h2
    | failed y es =>
      refine hf_altFirst qs _ _ (fun q' h' => hq q' (by simp [h'])) ?_ _ _ h2
      exact mem_snoc_all hf (hq q (by simp) _ _ _ _ h1)

theorem hf_mergeAll {k : Nat} : ∀ (es : List ε.E) (d : ε.E), HonestAt e ε k d →
    (∀ x ∈ es, ∃ l, HonestAt e ε l x) → HonestAt e ε k (mergeAll ε d es)
  | [], d, hd, _ => hd
  | y :: ys, d, hd, h => by
    show HonestAt e ε k (mergeAll ε _ ys)
    refine hf_mergeAll ys _ ?_ (fun x hx => h x (by simp [hx]))
    simp only
    split
    · rename_i hc
      simp only [Bool.and_eq_true] at hc
      obtain ⟨l, hl⟩ := h y (by simp)
      exact hd.merge hl hc.2
    · exact hd

theorem hf_altCombine {α : Type} {fails : List (Nat × List ε.E)} {i : Nat}
    (hf : ∀ f ∈ fails, ∃ d, f.2 = [d] ∧ HonestAt e ε f.1 d) {x : Nat} {es : List ε.E} {j : Nat}
    (h : altCombineSem (α := α) ε fails i = .ok (.failed x es, j)) : ∃ d, es = [d] ∧ HonestAt e ε x d := by
  unfold altCombineSem at h
  simp only at h
  split at h
  · cases h
  · rename_i y es' rest
    split at h
    · rename_i d
      split at h
      · cases h
        refine ⟨_, rfl, ?_⟩
        obtain ⟨d', h1, h2⟩ := hf _ List.mem_cons_self
        cases h1
        refine hf_mergeAll _ _ h2 ?_
        intro z hz
        obtain ⟨f, hf1, hf2⟩ := List.mem_flatMap.1 hz
        obtain ⟨d'', h3, h4⟩ := hf f (by simp [hf1])
        rw [h3] at hf2
        rw [List.mem_singleton.1 hf2]
        exact ⟨_, h4⟩
      · split at h
        · cases h; exact hf _ (List.mem_cons_of_mem _ List.mem_cons_self)
        · cases h
    · split at h
      · cases h; exact hf _ (List.mem_cons_of_mem _ List.mem_cons_self)
      · cases h

theorem hf_alternate {α : Type} {qs : List (PSem ε.E α)} (hq : ∀ q ∈ qs, HF e ε q) :
    HF e ε (qAlternate ε qs) := by
  intro i x es j h
  simp only [qAlternate, Out.bind_eq_ok] at h
  obtain ⟨⟨r, k⟩, h1, h2⟩ := h
  cases r with
  | inl o => cases h2
  | inr fails =>
    have h4 := hf_altFirst qs [] i hq (by simp) _ _ h1
    simp only [Bool.false_eq_true, if_false] at h2
    split at h2
    · cases h2
    · refine hf_altCombine ?_ h2
      intro f hf
      obtain ⟨f', hf', rfl⟩ := List.mem_map.1 hf
      exact h4 f' (mem_sortDesc.1 hf')

theorem hf_toRecover {α : Type} {q : PSem ε.E α} {s : SSem ε.E α} (hq : HF e ε q) :
    HF e ε (qToRecover q s) := by
  intro i x es j h
  simp only [qToRecover, Out.bind_eq_ok] at h
  obtain ⟨⟨r, k⟩, h1, h2⟩ := h
  cases r <;> cases h2
  exact hq _ _ _ _ h1

end

section

variable {ρ : QEnv S N}

mutual

theorem G.hf (hρ : ∀ k, HF e (N.err k) (ρ k)) (n : Nat) : ∀ {ε : ErrTy S} {α : Type} (g : G S N ε α),
    g.All (noUserErrL S N) → HF e _ (g.den e ρ n)
  | _, _, .empty, h => by rw [G.den]; exact hf_empty
  | _, _, .none _, h => by rw [G.den]; exact hf_none
  | _, _, .eof, h => by rw [G.den]; exact hf_end
  | _, _, .just t, h => by rw [G.den]; exact hf_just
  | _, _, .filter p, h => by rw [G.den]; exact hf_filter
  | _, _, .filterMap f, h => by rw [G.den]; exact hf_filterMap
  | _, _, .seq v items, h => by rw [G.den]; exact hf_seq
  | _, _, .oneOf items, h => by rw [G.den]; exact hf_oneOf
  | _, _, .noneOf items, h => by rw [G.den]; exact hf_noneOf
  | _, _, .boxed g, h => by rw [G.All] at h; rw [G.den]; exact G.hf hρ n g h.2
  | _, _, .withError g, h => by rw [G.All] at h; rw [G.den]; exact G.hf hρ n g h.2
  | _, _, .to g v, h => by
    rw [G.All] at h; rw [G.den]; exact hf_map (G.hf hρ n g h.2)
  | _, _, .some g, h => by
    rw [G.All] at h; rw [G.den]; exact hf_map (G.hf hρ n g h.2)
  | _, _, .map f g, h => by
    rw [G.All] at h; rw [G.den]; exact hf_map (G.hf hρ n g h.2)
  | _, _, .mapWithSpan f g, h => by
    rw [G.All] at h; rw [G.den]; exact hf_mapWithSpan (G.hf hρ n g h.2)
  | _, _, .mapErr f g, h => by
    rw [G.All] at h; exact h.1.elim
  | _, _, .mapErrWithSpan f g, h => by
    rw [G.All] at h; exact h.1.elim
  | _, _, .tryMap f g, h => by
    rw [G.All] at h; rw [G.den]; exact hf_tryMap h.1 (G.hf hρ n g h.2)
  | _, _, .then_ a b, h => by
    rw [G.All] at h; rw [G.den]; exact hf_concat2 (G.hf hρ n a h.2.1) (G.hf hρ n b h.2.2)
  | _, _, .thenIgnore a b, h => by
    rw [G.All] at h; rw [G.den]; exact hf_concat2 (G.hf hρ n a h.2.1) (G.hf hρ n b h.2.2)
  | _, _, .ignoreThen a b, h => by
    rw [G.All] at h; rw [G.den]; exact hf_concat2 (G.hf hρ n a h.2.1) (G.hf hρ n b h.2.2)
  | _, _, .delimitedBy l m r, h => by
    rw [G.All] at h; rw [G.den]
    exact hf_concat3 (G.hf hρ n l h.2.1) (G.hf hρ n m h.2.2.1) (G.hf hρ n r h.2.2.2)
  | _, _, .paddedBy p m, h => by
    rw [G.All] at h; rw [G.den]
    exact hf_concat3 (G.hf hρ n p h.2.1) (G.hf hρ n m h.2.2) (G.hf hρ n p h.2.1)
  | _, _, .chain gs, h => by rw [G.All] at h; rw [G.den]; exact hf_concat (GL.hf hρ n gs h.2)
  | _, _, .or a b, h => by
    rw [G.All] at h; rw [G.den]
    refine hf_alternate fun q hq => ?_
    simp only [List.mem_cons, List.not_mem_nil, or_false] at hq
    rcases hq with rfl | rfl
    · exact G.hf hρ n a h.2.1
    · exact G.hf hρ n b h.2.2
  | _, _, .orNot g, h => by
    rw [G.All] at h; rw [G.den]
    refine hf_alternate fun q hq => ?_
    simp only [List.mem_cons, List.not_mem_nil, or_false] at hq
    rcases hq with rfl | rfl
    · exact hf_map (G.hf hρ n g h.2)
    · exact hf_none
  | _, _, .alters gs, h => by
    rw [G.All] at h; rw [G.den]; exact hf_alternate (GL.hf hρ n gs h.2)
  | _, _, .repeated cfg item, h => by
    rw [G.All] at h; rw [G.den]; exact hf_repeat (G.hf hρ n item h.2) (fun q h => by cases h)
  | _, _, .separatedBy cfg item sep, h => by
    rw [G.All] at h; rw [G.den]
    refine hf_repeat (G.hf hρ n item h.2.1) (fun q hq => ?_)
    cases hq
    exact G.hf hρ n sep h.2.2
  | _, _, .toRecover g st, h => by
    rw [G.All] at h; rw [G.den]; exact hf_toRecover (G.hf hρ n g h.2.1)
  | _, _, .call k, h => by rw [G.den]; exact hρ k

theorem GL.hf (hρ : ∀ k, HF e (N.err k) (ρ k)) (n : Nat) : ∀ {ε : ErrTy S} {α : Type} (gs : GL S N ε α),
    gs.All (noUserErrL S N) → ∀ q ∈ gs.den e ρ n, HF e _ q
  | _, _, .nil, _, q, h => by rw [GL.den] at h; cases h
  | _, _, .cons g gs, hc, q, h => by
    rw [GL.All] at hc
    rw [GL.den] at h
    rcases List.mem_cons.1 h with h | h
    · rw [h]; exact G.hf hρ n g hc.1
    · exact GL.hf hρ n gs hc.2 q h

end

theorem callSem_hf {D : Defs S N} (hD : D.All (noUserErrL S N)) : ∀ (n : Nat) (k : N.K),
    HF e (N.err k) (callSem e D n k)
  | 0, k, i, x, es, j, h => by cases h
  | n + 1, k, i, x, es, j, h => by
    rw [callSem] at h
    cases hk : D k with
    | none => rw [hk] at h; cases h
    | some g => rw [hk] at h; exact G.hf (callSem_hf hD n) n g (hD k g hk) _ _ _ _ h

theorem G.sem_hf {D : Defs S N} (hD : D.All (noUserErrL S N)) (n : Nat) {ε : ErrTy S} {α : Type}
    (g : G S N ε α) (hg : g.All (noUserErrL S N)) : HF e ε (g.sem e D n) :=
  G.hf (callSem_hf hD n) n g hg

end

end PPC
