import Verif.SpecTerm
import Verif.SemClean

/-!
# Parsers that consume: lemmas

Soundness of `G.mayEmpty` and `IS.Forward` for the positional semantics.
-/

namespace PPC

variable {S : Sig} {N : Names S}

/-- Positions only grow; unless `m en`, a parse that does not fail consumes a token. -/
def MQ {E α : Type} (m : Bool → Bool) (q : PSem E α) : Prop :=
  ∀ en i r j, q en i = .ok (r, j) → i ≤ j ∧ (∀ x es, r = .failed x es → i ≤ x) ∧
    (m en = false → (∃ x es, r = .failed x es) ∨ i < j)

/-- A strategy stays at or after the start; if `fw`, it does not go back unless it has an output;
unless `ms`, it does not find an output at the start. -/
def SMQ {E α : Type} (fw : Prop) (ms : (Bool → Bool) → Bool) (s : SSem E α) : Prop :=
  ∀ q m, MQ m q → ∀ st fa es i o fa' es' j, st ≤ i → st ≤ fa →
    s q st fa es i = .ok ((o, fa', es'), j) →
    st ≤ j ∧ st ≤ fa' ∧ (fw → o = none → i ≤ j) ∧ (ms m = false → o = none ∨ st < j)

/-- The conclusion of `MQ` for a result that started at `i`. -/
def MR {E α : Type} (b : Prop) (i : Nat) (r : Res α E) (j : Nat) : Prop :=
  i ≤ j ∧ (∀ x es, r = .failed x es → i ≤ x) ∧ (b → (∃ x es, r = .failed x es) ∨ i < j)

theorem MR.ok {E α : Type} {b : Prop} {i j : Nat} {r : Res α E} (h : i ≤ j) (hr : ∀ x es, r ≠ .failed x es)
    (hb : b → i < j) : MR b i r j :=
  ⟨h, fun x es h' => (hr x es h').elim, fun h' => .inr (hb h')⟩

theorem MR.fail {E α : Type} {b : Prop} {i j x : Nat} {es : List E} (h : i ≤ j) (hx : i ≤ x) :
    MR b i (.failed x es : Res α E) j :=
  ⟨h, fun x es h' => by cases h'; exact hx, fun _ => .inl ⟨_, _, rfl⟩⟩

theorem MQ.mono {E α : Type} {m m' : Bool → Bool} {q : PSem E α} (h : MQ m q)
    (hm : ∀ en, m' en = false → m en = false) : MQ m' q := fun en i r j hr =>
  let h1 := h en i r j hr
  ⟨h1.1, h1.2.1, fun h2 => h1.2.2 (hm en h2)⟩

theorem MQ.lt {E α : Type} {m : Bool → Bool} {q : PSem E α} (h : MQ m q) {en : Bool} {i j : Nat}
    {r : Res α E} (hr : q en i = .ok (r, j)) (hf : ∀ x es, r ≠ .failed x es) (hm : m en = false) : i < j := by
  rcases (h _ _ _ _ hr).2.2 hm with ⟨x, es, h'⟩ | h'
  · exact (hf _ _ h').elim
  · exact h'

/-! ## Mapping -/

/-- A parser that only changes outputs and errors. -/
theorem mq_post {E X α β : Type} {m : Bool → Bool} {q : PSem X α} (h : MQ m q)
    {f : Nat → Nat → Res α X → Res β E} (hf : ∀ i j x es, ∃ es', f i j (.failed x es) = .failed x es')
    (hs : ∀ i j o y es, f i j (.success o) ≠ .failed y es)
    (hr : ∀ i j o es y es', f i j (.recovered o es) ≠ .failed y es') :
    MQ m (fun en i => do let (r, j) ← q en i; .ok (f i j r, j)) := by
  intro en i r j hq
  simp only [Out.bind_eq_ok] at hq
  obtain ⟨⟨r', j'⟩, h1, h2⟩ := hq
  have h3 := h _ _ _ _ h1
  have h4 := Prod.mk.inj (Out.ok.inj h2)
  obtain ⟨rfl, rfl⟩ := h4
  cases r' with
  | success o => exact MR.ok h3.1 (hs i j' o) (fun hm => h.lt h1 (by simp) hm)
  | recovered o es => exact MR.ok h3.1 (hr i j' o es) (fun hm => h.lt h1 (by simp) hm)
  | failed x es =>
    obtain ⟨es', h5⟩ := hf i j' x es
    rw [h5]
    exact MR.fail h3.1 (h3.2.1 _ _ rfl)

theorem mq_map {E α β : Type} {m : Bool → Bool} {f : α → β} {q : PSem E α} (h : MQ m q) :
    MQ m (qMap f q) :=
  mq_post h (f := fun _ _ r => r.map f) (fun _ _ _ _ => ⟨_, rfl⟩) (fun _ _ _ _ _ h => by cases h)
    (fun _ _ _ _ _ _ h => by cases h)

theorem mq_mapWithSpan {E α β : Type} {e : Env S} {m : Bool → Bool} {f : α → S.Span → β} {q : PSem E α}
    (h : MQ m q) : MQ m (qMapWithSpan e f q) :=
  mq_post h (f := fun i j r => r.map fun a => f a (e.spanOf i j)) (fun _ _ _ _ => ⟨_, rfl⟩)
    (fun _ _ _ _ _ h => by cases h) (fun _ _ _ _ _ _ h => by cases h)

theorem mq_mapErr {E X α : Type} {m : Bool → Bool} {f : X → E} {q : PSem X α} (h : MQ m q) :
    MQ m (qMapErr f q) :=
  mq_post h (f := fun _ _ r => r.mapErr f) (fun _ _ _ _ => ⟨_, rfl⟩) (fun _ _ _ _ _ h => by cases h)
    (fun _ _ _ _ _ _ h => by cases h)

theorem mq_mapErrWithSpan {E X α : Type} {e : Env S} {m : Bool → Bool} {f : X → S.Span → E} {q : PSem X α}
    (h : MQ m q) : MQ m (qMapErrWithSpan e f q) :=
  mq_post h (f := fun i j r => r.mapErr fun a => f a (e.spanOf i j)) (fun _ _ _ _ => ⟨_, rfl⟩)
    (fun _ _ _ _ _ h => by cases h) (fun _ _ _ _ _ _ h => by cases h)

theorem mr_tryMapStep {E α β : Type} {e : Env S} {f : α → S.Span → TryMapResult β E} {en : Bool}
    {i j k : Nat} {a : α} {r : Res β E} {b : Prop} (hij : i ≤ j) (hb : b → i < j)
    (h : tryMapStep e f en i j a = .ok (r, k)) : MR b i r k := by
  unfold tryMapStep at h
  split at h
  · cases h; exact .ok hij (by simp) hb
  · split at h <;> cases h
    exact .fail (Nat.le_refl _) (Nat.le_refl _)
  · split at h
    · cases h
    · split at h <;> cases h
      · exact .ok hij (by simp) hb
      · exact .fail hij (Nat.le_refl _)

theorem mq_tryMap {E α β : Type} {e : Env S} {m : Bool → Bool} {f : α → S.Span → TryMapResult β E}
    {q : PSem E α} (h : MQ m q) : MQ m (qTryMap e f q) := by
  intro en i r j hq
  simp only [qTryMap, Out.bind_eq_ok] at hq
  obtain ⟨⟨r', j'⟩, h1, h2⟩ := hq
  have h3 := h _ _ _ _ h1
  cases r' with
  | success a => exact mr_tryMapStep h3.1 (fun hm => h.lt h1 (by simp) hm) h2
  | recovered a es =>
    simp only [Out.bind_eq_ok] at h2
    obtain ⟨⟨r2, k⟩, h4, h5⟩ := h2
    have h6 := mr_tryMapStep (b := m en = false) h3.1 (fun hm => h.lt h1 (by simp) hm) h4
    cases h5
    cases r2 with
    | success x => exact h6
    | recovered x es2 => exact MR.ok h6.1 (by simp [Res.prependErrs]) (fun hm => by
        rcases h6.2.2 hm with ⟨_, _, h7⟩ | h7
        · cases h7
        · exact h7)
    | failed x es2 => exact MR.fail h6.1 (h6.2.1 _ _ rfl)
  | failed x es => cases h2; exact MR.fail h3.1 (h3.2.1 _ _ rfl)

/-! ## Sequencing -/

theorem mr_finish {E α : Type} {en : Bool} {o : α} {r : Option (List E)} {i j k : Nat} {x : Res α E}
    {b : Prop} (hij : i ≤ j) (hb : b → i < j) (h : finishSem en o r j = .ok (x, k)) : MR b i x k := by
  unfold finishSem at h
  split at h
  · split at h <;> cases h
    exact .ok hij (by simp) hb
  · cases h; exact .ok hij (by simp) hb

theorem mr_concatLast {E β γ : Type} {en : Bool} {start : Nat} {f : β → γ} {mb : Bool → Bool}
    {qb : PSem E β} (hb : MQ mb qb) {r : Option (List E)} {i j : Nat} {x : Res γ E} {b : Prop}
    (hs : start ≤ i) (hc : b → start < i ∨ mb en = false)
    (h : concatLastSem en start f qb r i = .ok (x, j)) : MR b start x j := by
  simp only [concatLastSem, Out.bind_eq_ok] at h
  obtain ⟨⟨r', k⟩, h1, h2⟩ := h
  have h3 := hb _ _ _ _ h1
  cases r' with
  | success y =>
    refine mr_finish (by omega) (fun h4 => ?_) h2
    rcases hc h4 with h5 | h5
    · omega
    · have := hb.lt h1 (by simp) h5; omega
  | recovered y es =>
    refine mr_finish (by omega) (fun h4 => ?_) h2
    rcases hc h4 with h5 | h5
    · omega
    · have := hb.lt h1 (by simp) h5; omega
  | failed y es =>
    cases h2
    have := h3.2.1 _ _ rfl
    exact .fail (Nat.le_refl _) (by omega)

theorem mr_concatMid {E β γ δ : Type} {en : Bool} {start : Nat} {f : β × γ → δ} {mb mc : Bool → Bool}
    {qb : PSem E β} {qc : PSem E γ} (hb : MQ mb qb) (hc : MQ mc qc) {r : Option (List E)} {i j : Nat}
    {x : Res δ E} {b : Prop} (hs : start ≤ i) (hcond : b → start < i ∨ mb en = false ∨ mc en = false)
    (h : concatMidSem en start f qb qc r i = .ok (x, j)) : MR b start x j := by
  simp only [concatMidSem, Out.bind_eq_ok] at h
  obtain ⟨⟨r', k⟩, h1, h2⟩ := h
  have h3 := hb _ _ _ _ h1
  cases r' with
  | success y =>
    refine mr_concatLast hc (by omega) (fun h4 => ?_) h2
    rcases hcond h4 with h5 | h5 | h5
    · left; omega
    · have := hb.lt h1 (by simp) h5; left; omega
    · exact .inr h5
  | recovered y es =>
    refine mr_concatLast hc (by omega) (fun h4 => ?_) h2
    rcases hcond h4 with h5 | h5 | h5
    · left; omega
    · have := hb.lt h1 (by simp) h5; left; omega
    · exact .inr h5
  | failed y es =>
    cases h2
    have := h3.2.1 _ _ rfl
    exact .fail (Nat.le_refl _) (by omega)

theorem mq_concat2 {E α β γ : Type} {f : α × β → γ} {ma mb : Bool → Bool} {qa : PSem E α} {qb : PSem E β}
    (ha : MQ ma qa) (hb : MQ mb qb) : MQ (fun en => ma en && mb en) (qConcat2 f qa qb) := by
  intro en i x j h
  simp only [qConcat2, Out.bind_eq_ok] at h
  obtain ⟨⟨r, k⟩, h1, h2⟩ := h
  have h3 := ha _ _ _ _ h1
  have h4 : (∀ x es, r ≠ .failed x es) → (ma en && mb en) = false → i < k ∨ mb en = false := by
    intro hf hm
    cases hma : ma en with
    | false => exact .inl (ha.lt h1 hf hma)
    | true => simp [hma] at hm; exact .inr hm
  cases r with
  | success y => exact mr_concatLast hb h3.1 (h4 (by simp)) h2
  | recovered y es => exact mr_concatLast hb h3.1 (h4 (by simp)) h2
  | failed y es => cases h2; exact MR.fail h3.1 (h3.2.1 _ _ rfl)

theorem mq_concat3 {E α β γ δ : Type} {f : α × β × γ → δ} {ma mb mc : Bool → Bool} {qa : PSem E α}
    {qb : PSem E β} {qc : PSem E γ} (ha : MQ ma qa) (hb : MQ mb qb) (hc : MQ mc qc) :
    MQ (fun en => ma en && mb en && mc en) (qConcat3 f qa qb qc) := by
  intro en i x j h
  simp only [qConcat3, Out.bind_eq_ok] at h
  obtain ⟨⟨r, k⟩, h1, h2⟩ := h
  have h3 := ha _ _ _ _ h1
  have h4 : (∀ x es, r ≠ .failed x es) → (ma en && mb en && mc en) = false →
      i < k ∨ mb en = false ∨ mc en = false := by
    intro hf hm
    cases hma : ma en with
    | false => exact .inl (ha.lt h1 hf hma)
    | true =>
      cases hmb : mb en with
      | false => exact .inr (.inl rfl)
      | true => simp [hma, hmb] at hm; exact .inr (.inr hm)
  cases r with
  | success y => exact mr_concatMid hb hc h3.1 (h4 (by simp)) h2
  | recovered y es => exact mr_concatMid hb hc h3.1 (h4 (by simp)) h2
  | failed y es => cases h2; exact MR.fail h3.1 (h3.2.1 _ _ rfl)

/-- The parsers of a list, with what is known of them. -/
def MQs {E α : Type} : List (Bool → Bool) → List (PSem E α) → Prop
  | [], [] => True
  | m :: ms, q :: qs => MQ m q ∧ MQs ms qs
  | _, _ => False

theorem mr_concatRest {E α : Type} {en : Bool} {start : Nat} : ∀ (ms : List (Bool → Bool))
    (qs : List (PSem E α)), MQs ms qs → ∀ (out : List α) (r : Option (List E)) (i : Nat) (b : Prop),
    start ≤ i → (b → start < i ∨ (ms.all fun m => m en) = false) → ∀ x j,
      concatRestSem en start qs out r i = .ok (x, j) → MR b start x j
  | [], [], _, out, r, i, b, hs, hc, x, j, h => by
    rw [concatRestSem] at h
    refine mr_finish hs (fun hb => ?_) h
    rcases hc hb with h1 | h1
    · exact h1
    · simp at h1
  | m :: ms, q :: qs, hq, out, r, i, b, hs, hc, x, j, h => by
    simp only [concatRestSem, Out.bind_eq_ok] at h
    obtain ⟨⟨r', k⟩, h1, h2⟩ := h
    have h3 := hq.1 _ _ _ _ h1
    have h4 : (∀ x es, r' ≠ .failed x es) → b → start < k ∨ (ms.all fun m => m en) = false := by
      intro hf hb
      rcases hc hb with h5 | h5
      · left; omega
      · cases hm : m en with
        | false => have := hq.1.lt h1 hf hm; left; omega
        | true => simp only [List.all_cons, hm, Bool.true_and] at h5; exact .inr h5
    cases r' with
    | success y => exact mr_concatRest ms qs hq.2 _ _ _ b (by omega) (h4 (by simp)) _ _ h2
    | recovered y es => exact mr_concatRest ms qs hq.2 _ _ _ b (by omega) (h4 (by simp)) _ _ h2
    | failed y es =>
      cases h2
      have := h3.2.1 _ _ rfl
      exact .fail (Nat.le_refl _) (by omega)

theorem mq_concat {E α : Type} {ms : List (Bool → Bool)} {qs : List (PSem E α)} (hq : MQs ms qs) :
    MQ (fun en => ms.all fun m => m en) (qConcat qs) := by
  intro en i x j h
  match ms, qs, hq with
  | [], [], _ => cases h; exact MR.ok (Nat.le_refl _) (by simp) (by simp)
  | m :: ms, q :: qs, hq =>
    simp only [qConcat, Out.bind_eq_ok] at h
    obtain ⟨⟨r', k⟩, h1, h2⟩ := h
    have h3 := hq.1 _ _ _ _ h1
    have h4 : (∀ x es, r' ≠ .failed x es) → ((m :: ms).all fun m => m en) = false →
        i < k ∨ (ms.all fun m => m en) = false := by
      intro hf h5
      cases hm : m en with
      | false => exact .inl (hq.1.lt h1 hf hm)
      | true => simp only [List.all_cons, hm, Bool.true_and] at h5; exact .inr h5
    cases r' with
    | success y => exact mr_concatRest ms qs hq.2 _ _ _ _ h3.1 (h4 (by simp)) _ _ h2
    | recovered y es => exact mr_concatRest ms qs hq.2 _ _ _ _ h3.1 (h4 (by simp)) _ _ h2
    | failed y es => cases h2; exact MR.fail h3.1 (h3.2.1 _ _ rfl)

/-! ## Repetition -/

/-- The item part of an iteration, when the result is known for the iterations that follow. -/
theorem mr_repItem {E α : Type} {cfg : RepCfg} {m : Bool → Bool} {item : PSem E α} (hi : MQ m item)
    {en : Bool} {start : Nat} {again : List α → Option (List E) → Nat → Out (Res (List α) E × Nat)}
    {b : Prop} {out : List α} {r : Option (List E)} {before : Option Nat} {i j : Nat} {x : Res (List α) E}
    (ha : ∀ o r k, i ≤ k → (m (en && decide (out.length < cfg.minimum)) = false → i < k) →
      again (out ++ [o]) r k = .ok (x, j) → MR b start x j)
    (hs : start ≤ i) (hb : ∀ p, before = some p → start ≤ p ∧ p ≤ i)
    (hc : b → (cfg.atMax out.length = true ∨ cfg.minimum ≤ out.length) →
      start < i ∧ ∀ p, before = some p → start < p)
    (h : repItemSem cfg item en start again out r before i = .ok (x, j)) : MR b start x j := by
  unfold repItemSem at h
  split at h
  · rename_i hmax
    simp only [Bool.and_eq_true] at hmax
    exact mr_finish hs (fun hb' => (hc hb' (.inl hmax.2)).1) h
  · simp only [Out.bind_eq_ok] at h
    obtain ⟨⟨r', k⟩, h1, h2⟩ := h
    have h3 := hi _ _ _ _ h1
    cases r' with
    | success y => exact ha _ _ _ h3.1 (fun hm => hi.lt h1 (by simp) hm) h2
    | recovered y es => exact ha _ _ _ h3.1 (fun hm => hi.lt h1 (by simp) hm) h2
    | failed y es =>
      simp only at h2
      split at h2
      · rename_i hmin
        obtain ⟨h5, h6⟩ := Prod.mk.inj (Out.ok.inj h2)
        subst h5
        cases before with
        | none =>
          simp only at h6
          subst h6
          exact .ok (by omega) (by simp) (fun hb' => by have := (hc hb' (.inr hmin)).1; omega)
        | some p =>
          have h7 := hb p rfl
          simp only at h6
          split at h6
          · subst h6
            exact .ok (by omega) (by simp) (fun hb' => by have := (hc hb' (.inr hmin)).1; omega)
          · subst h6
            exact .ok h7.1 (by simp) (fun hb' => (hc hb' (.inr hmin)).2 _ rfl)
      · cases h2
        have := h3.2.1 _ _ rfl
        exact .fail (Nat.le_refl _) (by omega)

/-- From the second iteration on: it is only known that positions grow. -/
theorem mr_repLoop {E α β : Type} {cfg : RepCfg} {m ms : Bool → Bool} {item : PSem E α}
    {sep : Option (PSem E β)} (hi : MQ m item) (hs : ∀ q, sep = some q → MQ ms q) {en : Bool} {start : Nat}
    {b : Prop} : ∀ (fuel : Nat) (out : List α) (r : Option (List E)) (i : Nat) (x : Res (List α) E)
      (j : Nat), start ≤ i → (b → start < i) → repLoopSem cfg item sep en start fuel out r i = .ok (x, j) →
      MR b start x j
  | 0, _, _, _, _, _, _, _, h => by cases h
  | fuel + 1, out, r, i, x, j, hst, hb, h => by
    have ih := mr_repLoop (cfg := cfg) hi hs (en := en) (start := start) (b := b) fuel
    unfold repLoopSem at h
    split at h
    · exact mr_finish hst hb h
    · simp only at h
      split at h
      · rename_i _ q _
        simp only [Out.bind_eq_ok] at h
        obtain ⟨⟨r', k⟩, h1, h2⟩ := h
        have h3 := hs _ rfl _ _ _ _ h1
        have h4 : ∀ r'', repItemSem cfg item en start (repLoopSem cfg item (some q) en start fuel) out r''
            (some i) k = .ok (x, j) → MR b start x j := fun r'' h5 =>
          mr_repItem hi (fun o r l hl _ h6 => ih _ _ _ _ _ (by omega) (fun hb' => by have := hb hb'; omega) h6)
            (by omega) (fun p hp => by cases hp; exact ⟨hst, h3.1⟩)
            (fun hb' _ => ⟨by have := hb hb'; omega, fun p hp => by cases hp; exact hb hb'⟩) h5
        cases r' with
        | success y => exact h4 _ h2
        | recovered y es => exact h4 _ h2
        | failed y es =>
          simp only at h2
          split at h2
          · exact h4 _ h2
          · have := h3.2.1 _ _ rfl
            split at h2 <;> cases h2
            · exact .ok (by omega) (by simp) (fun hb' => by have := hb hb'; omega)
            · exact .fail (Nat.le_refl _) (by omega)
      · exact mr_repItem hi
          (fun o r l hl _ h6 => ih _ _ _ _ _ (by omega) (fun hb' => by have := hb hb'; omega) h6)
          hst (fun p hp => by cases hp) (fun hb' _ => ⟨hb hb', fun p hp => by cases hp⟩) h

theorem mq_repeat {E α β : Type} {fuel : Nat} {cfg : RepCfg} {m ms : Bool → Bool} {item : PSem E α}
    {sep : Option (PSem E β)} (hi : MQ m item) (hs : ∀ q, sep = some q → MQ ms q) :
    MQ (fun en => cfg.minimum == 0 || cfg.maximum == some 0 || m en) (qRepeat fuel cfg item sep) := by
  intro en i x j h
  unfold qRepeat at h
  cases fuel with
  | zero => cases h
  | succ fuel =>
    let b : Prop := (cfg.minimum == 0 || cfg.maximum == some 0 || m en) = false
    have hb : b → cfg.minimum ≠ 0 ∧ cfg.maximum ≠ some 0 ∧ m en = false := by
      intro h1
      simpa [b, Bool.or_eq_false_iff, and_assoc] using h1
    have hmax : b → cfg.atMax 0 = false := by
      intro h1
      have h2 := (hb h1).2.1
      unfold RepCfg.atMax
      cases hm : cfg.maximum with
      | none => rfl
      | some v =>
        cases v with
        | zero => exact (h2 hm).elim
        | succ v => rfl
    have hflag : b → (en && decide (([] : List α).length < cfg.minimum)) = en := by
      intro h1
      have := (hb h1).1
      simp [Nat.pos_of_ne_zero this]
    have hno : b → ¬ (cfg.atMax ([] : List α).length = true ∨ cfg.minimum ≤ ([] : List α).length) := by
      intro h1 h2
      rcases h2 with h2 | h2
      · have := hmax h1
        simp only [List.length_nil] at h2
        rw [this] at h2; cases h2
      · have := (hb h1).1
        simp only [List.length_nil] at h2
        omega
    have ih := mr_repLoop (cfg := cfg) hi hs (en := en) (start := i) (b := b) fuel
    show MR b i x j
    unfold repLoopSem at h
    split at h
    · rename_i hmx
      simp only [Bool.and_eq_true] at hmx
      exact mr_finish (Nat.le_refl _) (fun h1 => by have := hmax h1; simp only [List.length_nil] at hmx; rw [this] at hmx; cases hmx.2) h
    · simp only at h
      split at h
      · rename_i _ q _
        simp only [Out.bind_eq_ok] at h
        obtain ⟨⟨r', k⟩, h1, h2⟩ := h
        have h3 := hs _ rfl _ _ _ _ h1
        have h4 : ∀ r'', repItemSem cfg item en i (repLoopSem cfg item (some q) en i fuel) [] r''
            (some i) k = .ok (x, j) → MR b i x j := fun r'' h5 =>
          mr_repItem hi (fun o r l hl hlt h6 => ih _ _ _ _ _ (by omega) (fun hb' => by
              have := hlt (by rw [hflag hb']; exact (hb hb').2.2); omega) h6)
            h3.1 (fun p hp => by cases hp; exact ⟨Nat.le_refl _, h3.1⟩)
            (fun hb' hh => (hno hb' hh).elim) h5
        cases r' with
        | success y => exact h4 _ h2
        | recovered y es => exact h4 _ h2
        | failed y es => exact h4 _ h2
      · exact mr_repItem hi
          (fun o r l hl hlt h6 => ih _ _ _ _ _ hl (fun hb' =>
            hlt (by rw [hflag hb']; exact (hb hb').2.2)) h6)
          (Nat.le_refl _) (fun p hp => by cases hp) (fun hb' hh => (hno hb' hh).elim) h

/-! ## Choice -/

theorem mq_altFirst {E α : Type} {m : Bool → Bool} {i0 : Nat} : ∀ (qs : List (PSem E α))
    (fails : List (FailSem E α)) (i : Nat), (∀ q ∈ qs, MQ m q) → i0 ≤ i →
    (∀ f ∈ fails, i0 ≤ f.1 ∧ MQ m f.2.2) → ∀ x j, altFirstSem qs fails i = .ok (x, j) →
      i0 ≤ j ∧ (∀ o, x = .inl o → m false = false → i0 < j) ∧
        ∀ fs, x = .inr fs → ∀ f ∈ fs, i0 ≤ f.1 ∧ MQ m f.2.2
  | [], fails, i, _, hi, hf, x, j, h => by
    cases h
    exact ⟨hi, (fun o h => by cases h), (fun fs h => by cases h; exact hf)⟩
  | q :: qs, fails, i, hq, hi, hf, x, j, h => by
    simp only [altFirstSem, Out.bind_eq_ok] at h
    obtain ⟨⟨r, k⟩, h1, h2⟩ := h
    have h3 := hq q (by simp) _ _ _ _ h1
    cases r with
    | success o =>
      cases h2
      exact ⟨by omega, fun o' h hm => by have := (hq q (by simp)).lt h1 (by simp) hm; omega,
        fun fs h => by cases h⟩
    | recovered o es => cases h2
    | failed y es =>
      refine mq_altFirst qs _ k (fun q' h' => hq q' (by simp [h'])) (by omega) ?_ _ _ h2
      intro f hf'
      rcases List.mem_append.1 hf' with h' | h'
      · exact hf f h'
      · rw [List.mem_singleton.1 h']
        have := h3.2.1 _ _ rfl
        exact ⟨by show i0 ≤ y; omega, hq q (by simp)⟩

theorem mq_altRecover {E α : Type} {m : Bool → Bool} : ∀ (fails : List (FailSem E α)) (i : Nat),
    (∀ f ∈ fails, MQ m f.2.2) → ∀ x j, altRecoverSem fails i = .ok (x, j) →
      i ≤ j ∧ (∀ r, x = some r → (∃ a es, r = .recovered a es) ∧ (m true = false → i < j))
  | [], i, _, x, j, h => by
    cases h; exact ⟨Nat.le_refl _, fun r h => by cases h⟩
  | (y, es, q) :: rest, i, hq, x, j, h => by
    simp only [altRecoverSem, Out.bind_eq_ok] at h
    obtain ⟨⟨r, k⟩, h1, h2⟩ := h
    have hq1 : MQ m q := hq _ List.mem_cons_self
    have h3 := hq1 _ _ _ _ h1
    cases r with
    | success o => cases h2
    | recovered o es' =>
      cases h2
      exact ⟨h3.1, fun r h => by cases h; exact ⟨⟨_, _, rfl⟩, fun hm => hq1.lt h1 (by simp) hm⟩⟩
    | failed y' es' =>
      have h4 := mq_altRecover rest k (fun f hf => hq f (by simp [hf])) _ _ h2
      exact ⟨by omega, fun r h => ⟨(h4.2 r h).1, fun hm => by have := (h4.2 r h).2 hm; omega⟩⟩

theorem mq_alternate {α : Type} {ε : ErrTy S} {m : Bool → Bool} {qs : List (PSem ε.E α)}
    (hq : ∀ q ∈ qs, MQ m q) : MQ (fun en => m false || (en && m true)) (qAlternate ε qs) := by
  intro en i x j h
  simp only [qAlternate, Out.bind_eq_ok] at h
  obtain ⟨⟨r, k⟩, h1, h2⟩ := h
  have h3 := mq_altFirst qs [] i hq (Nat.le_refl _) (by simp) _ _ h1
  cases r with
  | inl o =>
    cases h2
    exact MR.ok h3.1 (by simp) (fun hm => by
      simp only [Bool.or_eq_false_iff] at hm
      exact h3.2.1 _ rfl hm.1)
  | inr fails =>
    have h4 := h3.2.2 _ rfl
    simp only at h2
    split at h2
    · cases h2
    · have h5 : ∀ (z : Res α ε.E) (k l : Nat), i ≤ k →
          altCombineSem ε ((sortDesc fails).map fun f => (f.1, f.2.1)) k = .ok (z, l) →
          MR ((m false || (en && m true)) = false) i z l := by
        intro z k l hk hz
        obtain ⟨rfl, y, es, rfl, hy⟩ := altCombine_failed hz
        refine MR.fail hk ?_
        simp only [List.map_map, List.mem_map, Function.comp_apply] at hy
        obtain ⟨f, hf, rfl⟩ := hy
        exact (h4 f (mem_sortDesc.1 hf)).1
      split at h2
      · rename_i hen
        simp only [Out.bind_eq_ok] at h2
        obtain ⟨⟨r', k'⟩, h6, h7⟩ := h2
        have h8 := mq_altRecover (m := m) _ k (fun f hf => (h4 f (mem_sortDesc.1 hf)).2) _ _ h6
        cases r' with
        | none => exact h5 _ _ _ (by omega) h7
        | some r' =>
          cases h7
          obtain ⟨⟨a, es, rfl⟩, h9⟩ := h8.2 _ rfl
          exact MR.ok (by omega) (by simp) (fun hm => by
            simp only [Bool.or_eq_false_iff, hen, Bool.true_and] at hm
            have := h9 hm.2; omega)
      · exact h5 _ _ _ h3.1 h2

/-! ## Recovery -/

theorem smq_orElse {E α : Type} {fs ft : Prop} {ms mt : (Bool → Bool) → Bool} {s t : SSem E α}
    (hs : SMQ fs ms s) (ht : SMQ ft mt t) : SMQ (fs ∧ ft) (fun m => ms m || mt m) (s.orElse t) := by
  intro q m hq st fa es i o fa' es' j h1 h2 h
  simp only [SSem.orElse, Out.bind_eq_ok] at h
  obtain ⟨⟨⟨o1, fa1, es1⟩, j1⟩, h3, h4⟩ := h
  have h5 := hs q m hq st fa es i o1 fa1 es1 j1 h1 h2 h3
  cases o1 with
  | some o1 =>
    cases h4
    refine ⟨h5.1, h5.2.1, (fun _ h => by cases h), fun hm => ?_⟩
    simp only [Bool.or_eq_false_iff] at hm
    exact h5.2.2.2 hm.1
  | none =>
    have h6 := ht q m hq st fa1 es1 j1 o fa' es' j h5.1 h5.2.1 h4
    exact ⟨h6.1, h6.2.1, fun hf ho => by
      have := h5.2.2.1 hf.1 rfl
      have := h6.2.2.1 hf.2 ho
      omega, fun hm => by simp only [Bool.or_eq_false_iff] at hm; exact h6.2.2.2 hm.2⟩

theorem SMQ.mono {E α : Type} {fs fs' : Prop} {ms ms' : (Bool → Bool) → Bool} {s : SSem E α}
    (h : SMQ fs ms s) (hf : fs' → fs) (hm : ∀ m, ms' m = false → ms m = false) : SMQ fs' ms' s := by
  intro q m hq st fa es i o fa' es' j h1 h2 h3
  have h4 := h q m hq st fa es i o fa' es' j h1 h2 h3
  exact ⟨h4.1, h4.2.1, fun h => h4.2.2.1 (hf h), fun h => h4.2.2.2 (hm m h)⟩

/-- After a strategy `s`, giving up at a position determined by the state. -/
theorem smq_giveUp {E α : Type} {fs ft : Prop} {ms : (Bool → Bool) → Bool} {s : SSem E α}
    (hs : SMQ fs ms s) {p : Nat → Nat → Nat → Nat} {f : List E → Nat → Nat → List E}
    (hp : ∀ st fa i, st ≤ fa → st ≤ i → st ≤ p st fa i) (hfw : ft → fs ∧ ∀ st fa i, i ≤ p st fa i) :
    SMQ ft ms (s.orElse fun _ st fa es i => giveUp (α := α) fa (f es st i) (p st fa i)) := by
  have h0 : SMQ (E := E) (α := α) (∀ st fa i, i ≤ p st fa i) (fun _ => false)
      (fun _ st fa es i => giveUp (α := α) fa (f es st i) (p st fa i)) := by
    intro q m hq st fa es i o fa' es' j h1 h2 h
    cases h
    exact ⟨hp _ _ _ h2 h1, h2, fun h _ => h st fa i, fun _ => .inl rfl⟩
  exact (smq_orElse hs h0).mono hfw (fun m h => by simpa using h)

/-- After a strategy `s`, succeeding at the current position. -/
theorem smq_ret {E α : Type} {fs : Prop} {ms : (Bool → Bool) → Bool} {s : SSem E α}
    (hs : SMQ fs ms s) {f : Nat → Nat → α} :
    SMQ False (fun _ => true) (s.orElse fun _ st fa es i => .ok ((some (f st i), fa, es), i)) := by
  have h0 : SMQ (E := E) (α := α) True (fun _ => true)
      (fun _ st fa es i => .ok ((some (f st i), fa, es), i)) := by
    intro q m hq st fa es i o fa' es' j h1 h2 h
    cases h
    exact ⟨h1, h2, (fun _ h => by cases h), (fun h => by cases h)⟩
  exact (smq_orElse hs h0).mono (fun h => h.elim) (fun m h => by cases h)

theorem smq_runIn {E α : Type} {m : Bool → Bool} {q : PSem E α} (hq : MQ m q) {exact silent : Bool}
    {st fa : Nat} {es : List E} {i : Nat} {o : Option α} {fa' : Nat} {es' : List E} {j : Nat} (h1 : st ≤ i)
    (h2 : st ≤ fa) (h : runInSem q exact silent fa es i = .ok ((o, fa', es'), j)) :
    st ≤ j ∧ st ≤ fa' ∧ (o = none → i ≤ j) ∧ (m (!exact) = false → o = none ∨ st < j) := by
  simp only [runInSem, Out.bind_eq_ok] at h
  obtain ⟨⟨r, k⟩, h3, h4⟩ := h
  have h5 := hq _ _ _ _ h3
  cases r with
  | success x =>
    cases h4
    exact ⟨by omega, h2, (fun h => by cases h), fun hm => .inr (by have := hq.lt h3 (by simp) hm; omega)⟩
  | recovered x es2 =>
    have h6 := Prod.mk.inj (Out.ok.inj h4)
    have h7 := Prod.mk.inj (Prod.mk.inj h6.1).2
    exact ⟨by omega, by omega, fun h => by omega, fun hm => .inr (by have := hq.lt h3 (by simp) hm; omega)⟩
  | failed x es2 =>
    simp only [Out.bind_eq_ok] at h4
    obtain ⟨y, h6, h7⟩ := h4
    obtain ⟨rfl, h8⟩ := saveAt_eq h6
    have h10 := Prod.mk.inj (Out.ok.inj h7)
    have h12 := Prod.mk.inj h10.1
    have h11 := Prod.mk.inj h12.2
    exact ⟨by omega, by omega, fun _ => by omega, fun _ => .inl h12.1.symm⟩

theorem smq_whileNot {E α : Type} {e : Env S} {p : S.I → Bool} {fw : Prop} {ms : (Bool → Bool) → Bool}
    {t : SSem E α} (ht : SMQ fw ms t) {q : PSem E α} {m : Bool → Bool} (hq : MQ m q) {st : Nat} :
    ∀ (fuel fa : Nat) (es : List E) (i : Nat) (o : Option α) (fa' : Nat) (es' : List E) (j : Nat),
    st ≤ i → st ≤ fa → whileNotSem e p t q st fuel fa es i = .ok ((o, fa', es'), j) →
    st ≤ j ∧ st ≤ fa' ∧ (fw → o = none → i ≤ j) ∧ (ms m = false → o = none ∨ st < j)
  | 0, _, _, _, _, _, _, _, _, _, h => by cases h
  | fuel + 1, fa, es, i, o, fa', es', j, h1, h2, h => by
    unfold whileNotSem at h
    split at h
    · cases h; exact ⟨h1, h2, fun _ _ => Nat.le_refl _, fun _ => .inl rfl⟩
    · simp only [Out.bind_eq_ok] at h
      obtain ⟨⟨⟨o1, fa1, es1⟩, j1⟩, h3, h4⟩ := h
      have h5 := ht q m hq st fa es i o1 fa1 es1 j1 h1 h2 h3
      cases o1 with
      | some o1 =>
        cases h4
        exact ⟨h5.1, h5.2.1, (fun _ h => by cases h), h5.2.2.2⟩
      | none =>
        have h6 := e.le_next j1
        have h7 := smq_whileNot ht hq fuel fa1 es1 _ o fa' es' j (by omega) h5.2.1 h4
        exact ⟨h7.1, h7.2.1, fun hf ho => by
          have := h5.2.2.1 hf rfl
          have := h7.2.2.1 hf ho
          omega, h7.2.2.2⟩

theorem mq_toRecover {E α : Type} {m : Bool → Bool} {q : PSem E α} {fw : Prop}
    {ms : (Bool → Bool) → Bool} {s : SSem E α} (hq : MQ m q) (hs : SMQ fw ms s) :
    MQ (fun en => m en || (en && ms m)) (qToRecover q s) := by
  intro en i x j h
  simp only [qToRecover, Out.bind_eq_ok] at h
  obtain ⟨⟨r, k⟩, h1, h2⟩ := h
  have h3 := hq _ _ _ _ h1
  have h0 : (m en || (en && ms m)) = false → m en = false ∧ (en = true → ms m = false) := by
    intro hm
    simp only [Bool.or_eq_false_iff] at hm
    refine ⟨hm.1, fun he => ?_⟩
    have := hm.2
    rw [he, Bool.true_and] at this
    exact this
  cases r with
  | success x => cases h2; exact MR.ok h3.1 (by simp) (fun hm => hq.lt h1 (by simp) (h0 hm).1)
  | recovered x es' => cases h2; exact MR.ok h3.1 (by simp) (fun hm => hq.lt h1 (by simp) (h0 hm).1)
  | failed x es' =>
    have h4 := h3.2.1 _ _ rfl
    simp only at h2
    split at h2
    · cases h2; exact MR.fail h3.1 h4
    · rename_i hen
      have hen : en = true := by cases en <;> simp at hen ⊢
      simp only [Out.bind_eq_ok] at h2
      obtain ⟨fa, h5, ⟨⟨o, fa', es''⟩, l⟩, h6, h7⟩ := h2
      obtain ⟨rfl, h8⟩ := saveAt_eq h5
      have h9 := hs q m hq _ _ _ _ _ _ _ _ (Nat.le_refl _) h8 h6
      cases o with
      | some o =>
        cases h7
        refine MR.ok (by omega) (by simp) (fun hm => ?_)
        rcases h9.2.2.2 ((h0 hm).2 hen) with h10 | h10
        · cases h10
        · omega
      | none => cases h7; exact MR.fail h3.1 h4

/-! ## Grammars -/

section

variable {e : Env S} {ρ : QEnv S N} {ν : Bool → N.K → Bool}

theorem mq_prim {E α : Type} {m : Bool → Bool} {q : PSem E α}
    (h : ∀ en i r j, q en i = .ok (r, j) → MR (m en = false) i r j) : MQ m q := h

/-- What is known of a list of parsers. -/
def GL.emptyList (ν : Bool → N.K → Bool) : ∀ {ε : ErrTy S} {α : Type}, GL S N ε α → List (Bool → Bool)
  | _, _, .nil => []
  | _, _, .cons g gs => (fun en => g.mayEmpty ν en) :: gs.emptyList ν

theorem GL.allEmpty_eq {en : Bool} : ∀ {ε : ErrTy S} {α : Type} (gs : GL S N ε α),
    gs.allEmpty ν en = (gs.emptyList ν).all fun m => m en
  | _, _, .nil => by rw [GL.allEmpty, GL.emptyList]; rfl
  | _, _, .cons g gs => by
    rw [GL.allEmpty, GL.allEmpty_eq gs, GL.emptyList, List.all_cons]

mutual

/-- Unless `mayEmpty`, a parse that does not fail consumes a token. -/
theorem G.mq (hρ : ∀ k, MQ (fun en => ν en k) (ρ k)) (n : Nat) : ∀ {ε : ErrTy S} {α : Type}
    (g : G S N ε α), MQ (fun en => g.mayEmpty ν en) (g.den e ρ n)
  | _, _, .empty => by
    refine mq_prim fun en i r j h => ?_
    rw [G.den] at h; cases h
    exact .ok (Nat.le_refl _) (by simp) (by simp [G.mayEmpty])
  | _, _, .none _ => by
    refine mq_prim fun en i r j h => ?_
    rw [G.den] at h; cases h
    exact .ok (Nat.le_refl _) (by simp) (by simp [G.mayEmpty])
  | ε, _, .eof => by
    refine mq_prim fun en i r j h => ?_
    rw [G.den, qEnd] at h
    split at h <;> cases h
    · exact .ok (Nat.le_refl _) (by simp) (by simp [G.mayEmpty])
    · exact .fail (Nat.le_refl _) (Nat.le_refl _)
  | ε, _, .just t => by
    refine mq_prim fun en i r j h => ?_
    rw [G.den, qJust] at h
    split at h <;> cases h
    · exact .ok (by omega) (by simp) (fun _ => by omega)
    · exact .fail (Nat.le_refl _) (Nat.le_refl _)
  | ε, _, .filter p => by
    refine mq_prim fun en i r j h => ?_
    rw [G.den, qFilter] at h
    split at h
    · split at h <;> cases h
      · exact .ok (by omega) (by simp) (fun _ => by omega)
      · exact .fail (Nat.le_refl _) (Nat.le_refl _)
    · cases h; exact .fail (Nat.le_refl _) (Nat.le_refl _)
  | ε, _, .filterMap f => by
    refine mq_prim fun en i r j h => ?_
    rw [G.den, qFilterMap] at h
    split at h <;> cases h
    · exact .ok (by omega) (by simp) (fun _ => by omega)
    · exact .fail (Nat.le_refl _) (Nat.le_refl _)
  | ε, _, .seq v items => by
    refine mq_prim fun en i r j h => ?_
    rw [G.den, qSeq] at h
    split at h
    · cases h
      refine .ok (by omega) (by simp) (fun h => ?_)
      cases items with
      | nil => simp [G.mayEmpty] at h
      | cons x xs => simp only [List.length_cons]; omega
    · rename_i hm
      cases h
      exact .fail (Nat.le_refl _) (matchSeq_le hm).1
  | ε, _, .oneOf items => by
    refine mq_prim fun en i r j h => ?_
    rw [G.den, qOneOf] at h
    split at h
    · split at h <;> cases h
      · exact .ok (by omega) (by simp) (fun _ => by omega)
      · exact .fail (Nat.le_refl _) (Nat.le_refl _)
    · cases h; exact .fail (Nat.le_refl _) (Nat.le_refl _)
  | ε, _, .noneOf items => by
    refine mq_prim fun en i r j h => ?_
    rw [G.den, qNoneOf] at h
    split at h
    · split at h <;> cases h
      · exact .fail (Nat.le_refl _) (Nat.le_refl _)
      · exact .ok (by omega) (by simp) (fun _ => by omega)
    · cases h; exact .fail (Nat.le_refl _) (Nat.le_refl _)
  | _, _, .boxed g => by simp only [G.den, G.mayEmpty]; exact G.mq hρ n g
  | _, _, .withError g => by simp only [G.den, G.mayEmpty]; exact G.mq hρ n g
  | _, _, .to g v => by simp only [G.den, G.mayEmpty]; exact mq_map (G.mq hρ n g)
  | _, _, .some g => by simp only [G.den, G.mayEmpty]; exact mq_map (G.mq hρ n g)
  | _, _, .map f g => by simp only [G.den, G.mayEmpty]; exact mq_map (G.mq hρ n g)
  | _, _, .mapWithSpan f g => by simp only [G.den, G.mayEmpty]; exact mq_mapWithSpan (G.mq hρ n g)
  | _, _, .mapErr f g => by simp only [G.den, G.mayEmpty]; exact mq_mapErr (G.mq hρ n g)
  | _, _, .mapErrWithSpan f g => by simp only [G.den, G.mayEmpty]; exact mq_mapErrWithSpan (G.mq hρ n g)
  | _, _, .tryMap f g => by simp only [G.den, G.mayEmpty]; exact mq_tryMap (G.mq hρ n g)
  | _, _, .then_ a b => by simp only [G.den, G.mayEmpty]; exact mq_concat2 (G.mq hρ n a) (G.mq hρ n b)
  | _, _, .thenIgnore a b => by simp only [G.den, G.mayEmpty]; exact mq_concat2 (G.mq hρ n a) (G.mq hρ n b)
  | _, _, .ignoreThen a b => by simp only [G.den, G.mayEmpty]; exact mq_concat2 (G.mq hρ n a) (G.mq hρ n b)
  | _, _, .delimitedBy l m r => by
    simp only [G.den, G.mayEmpty]
    exact mq_concat3 (G.mq hρ n l) (G.mq hρ n m) (G.mq hρ n r)
  | _, _, .paddedBy p m => by
    simp only [G.den, G.mayEmpty]
    exact (mq_concat3 (G.mq hρ n p) (G.mq hρ n m) (G.mq hρ n p)).mono (fun en h => by
      rw [h]; rfl)
  | _, _, .chain gs => by
    simp only [G.den, G.mayEmpty]
    exact (mq_concat (GL.mqs hρ n gs)).mono (fun en h => by rw [← GL.allEmpty_eq]; exact h)
  | ε, _, .or a b => by
    simp only [G.den, G.mayEmpty]
    refine (mq_alternate (m := fun en => a.mayEmpty ν en || b.mayEmpty ν en) (fun q hq => ?_)).mono
      (fun en h => h)
    simp only [List.mem_cons, List.not_mem_nil, or_false] at hq
    rcases hq with rfl | rfl
    · exact (G.mq hρ n a).mono fun en h => by simp only [Bool.or_eq_false_iff] at h; exact h.1
    · exact (G.mq hρ n b).mono fun en h => by simp only [Bool.or_eq_false_iff] at h; exact h.2
  | ε, _, .orNot g => by
    simp only [G.den, G.mayEmpty]
    refine (mq_alternate (m := fun _ => true) (fun q hq => ?_)).mono (fun en h => by cases h)
    simp only [List.mem_cons, List.not_mem_nil, or_false] at hq
    rcases hq with rfl | rfl
    · exact (mq_map (G.mq hρ n g)).mono fun en h => by cases h
    · refine mq_prim fun en i r j h => ?_
      cases h
      exact .ok (Nat.le_refl _) (by simp) (by simp)
  | ε, _, .alters gs => by
    simp only [G.den, G.mayEmpty]
    exact mq_alternate (m := fun en => gs.anyEmpty ν en) (fun q hq => GL.mqa hρ n gs q hq)
  | ε, _, .repeated c g => by
    simp only [G.den, G.mayEmpty]
    exact mq_repeat (ms := fun _ => true) (G.mq hρ n g) (fun q h => by cases h)
  | _, _, .separatedBy c g sep => by
    simp only [G.den, G.mayEmpty]
    exact mq_repeat (G.mq hρ n g) (fun q h => by cases h; exact G.mq hρ n sep)
  | _, _, .toRecover g st => by
    simp only [G.den, G.mayEmpty]
    exact mq_toRecover (G.mq hρ n g) (CS.smq hρ n st)
  | _, _, .call k => by simp only [G.den, G.mayEmpty]; exact hρ k

theorem GL.mqs (hρ : ∀ k, MQ (fun en => ν en k) (ρ k)) (n : Nat) : ∀ {ε : ErrTy S} {α : Type}
    (gs : GL S N ε α), MQs (gs.emptyList ν) (gs.den e ρ n)
  | _, _, .nil => by rw [GL.den, GL.emptyList]; exact trivial
  | _, _, .cons g gs => by
    rw [GL.den, GL.emptyList]
    exact ⟨G.mq hρ n g, GL.mqs hρ n gs⟩

theorem GL.mqa (hρ : ∀ k, MQ (fun en => ν en k) (ρ k)) (n : Nat) : ∀ {ε : ErrTy S} {α : Type}
    (gs : GL S N ε α), ∀ q ∈ gs.den e ρ n, MQ (fun en => gs.anyEmpty ν en) q
  | _, _, .nil, q, h => by rw [GL.den] at h; cases h
  | _, _, .cons g gs, q, h => by
    rw [GL.den] at h
    simp only [GL.anyEmpty]
    rcases List.mem_cons.1 h with h | h
    · rw [h]
      exact (G.mq hρ n g).mono fun en h => by simp only [Bool.or_eq_false_iff] at h; exact h.1
    · exact (GL.mqa hρ n gs q h).mono fun en h => by simp only [Bool.or_eq_false_iff] at h; exact h.2

theorem IS.smq (hρ : ∀ k, MQ (fun en => ν en k) (ρ k)) (n : Nat) : ∀ {ε : ErrTy S} {α : Type}
    (s : IS S N ε α), SMQ (s.All (progressL S N ν) ∧ s.Forward) (fun m => s.mayEmpty ν m) (s.den e ρ n)
  | _, _, .attemptTo => by
    rw [IS.den]
    intro q m hq st fa es i o fa' es' j h1 h2 h
    cases h
    exact ⟨h1, h2, fun _ _ => Nat.le_refl _, fun _ => .inl rfl⟩
  | _, _, .restart s => by
    simp only [IS.den, IS.mayEmpty, IS.Forward]
    exact smq_giveUp (IS.smq hρ n s) (f := fun es _ _ => es) (p := fun st _ _ => st)
      (by intros; omega) (fun h => h.2.elim)
  | _, _, .seekToFailed s => by
    simp only [IS.den, IS.mayEmpty, IS.Forward]
    exact smq_giveUp (IS.smq hρ n s) (f := fun es _ _ => es) (p := fun _ fa _ => fa)
      (by intros; omega) (fun h => h.2.elim)
  | _, _, .skip s => by
    simp only [IS.den, IS.mayEmpty, IS.Forward, IS.All]
    exact smq_giveUp (IS.smq hρ n s) (f := fun es _ _ => es) (p := fun _ _ i => e.next i)
      (by intros st fa i _ _; have := e.le_next i; omega)
      (fun h => ⟨⟨h.1.2, h.2⟩, fun _ _ i => e.le_next i⟩)
  | _, _, .skipIf s p => by
    simp only [IS.den, IS.mayEmpty, IS.Forward, IS.All]
    exact smq_giveUp (IS.smq hρ n s) (f := fun es _ _ => es)
      (p := fun _ _ i => if e.tokIs p false i then i + 1 else i) (by intros; split <;> omega)
      (fun h => ⟨⟨h.1.2, h.2⟩, fun _ _ i => by split <;> omega⟩)
  | _, _, .find s p => by
    simp only [IS.den, IS.mayEmpty, IS.Forward, IS.All]
    refine (smq_orElse (IS.smq hρ n s) (ft := True) (mt := fun _ => false) ?_).mono
      (fun h => ⟨⟨h.1.2, h.2⟩, trivial⟩) (fun m h => by simpa using h)
    intro q m hq st fa es i o fa' es' j h1 h2 h
    simp only [Out.bind_eq_ok] at h
    obtain ⟨k, h3, h4⟩ := h
    cases h4
    have := findSem_le h3
    exact ⟨by omega, h2, fun _ _ => this, fun _ => .inl rfl⟩
  | _, _, .scan s sc => by
    simp only [IS.den, IS.mayEmpty, IS.Forward, IS.All]
    refine (smq_orElse (IS.smq hρ n s) (ft := True) (mt := fun _ => false) ?_).mono
      (fun h => ⟨⟨h.1.2, h.2⟩, trivial⟩) (fun m h => by simpa using h)
    intro q m hq st fa es i o fa' es' j h1 h2 h
    simp only [Out.bind_eq_ok] at h
    obtain ⟨⟨es1, k⟩, h3, h4⟩ := h
    cases h4
    have := scanSem_le h3
    exact ⟨by omega, h2, fun _ _ => this, fun _ => .inl rfl⟩
  | _, _, .maybe s t => by
    simp only [IS.den, IS.mayEmpty, IS.Forward, IS.All]
    refine (smq_orElse (IS.smq hρ n s) (ft := True) (mt := fun m => t.mayEmpty ν m) ?_).mono
      (fun h => ⟨⟨h.1.2.1, h.2⟩, trivial⟩) (fun m h => h)
    intro q m hq st fa es i o fa' es' j h1 h2 h'
    simp only [Out.bind_eq_ok] at h'
    obtain ⟨⟨⟨o1, fa1, es1⟩, k⟩, h3, h4⟩ := h'
    have h5 := IS.smq hρ n t q m hq st fa es i o1 fa1 es1 k h1 h2 h3
    have h6 := Prod.mk.inj (Out.ok.inj h4)
    have h7 := Prod.mk.inj h6.1
    have h8 := Prod.mk.inj h7.2
    obtain ⟨-, h6⟩ := h6
    obtain ⟨rfl, -⟩ := h7
    cases o1 with
    | none =>
      simp only [Option.isSome_none, Bool.false_eq_true, if_false] at h6
      exact ⟨by omega, by omega, fun _ _ => by omega, fun _ => .inl rfl⟩
    | some o1 =>
      simp only [Option.isSome_some, if_true] at h6
      refine ⟨by omega, by omega, (fun _ h => by cases h), fun hm => ?_⟩
      rcases h5.2.2.2 hm with h9 | h9
      · cases h9
      · exact .inr (by omega)
  | _, _, .whileNot s p t => by
    simp only [IS.den, IS.mayEmpty, IS.Forward, IS.All]
    refine (smq_orElse (IS.smq hρ n s) (ft := t.All (progressL S N ν) ∧ t.Forward)
      (mt := fun m => t.mayEmpty ν m) ?_).mono
      (fun h => ⟨⟨h.1.2.1, h.2⟩, h.1.2.2, h.1.1⟩) (fun m h => h)
    intro q m hq st fa es i o fa' es' j h1 h2 h'
    exact smq_whileNot (IS.smq hρ n t) hq n fa es i o fa' es' j h1 h2 h'
  | _, _, .retry s exact silent => by
    simp only [IS.den, IS.mayEmpty, IS.Forward, IS.All]
    refine (smq_orElse (IS.smq hρ n s) (ft := True) (mt := fun m => m (!exact)) ?_).mono
      (fun h => ⟨⟨h.1.2, h.2⟩, trivial⟩) (fun m h => h)
    intro q m hq st fa es i o fa' es' j h1 h2 h'
    have h3 := smq_runIn hq h1 h2 h'
    exact ⟨h3.1, h3.2.1, fun _ => h3.2.2.1, h3.2.2.2⟩
  | _, _, .tryToParse s g exact silent => by
    simp only [IS.den, IS.mayEmpty, IS.Forward, IS.All]
    refine (smq_orElse (IS.smq hρ n s) (ft := True) (mt := fun _ => g.mayEmpty ν (!exact)) ?_).mono
      (fun h => ⟨⟨h.1.2.1, h.2⟩, trivial⟩) (fun m h => h)
    intro q m hq st fa es i o fa' es' j h1 h2 h'
    have h3 := smq_runIn (G.mq hρ n g) h1 h2 h'
    exact ⟨h3.1, h3.2.1, fun _ => h3.2.2.1, h3.2.2.2⟩
  | _, _, .pushError s f => by
    simp only [IS.den, IS.mayEmpty, IS.Forward, IS.All]
    exact smq_giveUp (IS.smq hρ n s) (f := fun es _ _ => es ++ [f ()]) (p := fun _ _ i => i)
      (by intros; omega) (fun h => ⟨⟨h.1.2, h.2⟩, fun _ _ i => Nat.le_refl _⟩)
  | _, _, .pushErrorHere s f => by
    simp only [IS.den, IS.mayEmpty, IS.Forward, IS.All]
    exact smq_giveUp (IS.smq hρ n s) (f := fun es _ i => es ++ [f (e.locationAt i)]) (p := fun _ _ i => i)
      (by intros; omega) (fun h => ⟨⟨h.1.2, h.2⟩, fun _ _ i => Nat.le_refl _⟩)
  | _, _, .pushErrorUpToHere s f => by
    simp only [IS.den, IS.mayEmpty, IS.Forward, IS.All]
    exact smq_giveUp (IS.smq hρ n s) (f := fun es st i => es ++ [f (e.spanOf st i)]) (p := fun _ _ i => i)
      (by intros; omega) (fun h => ⟨⟨h.1.2, h.2⟩, fun _ _ i => Nat.le_refl _⟩)
  | _, _, .pushErrorForToken s f => by
    simp only [IS.den, IS.mayEmpty, IS.Forward, IS.All]
    exact smq_giveUp (IS.smq hρ n s) (f := fun es _ i => es ++ [f (e.source i) (e.here i)])
      (p := fun _ _ i => i) (by intros; omega) (fun h => ⟨⟨h.1.2, h.2⟩, fun _ _ i => Nat.le_refl _⟩)
  | _, _, .updateErrors s f => by
    simp only [IS.den, IS.mayEmpty, IS.Forward, IS.All]
    exact smq_giveUp (IS.smq hρ n s) (f := fun es _ _ => f es) (p := fun _ _ i => i)
      (by intros; omega) (fun h => ⟨⟨h.1.2, h.2⟩, fun _ _ i => Nat.le_refl _⟩)
  | _, _, .updateErrorsHere s f => by
    simp only [IS.den, IS.mayEmpty, IS.Forward, IS.All]
    exact smq_giveUp (IS.smq hρ n s) (f := fun es _ i => f es (e.locationAt i)) (p := fun _ _ i => i)
      (by intros; omega) (fun h => ⟨⟨h.1.2, h.2⟩, fun _ _ i => Nat.le_refl _⟩)
  | _, _, .updateErrorsUpToHere s f => by
    simp only [IS.den, IS.mayEmpty, IS.Forward, IS.All]
    exact smq_giveUp (IS.smq hρ n s) (f := fun es st i => f es (e.spanOf st i)) (p := fun _ _ i => i)
      (by intros; omega) (fun h => ⟨⟨h.1.2, h.2⟩, fun _ _ i => Nat.le_refl _⟩)
  | _, _, .updateErrorsForToken s f => by
    simp only [IS.den, IS.mayEmpty, IS.Forward, IS.All]
    exact smq_giveUp (IS.smq hρ n s) (f := fun es _ i => f es (e.source i) (e.here i))
      (p := fun _ _ i => i) (by intros; omega) (fun h => ⟨⟨h.1.2, h.2⟩, fun _ _ i => Nat.le_refl _⟩)
  | _, _, .boxed s => by
    simp only [IS.den, IS.mayEmpty, IS.Forward, IS.All]
    exact (IS.smq hρ n s).mono (fun h => ⟨h.1.2, h.2⟩) (fun m h => h)

theorem CS.smq (hρ : ∀ k, MQ (fun en => ν en k) (ρ k)) (n : Nat) : ∀ {ε : ErrTy S} {α : Type}
    (s : CS S N ε α), SMQ False (fun m => s.mayEmpty ν m) (s.den e ρ n)
  | _, _, .ret s o => by
    simp only [CS.den, CS.mayEmpty]; exact smq_ret (IS.smq hρ n s) (f := fun _ _ => o)
  | _, _, .retWith s o => by
    simp only [CS.den, CS.mayEmpty]; exact smq_ret (IS.smq hρ n s) (f := fun _ _ => o ())
  | _, _, .retWithSpan s f => by
    simp only [CS.den, CS.mayEmpty]
    exact smq_ret (IS.smq hρ n s) (f := fun st i => f (e.spanOf st i))
  | _, _, .orFail s => by
    simp only [CS.den, CS.mayEmpty]
    exact (IS.smq hρ n s).mono (fun h => h.elim) (fun m h => h)

end

theorem callSem_mq {D : Defs S N} (hν : Nullable D ν) : ∀ (n : Nat) (k : N.K),
    MQ (fun en => ν en k) (callSem e D n k)
  | 0, k, en, i, r, j, h => by cases h
  | n + 1, k, en, i, r, j, h => by
    rw [callSem] at h
    cases hk : D k with
    | none => rw [hk] at h; cases h
    | some g =>
      rw [hk] at h
      have h1 := G.mq (e := e) (callSem_mq hν n) n g en i r j h
      refine ⟨h1.1, h1.2.1, fun hm => h1.2.2 ?_⟩
      cases hg : g.mayEmpty ν en with
      | false => exact hg
      | true => have h2 := hν k g en hk hg; have h3 : ν en k = false := hm; rw [h3] at h2; cases h2

theorem G.sem_mq {D : Defs S N} (hν : Nullable D ν) (n : Nat) {ε : ErrTy S} {α : Type} (g : G S N ε α) :
    MQ (fun en => g.mayEmpty ν en) (g.sem e D n) :=
  G.mq (callSem_mq hν n) n g

end

end PPC
