import Verif.SemPanic

/-!
# The checks that rely on recovery being disabled never fire

Two panics of the library state that a parser recovered although recovery was disabled. No
parser whatsoever triggers them (`NA`).
-/

namespace PPC

variable {S : Sig} {N : Names S}

/-- Does not panic with message `m`. -/
def NA (m : String) {E α : Type} (q : PSem E α) : Prop := ∀ en i, q en i ≠ .panic m

/-- A strategy that does not panic with message `m`. -/
def SNA (m : String) {E α : Type} (s : SSem E α) : Prop :=
  ∀ q, NA m q → ∀ st fa es i, s q st fa es i ≠ .panic m

variable {m : String}

/-! ## Primitives -/

theorem na_end {e : Env S} {ε : ErrTy S} : NA m (qEnd e ε) := by
  intro en i h
  simp only [qEnd] at h
  repeat' split at h
  all_goals cases h

theorem na_just {e : Env S} {ε : ErrTy S} {t : S.I} : NA m (qJust e ε t) := by
  intro en i h
  simp only [qJust] at h
  repeat' split at h
  all_goals cases h

theorem na_filter {e : Env S} {ε : ErrTy S} {p : S.I → Bool} : NA m (qFilter e ε p) := by
  intro en i h
  simp only [qFilter] at h
  repeat' split at h
  all_goals cases h

theorem na_filterMap {α : Type} {e : Env S} {ε : ErrTy S} {f : S.I → Option α} :
    NA m (qFilterMap e ε f) := by
  intro en i h
  simp only [qFilterMap] at h
  repeat' split at h
  all_goals cases h

theorem na_seq {α : Type} {e : Env S} {ε : ErrTy S} {v : α} {items : List S.I} :
    NA m (qSeq e ε v items) := by
  intro en i h
  simp only [qSeq] at h
  repeat' split at h
  all_goals cases h

theorem na_oneOf {e : Env S} {ε : ErrTy S} {items : List S.I} : NA m (qOneOf e ε items) := by
  intro en i h
  simp only [qOneOf] at h
  repeat' split at h
  all_goals cases h

theorem na_noneOf {e : Env S} {ε : ErrTy S} {items : List S.I} : NA m (qNoneOf e ε items) := by
  intro en i h
  simp only [qNoneOf] at h
  repeat' split at h
  all_goals cases h

/-! ## Mapping -/

theorem na_map {E α β : Type} {f : α → β} {q : PSem E α} (hq : NA m q) : NA m (qMap f q) := by
  intro en i h
  simp only [qMap, Out.bind_eq_panic] at h
  rcases h with h | ⟨⟨r, l⟩, h1, h2⟩
  · exact hq _ _ h
  · cases h2

theorem na_mapWithSpan {E α β : Type} {e : Env S} {f : α → S.Span → β} {q : PSem E α} (hq : NA m q) :
    NA m (qMapWithSpan e f q) := by
  intro en i h
  simp only [qMapWithSpan, Out.bind_eq_panic] at h
  rcases h with h | ⟨⟨r, l⟩, h1, h2⟩
  · exact hq _ _ h
  · cases h2

theorem na_mapErr {E X α : Type} {f : X → E} {q : PSem X α} (hq : NA m q) : NA m (qMapErr f q) := by
  intro en i h
  simp only [qMapErr, Out.bind_eq_panic] at h
  rcases h with h | ⟨⟨r, l⟩, h1, h2⟩
  · exact hq _ _ h
  · cases h2

theorem na_mapErrWithSpan {E X α : Type} {e : Env S} {f : X → S.Span → E} {q : PSem X α} (hq : NA m q) :
    NA m (qMapErrWithSpan e f q) := by
  intro en i h
  simp only [qMapErrWithSpan, Out.bind_eq_panic] at h
  rcases h with h | ⟨⟨r, l⟩, h1, h2⟩
  · exact hq _ _ h
  · cases h2

theorem na_tryMap {E α β : Type} {e : Env S} {f : α → S.Span → TryMapResult β E} {q : PSem E α}
    (hm : RecoveredWhileDisabled m) (hq : NA m q) : NA m (qTryMap e f q) := by
  have hs : ∀ en i j a, tryMapStep e f en i j a ≠ .panic m := by
    intro en i j a h
    unfold tryMapStep at h
    repeat' split at h
    all_goals cases h
    all_goals simp [RecoveredWhileDisabled] at hm
  intro en i h
  simp only [qTryMap, Out.bind_eq_panic] at h
  rcases h with h | ⟨⟨r, l⟩, h1, h2⟩
  · exact hq _ _ h
  · cases r with
    | success a => exact hs _ _ _ _ h2
    | recovered a es =>
      simp only [Out.bind_eq_panic] at h2
      rcases h2 with h2 | ⟨_, _, h2⟩
      · exact hs _ _ _ _ h2
      · cases h2
    | failed x es => cases h2

/-! ## Sequencing -/

theorem na_finish {α E : Type} {en : Bool} {o : α} {r : Option (List E)} (h : en = false → r = none)
    {j : Nat} : finishSem en o r j ≠ .panic m := by
  intro h'
  unfold finishSem at h'
  split at h'
  · split at h'
    · cases h'
    · rename_i hn; have := h (by simpa using hn); cases this
  · cases h'

theorem na_concatRest {E α : Type} {en : Bool} {start : Nat} : ∀ (qs : List (PSem E α)) (out : List α)
    (r : Option (List E)) (i : Nat), (∀ q ∈ qs, NR q ∧ NA m q) → (en = false → r = none) →
      concatRestSem en start qs out r i ≠ .panic m
  | [], out, r, i, _, hr => na_finish hr
  | q :: qs, out, r, i, hq, hr => by
    intro h
    have hq' : ∀ q' ∈ qs, NR q' ∧ NA m q' := fun q' h' => hq q' (by simp [h'])
    simp only [concatRestSem, Out.bind_eq_panic] at h
    rcases h with h | ⟨⟨r, l⟩, h1, h2⟩
    · exact (hq q (by simp)).2 _ _ h
    · cases r with
      | success a => exact na_concatRest qs _ _ _ hq' hr h2
      | recovered a es => exact na_concatRest qs _ _ _ hq' (NR.enabled (hq q (by simp)).1 h1) h2
      | failed x es => cases h2

theorem na_concat {E α : Type} {qs : List (PSem E α)} (hq : ∀ q ∈ qs, NR q ∧ NA m q) :
    NA m (qConcat qs) := by
  intro en i h
  cases qs with
  | nil => cases h
  | cons q qs =>
    have hq' : ∀ q' ∈ qs, NR q' ∧ NA m q' := fun q' h' => hq q' (by simp [h'])
    simp only [qConcat, Out.bind_eq_panic] at h
    rcases h with h | ⟨⟨r, l⟩, h1, h2⟩
    · exact (hq q (by simp)).2 _ _ h
    · cases r with
      | success a => exact na_concatRest qs _ _ _ hq' (fun _ => rfl) h2
      | recovered a es => exact na_concatRest qs _ _ _ hq' (NR.enabled (hq q (by simp)).1 h1) h2
      | failed x es => cases h2

theorem na_concatLast {E β γ : Type} {en : Bool} {start : Nat} {f : β → γ} {qb : PSem E β}
    {r : Option (List E)} {i : Nat} (hb : NR qb ∧ NA m qb) (hr : en = false → r = none) :
    concatLastSem en start f qb r i ≠ .panic m := by
  intro h
  simp only [concatLastSem, Out.bind_eq_panic] at h
  rcases h with h | ⟨⟨r, l⟩, h1, h2⟩
  · exact hb.2 _ _ h
  · cases r with
    | success a => exact na_finish hr h2
    | recovered a es => exact na_finish (NR.enabled hb.1 h1) h2
    | failed x es => cases h2

theorem na_concat2 {E α β γ : Type} {f : α × β → γ} {qa : PSem E α} {qb : PSem E β}
    (ha : NR qa ∧ NA m qa) (hb : NR qb ∧ NA m qb) : NA m (qConcat2 f qa qb) := by
  intro en i h
  simp only [qConcat2, Out.bind_eq_panic] at h
  rcases h with h | ⟨⟨r, l⟩, h1, h2⟩
  · exact ha.2 _ _ h
  · cases r with
    | success a => exact na_concatLast hb (fun _ => rfl) h2
    | recovered a es => exact na_concatLast hb (NR.enabled ha.1 h1) h2
    | failed x es => cases h2

theorem na_concatMid {E β γ δ : Type} {en : Bool} {start : Nat} {f : β × γ → δ} {qb : PSem E β}
    {qc : PSem E γ} {r : Option (List E)} {i : Nat} (hb : NR qb ∧ NA m qb) (hc : NR qc ∧ NA m qc)
    (hr : en = false → r = none) : concatMidSem en start f qb qc r i ≠ .panic m := by
  intro h
  simp only [concatMidSem, Out.bind_eq_panic] at h
  rcases h with h | ⟨⟨r, l⟩, h1, h2⟩
  · exact hb.2 _ _ h
  · cases r with
    | success a => exact na_concatLast hc hr h2
    | recovered a es => exact na_concatLast hc (NR.enabled hb.1 h1) h2
    | failed x es => cases h2

theorem na_concat3 {E α β γ δ : Type} {f : α × β × γ → δ} {qa : PSem E α} {qb : PSem E β}
    {qc : PSem E γ} (ha : NR qa ∧ NA m qa) (hb : NR qb ∧ NA m qb) (hc : NR qc ∧ NA m qc) :
    NA m (qConcat3 f qa qb qc) := by
  intro en i h
  simp only [qConcat3, Out.bind_eq_panic] at h
  rcases h with h | ⟨⟨r, l⟩, h1, h2⟩
  · exact ha.2 _ _ h
  · cases r with
    | success a => exact na_concatMid hb hc (fun _ => rfl) h2
    | recovered a es => exact na_concatMid hb hc (NR.enabled ha.1 h1) h2
    | failed x es => cases h2

/-! ## Repetition -/

theorem na_repItem {E α : Type} {cfg : RepCfg} {item : PSem E α} (hi : NR item ∧ NA m item) {en : Bool}
    {start : Nat} {again : List α → Option (List E) → Nat → Out (Res (List α) E × Nat)}
    (ha : ∀ out r i, (en = false → r = none) → again out r i ≠ .panic m)
    {out : List α} {r : Option (List E)} (hr : en = false → r = none) {before : Option Nat} {i : Nat} :
    repItemSem cfg item en start again out r before i ≠ .panic m := by
  intro h
  unfold repItemSem at h
  split at h
  · exact na_finish hr h
  · simp only [Out.bind_eq_panic] at h
    rcases h with h | ⟨⟨r, l⟩, h1, h2⟩
    · exact hi.2 _ _ h
    · cases r with
      | success a => exact ha _ _ _ hr h2
      | recovered a es =>
        refine ha _ _ _ (fun hf => ?_) h2
        exact NR.enabled hi.1 h1 (by simp [hf])
      | failed x es => simp only at h2; split at h2 <;> cases h2

theorem na_repLoop {E α β : Type} {cfg : RepCfg} {item : PSem E α} {sep : Option (PSem E β)}
    (hi : NR item ∧ NA m item) (hs : ∀ q, sep = some q → NR q ∧ NA m q) {en : Bool} {start : Nat} :
    ∀ (fuel : Nat) (out : List α) (r : Option (List E)) (i : Nat),
      (en = false → r = none) → repLoopSem cfg item sep en start fuel out r i ≠ .panic m
  | 0, _, _, _, _, h => by cases h
  | fuel + 1, out, r, i, hr, h => by
    have ih := na_repLoop (cfg := cfg) hi hs (en := en) (start := start) fuel
    unfold repLoopSem at h
    split at h
    · exact na_finish hr h
    · simp only at h
      split at h
      · rename_i q _
        have hq := hs q rfl
        simp only [Out.bind_eq_panic] at h
        rcases h with h | ⟨⟨r, l⟩, h1, h2⟩
        · exact hq.2 _ _ h
        · cases r with
          | success a => exact na_repItem hi ih hr h2
          | recovered a es =>
            refine na_repItem hi ih (fun hf => ?_) h2
            exact NR.enabled hq.1 h1 (by simp [hf])
          | failed x es =>
            simp only at h2
            split at h2
            · exact na_repItem hi ih hr h2
            · split at h2 <;> cases h2
      · exact na_repItem hi ih hr h

/-! ## Choice -/

theorem na_altFirst {E α : Type} : ∀ (qs : List (PSem E α)) (fails : List (FailSem E α)) (i : Nat),
    (∀ q ∈ qs, NR q ∧ NA m q) → altFirstSem qs fails i ≠ .panic m
  | [], fails, i, _, h => by cases h
  | q :: qs, fails, i, hq, h => by
    have hq' : ∀ q' ∈ qs, NR q' ∧ NA m q' := fun q' h' => hq q' (by simp [h'])
    simp only [altFirstSem, Out.bind_eq_panic] at h
    rcases h with h | ⟨⟨r, l⟩, h1, h2⟩
    · exact (hq q (by simp)).2 _ _ h
    · cases r with
      | success a => cases h2
      | recovered a es => exact (hq q (by simp)).1 _ _ _ _ h1
      | failed x es => exact na_altFirst qs _ _ hq' h2

theorem na_altRecover {E α : Type} (hm : RecoveredWhileDisabled m) : ∀ (fails : List (FailSem E α))
    (i : Nat), (∀ f ∈ fails, NA m f.2.2) → altRecoverSem fails i ≠ .panic m
  | [], _, _, h => by cases h
  | (y, es, q) :: rest, i, hq, h => by
    have h1 := hq _ List.mem_cons_self
    simp only at h1
    simp only [altRecoverSem, Out.bind_eq_panic] at h
    rcases h with h | ⟨⟨r, l⟩, h3, h4⟩
    · exact h1 _ _ h
    · cases r with
      | success a => cases h4; simp [RecoveredWhileDisabled] at hm
      | recovered a es => cases h4
      | failed x es => exact na_altRecover hm rest _ (fun f h => hq f (by simp [h])) h4

theorem na_altCombine {α : Type} {ε : ErrTy S} {fails : List (Nat × List ε.E)}
    (hm : RecoveredWhileDisabled m) {i : Nat} : altCombineSem (α := α) ε fails i ≠ .panic m := by
  intro h
  match fails with
  | [] => cases h; simp [RecoveredWhileDisabled] at hm
  | [(x, es)] =>
    simp only [altCombineSem] at h
    repeat' split at h
    all_goals cases h
    all_goals simp [RecoveredWhileDisabled] at hm
  | (x, es) :: (y, es') :: rest =>
    simp only [altCombineSem] at h
    split at h
    · split at h <;> cases h
    · cases h

theorem na_alternate {α : Type} {ε : ErrTy S} {qs : List (PSem ε.E α)}
    (hm : RecoveredWhileDisabled m) (hq : ∀ q ∈ qs, NR q ∧ NA m q) : NA m (qAlternate ε qs) := by
  intro en i h
  simp only [qAlternate, Out.bind_eq_panic] at h
  rcases h with h | ⟨⟨r, l⟩, h1, h2⟩
  · exact na_altFirst _ _ _ hq h
  · cases r with
    | inl o => cases h2
    | inr fails =>
      simp only at h2
      split at h2
      · cases h2; simp [RecoveredWhileDisabled] at hm
      · split at h2
        · simp only [Out.bind_eq_panic] at h2
          rcases h2 with h2 | ⟨⟨r', l'⟩, h3, h4⟩
          · have h6 := altFirst_mem (P := NA m) qs [] i (fun q h => (hq q h).2) (by simp) _ _ h1
            exact na_altRecover hm _ _ (fun f h => h6 f (mem_sortDesc.1 h)) h2
          · cases r' with
            | none => exact na_altCombine hm h4
            | some r' => cases h4
        · exact na_altCombine hm h2

/-! ## Recovery -/

theorem sna_orElse {E α : Type} {s t : SSem E α} (hs : SNA m s) (ht : SNA m t) : SNA m (s.orElse t) := by
  intro q pq st fa es i h
  simp only [SSem.orElse, Out.bind_eq_panic] at h
  rcases h with h | ⟨⟨⟨o1, fa1, es1⟩, j1⟩, h3, h4⟩
  · exact hs q pq _ _ _ _ h
  · cases o1 with
    | some o1 => cases h4
    | none => exact ht q pq _ _ _ _ h4

theorem sna_giveUp {E α : Type} {p : Nat → Nat → Nat → Nat} {f : List E → Nat → Nat → List E} :
    SNA m (fun _ st fa es i => giveUp (α := α) fa (f es st i) (p st fa i)) := by
  intro q pq st fa es i h
  cases h

theorem sna_ret {E α : Type} {f : Nat → Nat → α} :
    SNA m (E := E) (fun _ st fa es i => .ok ((some (f st i), fa, es), i)) := by
  intro q pq st fa es i h
  cases h

theorem na_find {e : Env S} {p : S.I → Bool} : ∀ {fuel i : Nat},
    findSem e p fuel i ≠ .panic m
  | 0, _, h => by cases h
  | fuel + 1, i, h => by
    unfold findSem at h
    split at h
    · cases h
    · exact na_find h

theorem na_scan {E : Type} {e : Env S} {sc : Scanner S E}
    (hn : ∀ t sp st es, sc.scan t sp st es ≠ .error m) :
    ∀ {fuel : Nat} {st : sc.σ} {es : List E} {i : Nat}, scanSem e sc fuel st es i ≠ .panic m
  | 0, _, _, _, h => by cases h
  | fuel + 1, st, es, i, h => by
    unfold scanSem at h
    split at h
    · split at h
      · rename_i h1; cases h; exact hn _ _ _ _ h1
      · cases h
      · exact na_scan hn h
    · cases h

theorem na_whileNot {E α : Type} {e : Env S} {p : S.I → Bool} {inner : SSem E α} {q : PSem E α}
    {st : Nat} (hs : ∀ fa es i, inner q st fa es i ≠ .panic m) :
    ∀ {fuel fa : Nat} {es : List E} {i : Nat},
      whileNotSem e p inner q st fuel fa es i ≠ .panic m
  | 0, _, _, _, h => by cases h
  | fuel + 1, fa, es, i, h => by
    unfold whileNotSem at h
    split at h
    · cases h
    · simp only [Out.bind_eq_panic] at h
      rcases h with h | ⟨⟨⟨o1, fa1, es1⟩, j1⟩, h3, h4⟩
      · exact hs _ _ _ h
      · cases o1 with
        | some o1 => cases h4
        | none => exact na_whileNot hs h4

theorem na_saveAt (hm : RecoveredWhileDisabled m) {x i : Nat} : saveAtSem x i ≠ .panic m := by
  unfold saveAtSem
  split
  · intro h; cases h; simp [RecoveredWhileDisabled] at hm
  · intro h; cases h

theorem na_runIn {E α : Type} {q : PSem E α} (hm : RecoveredWhileDisabled m) (pq : NA m q)
    {exact silent : Bool} {fa : Nat} {es : List E} {i : Nat} :
    runInSem q exact silent fa es i ≠ .panic m := by
  intro h
  simp only [runInSem, Out.bind_eq_panic] at h
  rcases h with h | ⟨⟨r, l⟩, h1, h2⟩
  · exact pq _ _ h
  · cases r with
    | success a => cases h2
    | recovered a es => cases h2
    | failed x es =>
      simp only [Out.bind_eq_panic] at h2
      rcases h2 with h2 | ⟨_, _, h2⟩
      · exact na_saveAt hm h2
      · cases h2

theorem na_toRecover {E α : Type} {q : PSem E α} {s : SSem E α} (hm : RecoveredWhileDisabled m)
    (pq : NA m q) (hs : SNA m s) : NA m (qToRecover q s) := by
  intro en i h
  simp only [qToRecover, Out.bind_eq_panic] at h
  rcases h with h | ⟨⟨r, l⟩, h1, h2⟩
  · exact pq _ _ h
  · cases r with
    | success a => cases h2
    | recovered a es => cases h2
    | failed x es =>
      simp only at h2
      split at h2
      · cases h2
      · simp only [Out.bind_eq_panic] at h2
        rcases h2 with h2 | ⟨_, _, h2⟩
        · exact na_saveAt hm h2
        · rcases h2 with h2 | ⟨⟨⟨o, _, _⟩, _⟩, _, h2⟩
          · exact hs q pq _ _ _ _ h2
          · cases o <;> cases h2

section

variable {e : Env S} {ρ : QEnv S N} 

mutual

/-- No parser panics with these messages, unless a scanner does. -/
theorem G.na (hm : RecoveredWhileDisabled m) (nρ : ∀ k, NR (ρ k)) (hρ : ∀ k, NA m (ρ k))
    (n : Nat) :
    ∀ {ε : ErrTy S} {α : Type} (g : G S N ε α), g.All (quietL m) → NA m (g.den e ρ n)
  | _, _, .empty, h => by rw [G.den]; intro en i h'; cases h'
  | _, _, .none _, h => by rw [G.den]; intro en i h'; cases h'
  | _, _, .eof, h => by rw [G.den]; exact na_end
  | _, _, .just t, h => by rw [G.den]; exact na_just
  | _, _, .filter p, h => by rw [G.den]; exact na_filter
  | _, _, .filterMap f, h => by rw [G.den]; exact na_filterMap
  | _, _, .seq v items, h => by rw [G.den]; exact na_seq
  | _, _, .oneOf items, h => by rw [G.den]; exact na_oneOf
  | _, _, .noneOf items, h => by rw [G.den]; exact na_noneOf
  | _, _, .boxed g, h => by rw [G.All] at h; rw [G.den]; exact G.na hm nρ hρ n g h.2
  | _, _, .withError g, h => by rw [G.All] at h; rw [G.den]; exact G.na hm nρ hρ n g h.2
  | _, _, .to g v, h => by
    rw [G.All] at h; rw [G.den]; exact na_map (G.na hm nρ hρ n g h.2)
  | _, _, .some g, h => by
    rw [G.All] at h; rw [G.den]; exact na_map (G.na hm nρ hρ n g h.2)
  | _, _, .map f g, h => by
    rw [G.All] at h; rw [G.den]; exact na_map (G.na hm nρ hρ n g h.2)
  | _, _, .mapWithSpan f g, h => by
    rw [G.All] at h; rw [G.den]; exact na_mapWithSpan (G.na hm nρ hρ n g h.2)
  | _, _, .mapErr f g, h => by
    rw [G.All] at h; rw [G.den]; exact na_mapErr (G.na hm nρ hρ n g h.2)
  | _, _, .mapErrWithSpan f g, h => by
    rw [G.All] at h; rw [G.den]; exact na_mapErrWithSpan (G.na hm nρ hρ n g h.2)
  | _, _, .tryMap f g, h => by
    rw [G.All] at h; rw [G.den]; exact na_tryMap hm (G.na hm nρ hρ n g h.2)
  | _, _, .then_ a b, h => by
    rw [G.All] at h; rw [G.den]
    exact na_concat2 ⟨G.nr nρ n a, G.na hm nρ hρ n a h.2.1⟩
      ⟨G.nr nρ n b, G.na hm nρ hρ n b h.2.2⟩
  | _, _, .thenIgnore a b, h => by
    rw [G.All] at h; rw [G.den]
    exact na_concat2 ⟨G.nr nρ n a, G.na hm nρ hρ n a h.2.1⟩
      ⟨G.nr nρ n b, G.na hm nρ hρ n b h.2.2⟩
  | _, _, .ignoreThen a b, h => by
    rw [G.All] at h; rw [G.den]
    exact na_concat2 ⟨G.nr nρ n a, G.na hm nρ hρ n a h.2.1⟩
      ⟨G.nr nρ n b, G.na hm nρ hρ n b h.2.2⟩
  | _, _, .delimitedBy l c r, h => by
    rw [G.All] at h; rw [G.den]
    exact na_concat3 ⟨G.nr nρ n l, G.na hm nρ hρ n l h.2.1⟩
      ⟨G.nr nρ n c, G.na hm nρ hρ n c h.2.2.1⟩
      ⟨G.nr nρ n r, G.na hm nρ hρ n r h.2.2.2⟩
  | _, _, .paddedBy p c, h => by
    rw [G.All] at h; rw [G.den]
    exact na_concat3 ⟨G.nr nρ n p, G.na hm nρ hρ n p h.2.1⟩
      ⟨G.nr nρ n c, G.na hm nρ hρ n c h.2.2⟩
      ⟨G.nr nρ n p, G.na hm nρ hρ n p h.2.1⟩
  | _, _, .chain gs, h => by
    rw [G.All] at h; rw [G.den]; exact na_concat (GL.na hm nρ hρ n gs h.2)
  | _, _, .or a b, h => by
    rw [G.All] at h; rw [G.den]
    refine na_alternate hm fun q hq => ?_
    simp only [List.mem_cons, List.not_mem_nil, or_false] at hq
    rcases hq with rfl | rfl
    · exact ⟨G.nr nρ n a, G.na hm nρ hρ n a h.2.1⟩
    · exact ⟨G.nr nρ n b, G.na hm nρ hρ n b h.2.2⟩
  | _, _, .orNot g, h => by
    rw [G.All] at h; rw [G.den]
    refine na_alternate hm fun q hq => ?_
    simp only [List.mem_cons, List.not_mem_nil, or_false] at hq
    rcases hq with rfl | rfl
    · exact ⟨nr_map (G.nr nρ n g), na_map (G.na hm nρ hρ n g h.2)⟩
    · exact ⟨nr_none, fun _ _ h => by cases h⟩
  | _, _, .alters gs, h => by
    rw [G.All] at h; rw [G.den]
    exact na_alternate hm (GL.na hm nρ hρ n gs h.2)
  | _, _, .repeated cfg item, h => by
    rw [G.All] at h; rw [G.den]
    exact fun en i => na_repLoop ⟨G.nr nρ n item, G.na hm nρ hρ n item h.2⟩
      (fun q h => by cases h) n _ _ _ (fun _ => rfl)
  | _, _, .separatedBy cfg item sep, h => by
    rw [G.All] at h; rw [G.den]
    refine fun en i => na_repLoop ⟨G.nr nρ n item, G.na hm nρ hρ n item h.2.1⟩
      (fun q hq => ?_) n _ _ _ (fun _ => rfl)
    cases hq
    exact ⟨G.nr nρ n sep, G.na hm nρ hρ n sep h.2.2⟩
  | _, _, .toRecover g st, h => by
    rw [G.All] at h; rw [G.den]
    exact na_toRecover hm (G.na hm nρ hρ n g h.2.1) (CS.na hm nρ hρ n st h.2.2)
  | _, _, .call k, h => by rw [G.den]; exact hρ k

theorem GL.na (hm : RecoveredWhileDisabled m) (nρ : ∀ k, NR (ρ k)) (hρ : ∀ k, NA m (ρ k))
    (n : Nat) :
    ∀ {ε : ErrTy S} {α : Type} (gs : GL S N ε α), gs.All (quietL m) → ∀ q ∈ gs.den e ρ n, NR q ∧ NA m q
  | _, _, .nil, _, q, h => by rw [GL.den] at h; cases h
  | _, _, .cons g gs, hc, q, h => by
    rw [GL.All] at hc
    rw [GL.den] at h
    rcases List.mem_cons.1 h with h | h
    · rw [h]; exact ⟨G.nr nρ n g, G.na hm nρ hρ n g hc.1⟩
    · exact GL.na hm nρ hρ n gs hc.2 q h

theorem IS.na (hm : RecoveredWhileDisabled m) (nρ : ∀ k, NR (ρ k)) (hρ : ∀ k, NA m (ρ k))
    (n : Nat) :
    ∀ {ε : ErrTy S} {α : Type} (s : IS S N ε α), s.All (quietL m) → SNA m (s.den e ρ n)
  | _, _, .attemptTo, h => by
    rw [IS.den]; exact sna_giveUp (f := fun es _ _ => es) (p := fun _ _ i => i)
  | _, _, .restart s, h => by
    rw [IS.All] at h; rw [IS.den]
    exact sna_orElse (IS.na hm nρ hρ n s h.2)
      (sna_giveUp (f := fun es st i => es) (p := fun st fa i => st))
  | _, _, .seekToFailed s, h => by
    rw [IS.All] at h; rw [IS.den]
    exact sna_orElse (IS.na hm nρ hρ n s h.2)
      (sna_giveUp (f := fun es st i => es) (p := fun st fa i => fa))
  | _, _, .skip s, h => by
    rw [IS.All] at h; rw [IS.den]
    exact sna_orElse (IS.na hm nρ hρ n s h.2)
      (sna_giveUp (f := fun es st i => es) (p := fun st fa i => e.next i))
  | _, _, .skipIf s p, h => by
    rw [IS.All] at h; rw [IS.den]
    exact sna_orElse (IS.na hm nρ hρ n s h.2)
      (sna_giveUp (f := fun es st i => es) (p := fun st fa i => if e.tokIs p false i then i + 1 else i))
  | _, _, .pushError s f, h => by
    rw [IS.All] at h; rw [IS.den]
    exact sna_orElse (IS.na hm nρ hρ n s h.2)
      (sna_giveUp (f := fun es st i => es ++ [f ()]) (p := fun st fa i => i))
  | _, _, .pushErrorHere s f, h => by
    rw [IS.All] at h; rw [IS.den]
    exact sna_orElse (IS.na hm nρ hρ n s h.2)
      (sna_giveUp (f := fun es st i => es ++ [f (e.locationAt i)]) (p := fun st fa i => i))
  | _, _, .pushErrorUpToHere s f, h => by
    rw [IS.All] at h; rw [IS.den]
    exact sna_orElse (IS.na hm nρ hρ n s h.2)
      (sna_giveUp (f := fun es st i => es ++ [f (e.spanOf st i)]) (p := fun st fa i => i))
  | _, _, .pushErrorForToken s f, h => by
    rw [IS.All] at h; rw [IS.den]
    exact sna_orElse (IS.na hm nρ hρ n s h.2)
      (sna_giveUp (f := fun es st i => es ++ [f (e.source i) (e.here i)]) (p := fun st fa i => i))
  | _, _, .updateErrors s f, h => by
    rw [IS.All] at h; rw [IS.den]
    exact sna_orElse (IS.na hm nρ hρ n s h.2)
      (sna_giveUp (f := fun es st i => f es) (p := fun st fa i => i))
  | _, _, .updateErrorsHere s f, h => by
    rw [IS.All] at h; rw [IS.den]
    exact sna_orElse (IS.na hm nρ hρ n s h.2)
      (sna_giveUp (f := fun es st i => f es (e.locationAt i)) (p := fun st fa i => i))
  | _, _, .updateErrorsUpToHere s f, h => by
    rw [IS.All] at h; rw [IS.den]
    exact sna_orElse (IS.na hm nρ hρ n s h.2)
      (sna_giveUp (f := fun es st i => f es (e.spanOf st i)) (p := fun st fa i => i))
  | _, _, .updateErrorsForToken s f, h => by
    rw [IS.All] at h; rw [IS.den]
    exact sna_orElse (IS.na hm nρ hρ n s h.2)
      (sna_giveUp (f := fun es st i => f es (e.source i) (e.here i)) (p := fun st fa i => i))
  | _, _, .find s p, h => by
    rw [IS.All] at h; rw [IS.den]
    refine sna_orElse (IS.na hm nρ hρ n s h.2) ?_
    intro q pq st fa es i h'
    simp only [Out.bind_eq_panic] at h'
    rcases h' with h' | ⟨_, _, h'⟩
    · exact na_find h'
    · cases h'
  | _, _, .scan s sc, h => by
    rw [IS.All] at h; rw [IS.den]
    refine sna_orElse (IS.na hm nρ hρ n s h.2) ?_
    intro q pq st fa es i h'
    simp only [Out.bind_eq_panic] at h'
    rcases h' with h' | ⟨_, _, h'⟩
    · exact na_scan h.1 h'
    · cases h'
  | _, _, .maybe s t, h => by
    rw [IS.All] at h; rw [IS.den]
    refine sna_orElse (IS.na hm nρ hρ n s h.2.1) ?_
    intro q pq st fa es i h'
    simp only [Out.bind_eq_panic] at h'
    rcases h' with h' | ⟨_, _, h'⟩
    · exact IS.na hm nρ hρ n t h.2.2 q pq _ _ _ _ h'
    · cases h'
  | _, _, .whileNot s p t, h => by
    rw [IS.All] at h; rw [IS.den]
    refine sna_orElse (IS.na hm nρ hρ n s h.2.1) ?_
    intro q pq st fa es i h'
    exact na_whileNot (fun _ _ _ => IS.na hm nρ hρ n t h.2.2 q pq _ _ _ _) h'
  | _, _, .retry s exact silent, h => by
    rw [IS.All] at h; rw [IS.den]
    refine sna_orElse (IS.na hm nρ hρ n s h.2) ?_
    intro q pq st fa es i
    exact na_runIn hm pq
  | _, _, .tryToParse s g exact silent, h => by
    rw [IS.All] at h; rw [IS.den]
    refine sna_orElse (IS.na hm nρ hρ n s h.2.1) ?_
    intro q pq st fa es i
    exact na_runIn hm (G.na hm nρ hρ n g h.2.2)
  | _, _, .boxed s, h => by rw [IS.All] at h; rw [IS.den]; exact IS.na hm nρ hρ n s h.2

theorem CS.na (hm : RecoveredWhileDisabled m) (nρ : ∀ k, NR (ρ k)) (hρ : ∀ k, NA m (ρ k))
    (n : Nat) :
    ∀ {ε : ErrTy S} {α : Type} (s : CS S N ε α), s.All (quietL m) → SNA m (s.den e ρ n)
  | _, _, .ret s o, h => by
    rw [CS.All] at h; rw [CS.den]
    exact sna_orElse (IS.na hm nρ hρ n s h) (sna_ret (f := fun _ _ => o))
  | _, _, .retWith s o, h => by
    rw [CS.All] at h; rw [CS.den]
    exact sna_orElse (IS.na hm nρ hρ n s h) (sna_ret (f := fun _ _ => o ()))
  | _, _, .retWithSpan s f, h => by
    rw [CS.All] at h; rw [CS.den]
    exact sna_orElse (IS.na hm nρ hρ n s h) (sna_ret (f := fun st i => f (e.spanOf st i)))
  | _, _, .orFail s, h => by rw [CS.All] at h; rw [CS.den]; exact IS.na hm nρ hρ n s h

end

theorem callSem_na (hm : RecoveredWhileDisabled m) {D : Defs S N} (hD : D.All (quietL m)) :
    ∀ (n : Nat) (k : N.K), NA m (callSem e D n k)
  | 0, k, en, i, h => by cases h
  | n + 1, k, en, i, h => by
    rw [callSem] at h
    cases hk : D k with
    | none => rw [hk] at h; cases h; simp [RecoveredWhileDisabled] at hm
    | some g =>
      rw [hk] at h
      exact G.na hm (callSem_nr D n) (callSem_na hm hD n) n g (hD k g hk) _ _ h

theorem G.sem_na (hm : RecoveredWhileDisabled m) {D : Defs S N} (hD : D.All (quietL m)) (n : Nat)
    {ε : ErrTy S} {α : Type} (g : G S N ε α) (hg : g.All (quietL m)) : NA m (g.sem e D n) :=
  G.na hm (callSem_nr D n) (callSem_na hm hD n) n g hg

end


end PPC
