import Verif.SemHide

/-!
# Parsers do not panic

For safe grammars no parse panics (`NP`).
-/

namespace PPC

variable {S : Sig} {N : Names S}

theorem G.Safe.clean {F : N.K → Prop} {ε : ErrTy S} {α : Type} (g : G S N ε α) (h : g.Safe F) :
    g.TryMapNotRecovered := by
  cases g
  case tryMap => exact h.2.2
  all_goals trivial

theorem G.Safe.coherent {F : N.K → Prop} {ε : ErrTy S} {α : Type} (g : G S N ε α) (h : g.Safe F) :
    g.Coherent F := by
  cases g
  case tryMap => exact h.1
  case repeated => exact h
  case separatedBy => exact h
  all_goals trivial

/-- Does not panic. -/
def NP {E α : Type} (q : PSem E α) : Prop := ∀ en i m, q en i ≠ .panic m

/-- Everything known about safe parsers. -/
structure OKs {E α : Type} (q : PSem E α) : Prop where
  fr : FR q
  nr : NR q
  sm : SM q
  fn : FN q
  np : NP q

/-- A strategy that does not panic. -/
def SNP {E α : Type} (s : SSem E α) : Prop :=
  ∀ q, FR q → NP q → ∀ st fa es i m, s q st fa es i ≠ .panic m

theorem Out.ok_ne_panic {α : Type} {a : α} {m : String} : (Out.ok a) ≠ .panic m := fun h => by cases h

/-! ## Primitives -/

theorem np_end {e : Env S} {ε : ErrTy S} : NP (qEnd e ε) := by
  intro en i m h
  simp only [qEnd] at h
  repeat' split at h
  all_goals cases h

theorem np_just {e : Env S} {ε : ErrTy S} {t : S.I} : NP (qJust e ε t) := by
  intro en i m h
  simp only [qJust] at h
  repeat' split at h
  all_goals cases h

theorem np_filter {e : Env S} {ε : ErrTy S} {p : S.I → Bool} : NP (qFilter e ε p) := by
  intro en i m h
  simp only [qFilter] at h
  repeat' split at h
  all_goals cases h

theorem np_filterMap {α : Type} {e : Env S} {ε : ErrTy S} {f : S.I → Option α} :
    NP (qFilterMap e ε f) := by
  intro en i m h
  simp only [qFilterMap] at h
  repeat' split at h
  all_goals cases h

theorem np_seq {α : Type} {e : Env S} {ε : ErrTy S} {v : α} {items : List S.I} :
    NP (qSeq e ε v items) := by
  intro en i m h
  simp only [qSeq] at h
  repeat' split at h
  all_goals cases h

theorem np_oneOf {e : Env S} {ε : ErrTy S} {items : List S.I} : NP (qOneOf e ε items) := by
  intro en i m h
  simp only [qOneOf] at h
  repeat' split at h
  all_goals cases h

theorem np_noneOf {e : Env S} {ε : ErrTy S} {items : List S.I} : NP (qNoneOf e ε items) := by
  intro en i m h
  simp only [qNoneOf] at h
  repeat' split at h
  all_goals cases h

/-! ## Mapping -/

theorem np_map {E α β : Type} {f : α → β} {q : PSem E α} (hq : NP q) : NP (qMap f q) := by
  intro en i m h
  simp only [qMap, Out.bind_eq_panic] at h
  rcases h with h | ⟨⟨r, l⟩, h1, h2⟩
  · exact hq _ _ _ h
  · cases h2

theorem np_mapWithSpan {E α β : Type} {e : Env S} {f : α → S.Span → β} {q : PSem E α} (hq : NP q) :
    NP (qMapWithSpan e f q) := by
  intro en i m h
  simp only [qMapWithSpan, Out.bind_eq_panic] at h
  rcases h with h | ⟨⟨r, l⟩, h1, h2⟩
  · exact hq _ _ _ h
  · cases h2

theorem np_mapErr {E X α : Type} {f : X → E} {q : PSem X α} (hq : NP q) : NP (qMapErr f q) := by
  intro en i m h
  simp only [qMapErr, Out.bind_eq_panic] at h
  rcases h with h | ⟨⟨r, l⟩, h1, h2⟩
  · exact hq _ _ _ h
  · cases h2

theorem np_mapErrWithSpan {E X α : Type} {e : Env S} {f : X → S.Span → E} {q : PSem X α} (hq : NP q) :
    NP (qMapErrWithSpan e f q) := by
  intro en i m h
  simp only [qMapErrWithSpan, Out.bind_eq_panic] at h
  rcases h with h | ⟨⟨r, l⟩, h1, h2⟩
  · exact hq _ _ _ h
  · cases h2

theorem np_tryMap {E α β : Type} {e : Env S} {f : α → S.Span → TryMapResult β E} {q : PSem E α}
    (hq : NP q) (he : ∀ a sp, f a sp ≠ .err []) (hr : ∀ a sp o es, f a sp ≠ .recovered o es) :
    NP (qTryMap e f q) := by
  have hs : ∀ en i j a m, tryMapStep e f en i j a ≠ .panic m := by
    intro en i j a m h
    unfold tryMapStep at h
    split at h
    · cases h
    · rename_i es h1
      split at h
      · rename_i h2; rw [List.isEmpty_iff.1 h2] at h1; exact he _ _ h1
      · cases h
    · rename_i h1; exact hr _ _ _ _ h1
  intro en i m h
  simp only [qTryMap, Out.bind_eq_panic] at h
  rcases h with h | ⟨⟨r, l⟩, h1, h2⟩
  · exact hq _ _ _ h
  · cases r with
    | success a => exact hs _ _ _ _ _ h2
    | recovered a es =>
      simp only [Out.bind_eq_panic] at h2
      rcases h2 with h2 | ⟨_, _, h2⟩
      · exact hs _ _ _ _ _ h2
      · cases h2
    | failed x es => cases h2

/-! ## Sequencing -/

theorem np_finish {α E : Type} {en : Bool} {o : α} {r : Option (List E)} (h : en = false → r = none)
    {j : Nat} {m : String} : finishSem en o r j ≠ .panic m := by
  intro h'
  unfold finishSem at h'
  split at h'
  · split at h'
    · cases h'
    · rename_i hn; have := h (by simpa using hn); cases this
  · cases h'

/-- A parser that recovered had recovery enabled. -/
theorem NR.enabled {E α : Type} {q : PSem E α} (hq : NR q) {en : Bool} {i : Nat} {a : α} {es : List E}
    {j : Nat} (h : q en i = .ok (.recovered a es, j)) {P : Prop} (hf : en = false) : P := by
  rw [hf] at h; exact (hq _ _ _ _ h).elim

theorem np_concatRest {E α : Type} {en : Bool} {start : Nat} : ∀ (qs : List (PSem E α)) (out : List α)
    (r : Option (List E)) (i : Nat), (∀ q ∈ qs, NR q ∧ NP q) → (en = false → r = none) → ∀ m,
      concatRestSem en start qs out r i ≠ .panic m
  | [], out, r, i, _, hr, m => np_finish hr
  | q :: qs, out, r, i, hq, hr, m => by
    intro h
    have hq' : ∀ q' ∈ qs, NR q' ∧ NP q' := fun q' h' => hq q' (by simp [h'])
    simp only [concatRestSem, Out.bind_eq_panic] at h
    rcases h with h | ⟨⟨r, l⟩, h1, h2⟩
    · exact (hq q (by simp)).2 _ _ _ h
    · cases r with
      | success a => exact np_concatRest qs _ _ _ hq' hr _ h2
      | recovered a es => exact np_concatRest qs _ _ _ hq' (NR.enabled (hq q (by simp)).1 h1) _ h2
      | failed x es => cases h2

theorem np_concat {E α : Type} {qs : List (PSem E α)} (hq : ∀ q ∈ qs, NR q ∧ NP q) :
    NP (qConcat qs) := by
  intro en i m h
  cases qs with
  | nil => cases h
  | cons q qs =>
    have hq' : ∀ q' ∈ qs, NR q' ∧ NP q' := fun q' h' => hq q' (by simp [h'])
    simp only [qConcat, Out.bind_eq_panic] at h
    rcases h with h | ⟨⟨r, l⟩, h1, h2⟩
    · exact (hq q (by simp)).2 _ _ _ h
    · cases r with
      | success a => exact np_concatRest qs _ _ _ hq' (fun _ => rfl) _ h2
      | recovered a es => exact np_concatRest qs _ _ _ hq' (NR.enabled (hq q (by simp)).1 h1) _ h2
      | failed x es => cases h2

theorem np_concatLast {E β γ : Type} {en : Bool} {start : Nat} {f : β → γ} {qb : PSem E β}
    {r : Option (List E)} {i : Nat} (hb : NR qb ∧ NP qb) (hr : en = false → r = none) {m : String} :
    concatLastSem en start f qb r i ≠ .panic m := by
  intro h
  simp only [concatLastSem, Out.bind_eq_panic] at h
  rcases h with h | ⟨⟨r, l⟩, h1, h2⟩
  · exact hb.2 _ _ _ h
  · cases r with
    | success a => exact np_finish hr h2
    | recovered a es => exact np_finish (NR.enabled hb.1 h1) h2
    | failed x es => cases h2

theorem np_concat2 {E α β γ : Type} {f : α × β → γ} {qa : PSem E α} {qb : PSem E β}
    (ha : NR qa ∧ NP qa) (hb : NR qb ∧ NP qb) : NP (qConcat2 f qa qb) := by
  intro en i m h
  simp only [qConcat2, Out.bind_eq_panic] at h
  rcases h with h | ⟨⟨r, l⟩, h1, h2⟩
  · exact ha.2 _ _ _ h
  · cases r with
    | success a => exact np_concatLast hb (fun _ => rfl) h2
    | recovered a es => exact np_concatLast hb (NR.enabled ha.1 h1) h2
    | failed x es => cases h2

theorem np_concatMid {E β γ δ : Type} {en : Bool} {start : Nat} {f : β × γ → δ} {qb : PSem E β}
    {qc : PSem E γ} {r : Option (List E)} {i : Nat} (hb : NR qb ∧ NP qb) (hc : NR qc ∧ NP qc)
    (hr : en = false → r = none) {m : String} : concatMidSem en start f qb qc r i ≠ .panic m := by
  intro h
  simp only [concatMidSem, Out.bind_eq_panic] at h
  rcases h with h | ⟨⟨r, l⟩, h1, h2⟩
  · exact hb.2 _ _ _ h
  · cases r with
    | success a => exact np_concatLast hc hr h2
    | recovered a es => exact np_concatLast hc (NR.enabled hb.1 h1) h2
    | failed x es => cases h2

theorem np_concat3 {E α β γ δ : Type} {f : α × β × γ → δ} {qa : PSem E α} {qb : PSem E β}
    {qc : PSem E γ} (ha : NR qa ∧ NP qa) (hb : NR qb ∧ NP qb) (hc : NR qc ∧ NP qc) :
    NP (qConcat3 f qa qb qc) := by
  intro en i m h
  simp only [qConcat3, Out.bind_eq_panic] at h
  rcases h with h | ⟨⟨r, l⟩, h1, h2⟩
  · exact ha.2 _ _ _ h
  · cases r with
    | success a => exact np_concatMid hb hc (fun _ => rfl) h2
    | recovered a es => exact np_concatMid hb hc (NR.enabled ha.1 h1) h2
    | failed x es => cases h2

/-! ## Repetition -/

theorem np_repItem {E α : Type} {cfg : RepCfg} {item : PSem E α} (hi : NR item ∧ NP item) {en : Bool}
    {start : Nat} {again : List α → Option (List E) → Nat → Out (Res (List α) E × Nat)}
    (ha : ∀ out r i m, (en = false → r = none) → again out r i ≠ .panic m)
    {out : List α} {r : Option (List E)} (hr : en = false → r = none) {before : Option Nat} {i : Nat}
    {m : String} : repItemSem cfg item en start again out r before i ≠ .panic m := by
  intro h
  unfold repItemSem at h
  split at h
  · exact np_finish hr h
  · simp only [Out.bind_eq_panic] at h
    rcases h with h | ⟨⟨r, l⟩, h1, h2⟩
    · exact hi.2 _ _ _ h
    · cases r with
      | success a => exact ha _ _ _ _ hr h2
      | recovered a es =>
        refine ha _ _ _ _ (fun hf => ?_) h2
        exact NR.enabled hi.1 h1 (by simp [hf])
      | failed x es => simp only at h2; split at h2 <;> cases h2

theorem np_repLoop {E α β : Type} {cfg : RepCfg} {item : PSem E α} {sep : Option (PSem E β)}
    (hi : NR item ∧ NP item) (hs : ∀ q, sep = some q → NR q ∧ NP q) {en : Bool} {start : Nat} :
    ∀ (fuel : Nat) (out : List α) (r : Option (List E)) (i : Nat) (m : String),
      (en = false → r = none) → repLoopSem cfg item sep en start fuel out r i ≠ .panic m
  | 0, _, _, _, _, _, h => by cases h
  | fuel + 1, out, r, i, m, hr, h => by
    have ih := np_repLoop (cfg := cfg) hi hs (en := en) (start := start) fuel
    unfold repLoopSem at h
    split at h
    · exact np_finish hr h
    · simp only at h
      split at h
      · rename_i q _
        have hq := hs q rfl
        simp only [Out.bind_eq_panic] at h
        rcases h with h | ⟨⟨r, l⟩, h1, h2⟩
        · exact hq.2 _ _ _ h
        · cases r with
          | success a => exact np_repItem hi ih hr h2
          | recovered a es =>
            refine np_repItem hi ih (fun hf => ?_) h2
            exact NR.enabled hq.1 h1 (by simp [hf])
          | failed x es =>
            simp only at h2
            split at h2
            · exact np_repItem hi ih hr h2
            · split at h2 <;> cases h2
      · exact np_repItem hi ih hr h

/-! ## Choice -/

theorem np_altFirst {E α : Type} : ∀ (qs : List (PSem E α)) (fails : List (FailSem E α)) (i : Nat)
    (m : String), (∀ q ∈ qs, NR q ∧ NP q) → altFirstSem qs fails i ≠ .panic m
  | [], fails, i, m, _, h => by cases h
  | q :: qs, fails, i, m, hq, h => by
    have hq' : ∀ q' ∈ qs, NR q' ∧ NP q' := fun q' h' => hq q' (by simp [h'])
    simp only [altFirstSem, Out.bind_eq_panic] at h
    rcases h with h | ⟨⟨r, l⟩, h1, h2⟩
    · exact (hq q (by simp)).2 _ _ _ h
    · cases r with
      | success a => cases h2
      | recovered a es => exact (hq q (by simp)).1 _ _ _ _ h1
      | failed x es => exact np_altFirst qs _ _ _ hq' h2

theorem altFirst_length {E α : Type} : ∀ (qs : List (PSem E α)) (fails fs : List (FailSem E α))
    (i j : Nat), altFirstSem qs fails i = .ok (.inr fs, j) → fs.length = fails.length + qs.length
  | [], fails, fs, i, j, h => by cases h; simp
  | q :: qs, fails, fs, i, j, h => by
    simp only [altFirstSem, Out.bind_eq_ok] at h
    obtain ⟨⟨r, k⟩, h1, h2⟩ := h
    cases r with
    | success o => cases h2
    | recovered o es => cases h2
    | failed y es =>
      have := altFirst_length qs _ _ _ _ h2
      simp only [List.length_append, List.length_cons, List.length_nil] at this ⊢
      omega

theorem length_insertDesc {E α : Type} {x : FailSem E α} : ∀ {l : List (FailSem E α)},
    (insertDesc x l).length = l.length + 1
  | [] => rfl
  | y :: l => by
    unfold insertDesc
    split
    · simp
    · simp [length_insertDesc (l := l)]

theorem length_sortDesc {E α : Type} {l : List (FailSem E α)} : (sortDesc l).length = l.length := by
  have : ∀ (l acc : List (FailSem E α)),
      (l.foldl (fun acc x => insertDesc x acc) acc).length = acc.length + l.length := by
    intro l
    induction l with
    | nil => intro acc; simp
    | cons x l ih => intro acc; rw [List.foldl_cons, ih, length_insertDesc, List.length_cons]; omega
  unfold sortDesc
  rw [this]; simp

theorem np_altRecover {E α : Type} {i : Nat} {m : String} : ∀ (fails : List (FailSem E α)),
    (∀ f ∈ fails, OKs f.2.2) → (∀ f ∈ fails, f.2.2 false i = .ok (.failed f.1 f.2.1, i)) →
    altRecoverSem fails i ≠ .panic m
  | [], _, _, h => by cases h
  | (y, es, q) :: rest, hq, hf, h => by
    have h1 := hq _ List.mem_cons_self
    have h2 := hf _ List.mem_cons_self
    simp only at h1 h2
    simp only [altRecoverSem, Out.bind_eq_panic] at h
    rcases h with h | ⟨⟨r, l⟩, h3, h4⟩
    · exact h1.np _ _ _ h
    · cases r with
      | success a => exact h1.fn _ _ _ _ h2 _ _ h3
      | recovered a es => cases h4
      | failed x es =>
        obtain ⟨rfl, -⟩ := (h1.fr _ _ _ _ h3).1 _ _ rfl
        exact np_altRecover rest (fun f h => hq f (by simp [h])) (fun f h => hf f (by simp [h])) h4

theorem np_altCombine {α : Type} {ε : ErrTy S} {fails : List (Nat × List ε.E)} (hl : 2 ≤ fails.length)
    {i : Nat} {m : String} : altCombineSem (α := α) ε fails i ≠ .panic m := by
  intro h
  match fails, hl with
  | (x, es) :: (y, es') :: rest, _ =>
    simp only [altCombineSem] at h
    split at h
    · split at h <;> cases h
    · cases h

theorem np_alternate {α : Type} {ε : ErrTy S} {qs : List (PSem ε.E α)} (hl : 2 ≤ qs.length)
    (hq : ∀ q ∈ qs, OKs q) : NP (qAlternate ε qs) := by
  intro en i m h
  simp only [qAlternate, Out.bind_eq_panic] at h
  rcases h with h | ⟨⟨r, l⟩, h1, h2⟩
  · exact np_altFirst _ _ _ _ (fun q h => ⟨(hq q h).nr, (hq q h).np⟩) h
  · cases r with
    | inl o => cases h2
    | inr fails =>
      have hlen := altFirst_length _ _ _ _ _ h1
      have hlen' : 2 ≤ ((sortDesc fails).map fun f => (f.1, f.2.1)).length := by
        simp only [List.length_map, length_sortDesc, hlen, List.length_nil]; omega
      simp only at h2
      split at h2
      · rename_i he
        rw [List.isEmpty_iff.1 he] at hlen
        simp only [List.length_nil] at hlen
        omega
      · split at h2
        · simp only [Out.bind_eq_panic] at h2
          obtain ⟨rfl, -⟩ := (fr_altFirst qs [] (fun q h => (hq q h).fr) (by simp) _ _ h1).2 _ rfl
          rcases h2 with h2 | ⟨⟨r', l'⟩, h3, h4⟩
          · have h5 := altFirst_failed qs [] (fun q h => (hq q h).fr) (by simp) _ _ h1
            have h6 := altFirst_mem (P := OKs) qs [] l hq (by simp) _ _ h1
            exact np_altRecover _ (fun f h => h6 f (mem_sortDesc.1 h))
              (fun f h => h5 f (mem_sortDesc.1 h)) h2
          · cases r' with
            | none => exact np_altCombine hlen' h4
            | some r' => cases h4
        · exact np_altCombine hlen' h2

/-! ## Recovery -/

theorem snp_orElse {E α : Type} {s t : SSem E α} (hs : SNP s) (ht : SNP t) : SNP (s.orElse t) := by
  intro q fq pq st fa es i m h
  simp only [SSem.orElse, Out.bind_eq_panic] at h
  rcases h with h | ⟨⟨⟨o1, fa1, es1⟩, j1⟩, h3, h4⟩
  · exact hs q fq pq _ _ _ _ _ h
  · cases o1 with
    | some o1 => cases h4
    | none => exact ht q fq pq _ _ _ _ _ h4

theorem snp_giveUp {E α : Type} {p : Nat → Nat → Nat → Nat} {f : List E → Nat → Nat → List E} :
    SNP (fun _ st fa es i => giveUp (α := α) fa (f es st i) (p st fa i)) := by
  intro q fq pq st fa es i m h
  cases h

theorem snp_ret {E α : Type} {f : Nat → Nat → α} :
    SNP (E := E) (fun _ st fa es i => .ok ((some (f st i), fa, es), i)) := by
  intro q fq pq st fa es i m h
  cases h

theorem np_find {e : Env S} {p : S.I → Bool} : ∀ {fuel i : Nat} {m : String},
    findSem e p fuel i ≠ .panic m
  | 0, _, _, h => by cases h
  | fuel + 1, i, m, h => by
    unfold findSem at h
    split at h
    · cases h
    · exact np_find h

theorem np_scan {E : Type} {e : Env S} {sc : Scanner S E} {Inv : sc.σ → Prop}
    (hn : ∀ t sp st es, Inv st → ∃ b st' es', sc.scan t sp st es = .ok (b, st', es') ∧ Inv st') :
    ∀ {fuel : Nat} {st : sc.σ} {es : List E} {i : Nat} {m : String}, Inv st →
      scanSem e sc fuel st es i ≠ .panic m
  | 0, _, _, _, _, _, h => by cases h
  | fuel + 1, st, es, i, m, hi, h => by
    unfold scanSem at h
    split at h
    · rename_i t _
      obtain ⟨b, st', es', h1, h2⟩ := hn t (e.here i) st es hi
      rw [h1] at h
      cases b with
      | true => cases h
      | false => exact np_scan hn h2 h
    · cases h

theorem np_whileNot {E α : Type} {e : Env S} {p : S.I → Bool} {inner : SSem E α} {q : PSem E α}
    {st : Nat} (hs : ∀ fa es i m, inner q st fa es i ≠ .panic m) :
    ∀ {fuel fa : Nat} {es : List E} {i : Nat} {m : String},
      whileNotSem e p inner q st fuel fa es i ≠ .panic m
  | 0, _, _, _, _, h => by cases h
  | fuel + 1, fa, es, i, m, h => by
    unfold whileNotSem at h
    split at h
    · cases h
    · simp only [Out.bind_eq_panic] at h
      rcases h with h | ⟨⟨⟨o1, fa1, es1⟩, j1⟩, h3, h4⟩
      · exact hs _ _ _ _ h
      · cases o1 with
        | some o1 => cases h4
        | none => exact np_whileNot hs h4

theorem np_saveAt {x i : Nat} (h : i ≤ x) {m : String} : saveAtSem x i ≠ .panic m := by
  unfold saveAtSem
  rw [if_neg (by omega)]
  intro h; cases h

theorem np_runIn {E α : Type} {q : PSem E α} (fq : FR q) (pq : NP q) {exact silent : Bool} {fa : Nat}
    {es : List E} {i : Nat} {m : String} : runInSem q exact silent fa es i ≠ .panic m := by
  intro h
  simp only [runInSem, Out.bind_eq_panic] at h
  rcases h with h | ⟨⟨r, l⟩, h1, h2⟩
  · exact pq _ _ _ h
  · cases r with
    | success a => cases h2
    | recovered a es => cases h2
    | failed x es =>
      obtain ⟨rfl, h3⟩ := (fq _ _ _ _ h1).1 _ _ rfl
      simp only [Out.bind_eq_panic] at h2
      rcases h2 with h2 | ⟨_, _, h2⟩
      · exact np_saveAt h3 h2
      · cases h2

theorem np_toRecover {E α : Type} {q : PSem E α} {s : SSem E α} (fq : FR q) (pq : NP q) (hs : SNP s) :
    NP (qToRecover q s) := by
  intro en i m h
  simp only [qToRecover, Out.bind_eq_panic] at h
  rcases h with h | ⟨⟨r, l⟩, h1, h2⟩
  · exact pq _ _ _ h
  · cases r with
    | success a => cases h2
    | recovered a es => cases h2
    | failed x es =>
      obtain ⟨rfl, h3⟩ := (fq _ _ _ _ h1).1 _ _ rfl
      simp only at h2
      split at h2
      · cases h2
      · simp only [Out.bind_eq_panic] at h2
        rcases h2 with h2 | ⟨_, _, h2⟩
        · exact np_saveAt h3 h2
        · rcases h2 with h2 | ⟨⟨⟨o, _, _⟩, _⟩, _, h2⟩
          · exact hs q fq pq _ _ _ _ _ h2
          · cases o <;> cases h2

section

variable {e : Env S} {ρ : QEnv S N} {F : N.K → Prop}

theorem GL.den_length {n : Nat} : ∀ {ε : ErrTy S} {α : Type} (gs : GL S N ε α),
    (gs.den e ρ n).length = gs.length
  | _, _, .nil => by rw [GL.den, GL.length]; rfl
  | _, _, .cons g gs => by rw [GL.den, GL.length, List.length_cons, GL.den_length gs]

/-- From no panics, everything else. -/
theorem G.oks (hρ : ∀ k, OKs (ρ k)) (rρ : ∀ k, F k → RF (ρ k)) (n : Nat) {ε : ErrTy S} {α : Type}
    {g : G S N ε α} (h : g.All (safeL F)) (hp : NP (g.den e ρ n)) : OKs (g.den e ρ n) where
  fr := G.fr (fun k => (hρ k).fr) n g (G.All.imp (fun g h => G.Safe.clean g h) (fun _ _ => trivial) g h)
  nr := G.nr (fun k => (hρ k).nr) n g
  sm := G.sm (fun k => (hρ k).nr) (fun k => (hρ k).sm) n g
  fn := G.fn (fun k => (hρ k).nr) (fun k => (hρ k).sm) rρ (fun k => (hρ k).fn) n g
    (G.All.imp (fun g h => G.Safe.coherent g h) (fun _ _ => trivial) g h)
  np := hp

mutual

/-- A safe grammar does not panic. -/
theorem G.np (hρ : ∀ k, OKs (ρ k)) (rρ : ∀ k, F k → RF (ρ k)) (n : Nat) :
    ∀ {ε : ErrTy S} {α : Type} (g : G S N ε α), g.All (safeL F) → NP (g.den e ρ n)
  | _, _, .empty, h => by rw [G.den]; intro en i m h'; cases h'
  | _, _, .none _, h => by rw [G.den]; intro en i m h'; cases h'
  | _, _, .eof, h => by rw [G.den]; exact np_end
  | _, _, .just t, h => by rw [G.den]; exact np_just
  | _, _, .filter p, h => by rw [G.den]; exact np_filter
  | _, _, .filterMap f, h => by rw [G.den]; exact np_filterMap
  | _, _, .seq v items, h => by rw [G.den]; exact np_seq
  | _, _, .oneOf items, h => by rw [G.den]; exact np_oneOf
  | _, _, .noneOf items, h => by rw [G.den]; exact np_noneOf
  | _, _, .boxed g, h => by rw [G.All] at h; rw [G.den]; exact G.np hρ rρ n g h.2
  | _, _, .withError g, h => by rw [G.All] at h; rw [G.den]; exact G.np hρ rρ n g h.2
  | _, _, .to g v, h => by
    rw [G.All] at h; rw [G.den]; exact np_map (G.np hρ rρ n g h.2)
  | _, _, .some g, h => by
    rw [G.All] at h; rw [G.den]; exact np_map (G.np hρ rρ n g h.2)
  | _, _, .map f g, h => by
    rw [G.All] at h; rw [G.den]; exact np_map (G.np hρ rρ n g h.2)
  | _, _, .mapWithSpan f g, h => by
    rw [G.All] at h; rw [G.den]; exact np_mapWithSpan (G.np hρ rρ n g h.2)
  | _, _, .mapErr f g, h => by
    rw [G.All] at h; rw [G.den]; exact np_mapErr (G.np hρ rρ n g h.2)
  | _, _, .mapErrWithSpan f g, h => by
    rw [G.All] at h; rw [G.den]; exact np_mapErrWithSpan (G.np hρ rρ n g h.2)
  | _, _, .tryMap f g, h => by
    rw [G.All] at h; rw [G.den]; exact np_tryMap (G.np hρ rρ n g h.2) h.1.2.1 h.1.2.2
  | _, _, .then_ a b, h => by
    rw [G.All] at h; rw [G.den]
    exact np_concat2 ⟨G.nr (fun k => (hρ k).nr) n a, G.np hρ rρ n a h.2.1⟩
      ⟨G.nr (fun k => (hρ k).nr) n b, G.np hρ rρ n b h.2.2⟩
  | _, _, .thenIgnore a b, h => by
    rw [G.All] at h; rw [G.den]
    exact np_concat2 ⟨G.nr (fun k => (hρ k).nr) n a, G.np hρ rρ n a h.2.1⟩
      ⟨G.nr (fun k => (hρ k).nr) n b, G.np hρ rρ n b h.2.2⟩
  | _, _, .ignoreThen a b, h => by
    rw [G.All] at h; rw [G.den]
    exact np_concat2 ⟨G.nr (fun k => (hρ k).nr) n a, G.np hρ rρ n a h.2.1⟩
      ⟨G.nr (fun k => (hρ k).nr) n b, G.np hρ rρ n b h.2.2⟩
  | _, _, .delimitedBy l m r, h => by
    rw [G.All] at h; rw [G.den]
    exact np_concat3 ⟨G.nr (fun k => (hρ k).nr) n l, G.np hρ rρ n l h.2.1⟩
      ⟨G.nr (fun k => (hρ k).nr) n m, G.np hρ rρ n m h.2.2.1⟩
      ⟨G.nr (fun k => (hρ k).nr) n r, G.np hρ rρ n r h.2.2.2⟩
  | _, _, .paddedBy p m, h => by
    rw [G.All] at h; rw [G.den]
    exact np_concat3 ⟨G.nr (fun k => (hρ k).nr) n p, G.np hρ rρ n p h.2.1⟩
      ⟨G.nr (fun k => (hρ k).nr) n m, G.np hρ rρ n m h.2.2⟩
      ⟨G.nr (fun k => (hρ k).nr) n p, G.np hρ rρ n p h.2.1⟩
  | _, _, .chain gs, h => by
    rw [G.All] at h; rw [G.den]
    exact np_concat fun q hq => ⟨(GL.np hρ rρ n gs h.2 q hq).nr, (GL.np hρ rρ n gs h.2 q hq).np⟩
  | _, _, .or a b, h => by
    rw [G.All] at h; rw [G.den]
    refine np_alternate (Nat.le_refl _) fun q hq => ?_
    simp only [List.mem_cons, List.not_mem_nil, or_false] at hq
    rcases hq with rfl | rfl
    · exact G.oks hρ rρ n h.2.1 (G.np hρ rρ n a h.2.1)
    · exact G.oks hρ rρ n h.2.2 (G.np hρ rρ n b h.2.2)
  | _, _, .orNot g, h => by
    rw [G.All] at h; rw [G.den]
    refine np_alternate (Nat.le_refl _) fun q hq => ?_
    simp only [List.mem_cons, List.not_mem_nil, or_false] at hq
    rcases hq with rfl | rfl
    · have hg := G.oks hρ rρ n h.2 (G.np hρ rρ n g h.2)
      exact ⟨fr_map hg.fr, nr_map hg.nr, sm_map hg.sm, fn_map hg.fn, np_map hg.np⟩
    · exact ⟨fr_none, nr_none, fun _ _ _ h => h, .of_eq fun _ => rfl, fun _ _ _ h => by cases h⟩
  | _, _, .alters gs, h => by
    rw [G.All] at h; rw [G.den]
    exact np_alternate (by rw [GL.den_length]; exact h.1) (GL.np hρ rρ n gs h.2)
  | _, _, .repeated cfg item, h => by
    rw [G.All] at h; rw [G.den]
    exact fun en i m => np_repLoop ⟨G.nr (fun k => (hρ k).nr) n item, G.np hρ rρ n item h.2⟩
      (fun q h => by cases h) n _ _ _ _ (fun _ => rfl)
  | _, _, .separatedBy cfg item sep, h => by
    rw [G.All] at h; rw [G.den]
    refine fun en i m => np_repLoop ⟨G.nr (fun k => (hρ k).nr) n item, G.np hρ rρ n item h.2.1⟩
      (fun q hq => ?_) n _ _ _ _ (fun _ => rfl)
    cases hq
    exact ⟨G.nr (fun k => (hρ k).nr) n sep, G.np hρ rρ n sep h.2.2⟩
  | _, _, .toRecover g st, h => by
    rw [G.All] at h; rw [G.den]
    have hg := G.oks hρ rρ n h.2.1 (G.np hρ rρ n g h.2.1)
    exact np_toRecover hg.fr hg.np (CS.np hρ rρ n st h.2.2)
  | _, _, .call k, h => by rw [G.den]; exact (hρ k).np

theorem GL.np (hρ : ∀ k, OKs (ρ k)) (rρ : ∀ k, F k → RF (ρ k)) (n : Nat) :
    ∀ {ε : ErrTy S} {α : Type} (gs : GL S N ε α), gs.All (safeL F) → ∀ q ∈ gs.den e ρ n, OKs q
  | _, _, .nil, _, q, h => by rw [GL.den] at h; cases h
  | _, _, .cons g gs, hc, q, h => by
    rw [GL.All] at hc
    rw [GL.den] at h
    rcases List.mem_cons.1 h with h | h
    · rw [h]; exact G.oks hρ rρ n hc.1 (G.np hρ rρ n g hc.1)
    · exact GL.np hρ rρ n gs hc.2 q h

theorem IS.np (hρ : ∀ k, OKs (ρ k)) (rρ : ∀ k, F k → RF (ρ k)) (n : Nat) :
    ∀ {ε : ErrTy S} {α : Type} (s : IS S N ε α), s.All (safeL F) → SNP (s.den e ρ n)
  | _, _, .attemptTo, h => by
    rw [IS.den]; exact snp_giveUp (f := fun es _ _ => es) (p := fun _ _ i => i)
  | _, _, .restart s, h => by
    rw [IS.All] at h; rw [IS.den]
    exact snp_orElse (IS.np hρ rρ n s h.2)
      (snp_giveUp (f := fun es st i => es) (p := fun st fa i => st))
  | _, _, .seekToFailed s, h => by
    rw [IS.All] at h; rw [IS.den]
    exact snp_orElse (IS.np hρ rρ n s h.2)
      (snp_giveUp (f := fun es st i => es) (p := fun st fa i => fa))
  | _, _, .skip s, h => by
    rw [IS.All] at h; rw [IS.den]
    exact snp_orElse (IS.np hρ rρ n s h.2)
      (snp_giveUp (f := fun es st i => es) (p := fun st fa i => e.next i))
  | _, _, .skipIf s p, h => by
    rw [IS.All] at h; rw [IS.den]
    exact snp_orElse (IS.np hρ rρ n s h.2)
      (snp_giveUp (f := fun es st i => es) (p := fun st fa i => if e.tokIs p false i then i + 1 else i))
  | _, _, .pushError s f, h => by
    rw [IS.All] at h; rw [IS.den]
    exact snp_orElse (IS.np hρ rρ n s h.2)
      (snp_giveUp (f := fun es st i => es ++ [f ()]) (p := fun st fa i => i))
  | _, _, .pushErrorHere s f, h => by
    rw [IS.All] at h; rw [IS.den]
    exact snp_orElse (IS.np hρ rρ n s h.2)
      (snp_giveUp (f := fun es st i => es ++ [f (e.locationAt i)]) (p := fun st fa i => i))
  | _, _, .pushErrorUpToHere s f, h => by
    rw [IS.All] at h; rw [IS.den]
    exact snp_orElse (IS.np hρ rρ n s h.2)
      (snp_giveUp (f := fun es st i => es ++ [f (e.spanOf st i)]) (p := fun st fa i => i))
  | _, _, .pushErrorForToken s f, h => by
    rw [IS.All] at h; rw [IS.den]
    exact snp_orElse (IS.np hρ rρ n s h.2)
      (snp_giveUp (f := fun es st i => es ++ [f (e.source i) (e.here i)]) (p := fun st fa i => i))
  | _, _, .updateErrors s f, h => by
    rw [IS.All] at h; rw [IS.den]
    exact snp_orElse (IS.np hρ rρ n s h.2)
      (snp_giveUp (f := fun es st i => f es) (p := fun st fa i => i))
  | _, _, .updateErrorsHere s f, h => by
    rw [IS.All] at h; rw [IS.den]
    exact snp_orElse (IS.np hρ rρ n s h.2)
      (snp_giveUp (f := fun es st i => f es (e.locationAt i)) (p := fun st fa i => i))
  | _, _, .updateErrorsUpToHere s f, h => by
    rw [IS.All] at h; rw [IS.den]
    exact snp_orElse (IS.np hρ rρ n s h.2)
      (snp_giveUp (f := fun es st i => f es (e.spanOf st i)) (p := fun st fa i => i))
  | _, _, .updateErrorsForToken s f, h => by
    rw [IS.All] at h; rw [IS.den]
    exact snp_orElse (IS.np hρ rρ n s h.2)
      (snp_giveUp (f := fun es st i => f es (e.source i) (e.here i)) (p := fun st fa i => i))
  | _, _, .find s p, h => by
    rw [IS.All] at h; rw [IS.den]
    refine snp_orElse (IS.np hρ rρ n s h.2) ?_
    intro q fq pq st fa es i m h'
    simp only [Out.bind_eq_panic] at h'
    rcases h' with h' | ⟨_, _, h'⟩
    · exact np_find h'
    · cases h'
  | _, _, .scan s sc, h => by
    rw [IS.All] at h; rw [IS.den]
    refine snp_orElse (IS.np hρ rρ n s h.2) ?_
    intro q fq pq st fa es i m h'
    simp only [Out.bind_eq_panic] at h'
    obtain ⟨Inv, h0, h1⟩ := h.1
    rcases h' with h' | ⟨_, _, h'⟩
    · exact np_scan h1 h0 h'
    · cases h'
  | _, _, .maybe s t, h => by
    rw [IS.All] at h; rw [IS.den]
    refine snp_orElse (IS.np hρ rρ n s h.2.1) ?_
    intro q fq pq st fa es i m h'
    simp only [Out.bind_eq_panic] at h'
    rcases h' with h' | ⟨_, _, h'⟩
    · exact IS.np hρ rρ n t h.2.2 q fq pq _ _ _ _ _ h'
    · cases h'
  | _, _, .whileNot s p t, h => by
    rw [IS.All] at h; rw [IS.den]
    refine snp_orElse (IS.np hρ rρ n s h.2.1) ?_
    intro q fq pq st fa es i m h'
    exact np_whileNot (fun _ _ _ _ => IS.np hρ rρ n t h.2.2 q fq pq _ _ _ _ _) h'
  | _, _, .retry s exact silent, h => by
    rw [IS.All] at h; rw [IS.den]
    refine snp_orElse (IS.np hρ rρ n s h.2) ?_
    intro q fq pq st fa es i m
    exact np_runIn fq pq
  | _, _, .tryToParse s g exact silent, h => by
    rw [IS.All] at h; rw [IS.den]
    refine snp_orElse (IS.np hρ rρ n s h.2.1) ?_
    intro q fq pq st fa es i m
    have hg := G.oks hρ rρ n h.2.2 (G.np hρ rρ n g h.2.2)
    exact np_runIn hg.fr hg.np
  | _, _, .boxed s, h => by rw [IS.All] at h; rw [IS.den]; exact IS.np hρ rρ n s h.2

theorem CS.np (hρ : ∀ k, OKs (ρ k)) (rρ : ∀ k, F k → RF (ρ k)) (n : Nat) :
    ∀ {ε : ErrTy S} {α : Type} (s : CS S N ε α), s.All (safeL F) → SNP (s.den e ρ n)
  | _, _, .ret s o, h => by
    rw [CS.All] at h; rw [CS.den]
    exact snp_orElse (IS.np hρ rρ n s h) (snp_ret (f := fun _ _ => o))
  | _, _, .retWith s o, h => by
    rw [CS.All] at h; rw [CS.den]
    exact snp_orElse (IS.np hρ rρ n s h) (snp_ret (f := fun _ _ => o ()))
  | _, _, .retWithSpan s f, h => by
    rw [CS.All] at h; rw [CS.den]
    exact snp_orElse (IS.np hρ rρ n s h) (snp_ret (f := fun st i => f (e.spanOf st i)))
  | _, _, .orFail s, h => by rw [CS.All] at h; rw [CS.den]; exact IS.np hρ rρ n s h

end

theorem callSem_oks {D : Defs S N} (hF : RecFreeNames F D) (hD : D.All (safeL F))
    (hd : ∀ k, (D k).isSome) : ∀ (n : Nat) (k : N.K), OKs (callSem e D n k)
  | 0, k => ⟨fun en i r j h => (by cases h), fun i a es j h => (by cases h), fun i a j h => (by cases h),
      fun i x es j h => (by cases h), fun en i m h => (by cases h)⟩
  | n + 1, k => by
    have ih : ∀ k, OKs (callSem e D n k) := callSem_oks hF hD hd n
    obtain ⟨g, hg⟩ := Option.isSome_iff_exists.1 (hd k)
    have h1 := G.oks (e := e) ih (callSem_rf hF n) n (hD k g hg)
      (G.np ih (callSem_rf hF n) n g (hD k g hg))
    have he : callSem e D (n + 1) k = g.den e (callSem e D n) n := by
      funext en i; rw [callSem, hg]
    rw [he]; exact h1

theorem G.sem_np {D : Defs S N} (hF : RecFreeNames F D) (hD : D.All (safeL F))
    (hd : ∀ k, (D k).isSome) (n : Nat) {ε : ErrTy S} {α : Type} (g : G S N ε α)
    (hg : g.All (safeL F)) : NP (g.sem e D n) :=
  G.np (callSem_oks hF hD hd n) (callSem_rf hF n) n g hg

end

/-! ## The scanner of the crate -/

theorem firstIdx_lt {α : Type} {p : α → Bool} : ∀ {l : List α} {i j : Nat},
    firstIdx p l i = some j → i ≤ j ∧ j < i + l.length
  | [], _, _, h => by cases h
  | x :: l, i, j, h => by
    unfold firstIdx at h
    split at h
    · cases h; simp
    · have := firstIdx_lt h
      simp only [List.length_cons]; omega

theorem popUntil_sub {ε : ErrTy S} {r : Nat} {sp : S.Span} : ∀ {st : List (Delim S)} {es : List ε.E},
    ∀ d ∈ (popUntil ε r sp st es).2.1, d ∈ st
  | [], es, d, h => by simp [popUntil] at h
  | d' :: ds, es, d, h => by
    unfold popUntil at h
    split at h
    · exact List.mem_cons_of_mem _ h
    · exact List.mem_cons_of_mem _ (popUntil_sub d h)

theorem popUntil_found {ε : ErrTy S} {r : Nat} {sp : S.Span} : ∀ {st : List (Delim S)} {es : List ε.E},
    st.any (fun d => d.ty = r) = true → (popUntil ε r sp st es).1 = true
  | [], es, h => by simp at h
  | d :: ds, es, h => by
    unfold popUntil
    split
    · rfl
    · rename_i hd
      simp only [List.any_cons, hd, decide_false, Bool.false_or] at h
      exact popUntil_found h

/-- With the indices on the stack in range, `NestedDelimiters::handle_token` does not panic
and keeps them in range. -/
theorem handleToken_total {ε : ErrTy S} {types : List (S.I × S.I)} {t : S.I} {sp : S.Span}
    {st : List (Delim S)} {es : List ε.E} (hi : ∀ d ∈ st, d.ty < types.length) :
    ∃ st' es', handleToken ε types t sp st es = .ok (st', es') ∧ ∀ d ∈ st', d.ty < types.length := by
  have hone : ∀ r, st.any (fun d => d.ty = r) = false →
      ∃ st' es', popOne ε r t sp st es = .ok (st', es') ∧ ∀ d ∈ st', d.ty < types.length := by
    intro r hr
    cases st with
    | nil => exact ⟨_, _, rfl, by simp⟩
    | cons d ds =>
      simp only [List.any_cons, Bool.or_eq_false_iff, decide_eq_false_iff_not] at hr
      exact ⟨_, _, by rw [popOne, if_neg hr.1], fun d' h => hi d' (List.mem_cons_of_mem _ h)⟩
  have hrest : ∃ st' es', handleRest ε types t sp st es = .ok (st', es') ∧
      ∀ d ∈ st', d.ty < types.length := by
    unfold handleRest
    split
    · rename_i i hf
      refine ⟨_, _, rfl, fun d h => ?_⟩
      rcases List.mem_cons.1 h with rfl | h
      · have := firstIdx_lt hf; simp only; omega
      · exact hi d h
    · split
      · rename_i r _
        cases ha : st.any (fun d => d.ty = r) with
        | true =>
          have h1 := popUntil_found (ε := ε) (sp := sp) (es := es) ha
          have h2 := fun d h => hi d (popUntil_sub (ε := ε) (r := r) (sp := sp) (es := es) d h)
          rw [if_pos rfl]
          split
          · rename_i hp; rw [hp] at h2; exact ⟨_, _, rfl, h2⟩
          · rename_i hp; rw [hp] at h1; cases h1
        | false => rw [if_neg (by simp)]; exact hone r ha
      · exact ⟨_, _, rfl, hi⟩
  unfold handleToken
  split
  · rename_i d ds
    have hd := hi d List.mem_cons_self
    rw [List.getElem?_eq_getElem hd]
    simp only
    split
    · exact ⟨_, _, rfl, fun d' h => hi d' (List.mem_cons_of_mem _ h)⟩
    · exact hrest
  · exact hrest

/-- `NestedDelimiters` never panics. -/
theorem nestedDelimiters_neverPanics (ε : ErrTy S) (types : List (S.I × S.I)) :
    (nestedDelimiters ε types).NeverPanics := by
  refine ⟨fun st => ∀ d ∈ (st : List (Delim S)), d.ty < types.length, by simp, ?_⟩
  intro t sp st es hi
  obtain ⟨st', es', h1, h2⟩ := handleToken_total (ε := ε) (t := t) (sp := sp) (es := es) hi
  refine ⟨st'.isEmpty, st', es', ?_, h2⟩
  simp only [h1]

end PPC
