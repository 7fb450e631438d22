import Verif.SemPanic

/-!
# Parsers do not panic with recovery disabled

With recovery disabled no strategy runs and no result is `Recovered`, so that fewer conditions are
needed than in `Verif.SemPanic` (`NPF`).
-/

namespace PPC

variable {S : Sig} {N : Names S}

/-- Does not panic with recovery disabled. -/
def NPF {E α : Type} (q : PSem E α) : Prop := ∀ i m, q false i ≠ .panic m

theorem NP.off {E α : Type} {q : PSem E α} (h : NP q) : NPF q := fun i m => h false i m

/-- The parser with recovery disabled. -/
def off {E α : Type} (q : PSem E α) : PSem E α := fun _ i => q false i

theorem NPF.off {E α : Type} {q : PSem E α} (h : NPF q) : NP (off q) := fun _ i m => h i m

theorem NR.off {E α : Type} {q : PSem E α} (h : NR q) : NR (off q) := h

theorem npf_map {E α β : Type} {f : α → β} {q : PSem E α} (hq : NPF q) : NPF (qMap f q) :=
  fun i m => np_map (f := f) hq.off false i m

theorem npf_mapWithSpan {E α β : Type} {e : Env S} {f : α → S.Span → β} {q : PSem E α} (hq : NPF q) :
    NPF (qMapWithSpan e f q) := fun i m => np_mapWithSpan (e := e) (f := f) hq.off false i m

theorem npf_mapErr {E X α : Type} {f : X → E} {q : PSem X α} (hq : NPF q) : NPF (qMapErr f q) :=
  fun i m => np_mapErr (f := f) hq.off false i m

theorem npf_mapErrWithSpan {E X α : Type} {e : Env S} {f : X → S.Span → E} {q : PSem X α} (hq : NPF q) :
    NPF (qMapErrWithSpan e f q) := fun i m => np_mapErrWithSpan (e := e) (f := f) hq.off false i m

theorem npf_concat2 {E α β γ : Type} {f : α × β → γ} {qa : PSem E α} {qb : PSem E β}
    (ha : NR qa ∧ NPF qa) (hb : NR qb ∧ NPF qb) : NPF (qConcat2 f qa qb) :=
  fun i m => np_concat2 (f := f) ⟨ha.1.off, ha.2.off⟩ ⟨hb.1.off, hb.2.off⟩ false i m

theorem npf_concat3 {E α β γ δ : Type} {f : α × β × γ → δ} {qa : PSem E α} {qb : PSem E β}
    {qc : PSem E γ} (ha : NR qa ∧ NPF qa) (hb : NR qb ∧ NPF qb) (hc : NR qc ∧ NPF qc) :
    NPF (qConcat3 f qa qb qc) :=
  fun i m => np_concat3 (f := f) ⟨ha.1.off, ha.2.off⟩ ⟨hb.1.off, hb.2.off⟩ ⟨hc.1.off, hc.2.off⟩ false i m

theorem npf_tryMap {E α β : Type} {e : Env S} {f : α → S.Span → TryMapResult β E} {q : PSem E α}
    (hq : NR q ∧ NPF q) (hf : ∀ a sp, f a sp ≠ .err [] ∧ ∀ o, f a sp ≠ .recovered o []) : NPF (qTryMap e f q) := by
  intro i m h
  simp only [qTryMap, Out.bind_eq_panic] at h
  rcases h with h | ⟨⟨r, l⟩, h1, h2⟩
  · exact hq.2 _ _ h
  · cases r with
    | success a =>
      simp only [tryMapStep] at h2
      split at h2
      · cases h2
      · rename_i es h3
        split at h2
        · rename_i h4; rw [List.isEmpty_iff.1 h4] at h3; exact (hf _ _).1 h3
        · cases h2
      · rename_i es h3
        split at h2
        · rename_i h4; rw [List.isEmpty_iff.1 h4] at h3; exact (hf _ _).2 _ h3
        · cases h2
    | recovered a es => exact hq.1 _ _ _ _ h1
    | failed x es => cases h2

theorem npf_concatRest {E α : Type} {start : Nat} : ∀ (qs : List (PSem E α)) (out : List α) (i : Nat),
    (∀ q ∈ qs, NR q ∧ NPF q) → ∀ m, concatRestSem false start qs out none i ≠ .panic m
  | [], out, i, _, m => np_finish fun _ => rfl
  | q :: qs, out, i, hq, m => by
    intro h
    have hq' : ∀ q' ∈ qs, NR q' ∧ NPF q' := fun q' h' => hq q' (by simp [h'])
    simp only [concatRestSem, Out.bind_eq_panic] at h
    rcases h with h | ⟨⟨r, l⟩, h1, h2⟩
    · exact (hq q (by simp)).2 _ _ h
    · cases r with
      | success a => exact npf_concatRest qs _ _ hq' _ h2
      | recovered a es => exact (hq q (by simp)).1 _ _ _ _ h1
      | failed x es => cases h2

theorem npf_concat {E α : Type} {qs : List (PSem E α)} (hq : ∀ q ∈ qs, NR q ∧ NPF q) : NPF (qConcat qs) := by
  intro i m h
  cases qs with
  | nil => cases h
  | cons q qs =>
    have hq' : ∀ q' ∈ qs, NR q' ∧ NPF q' := fun q' h' => hq q' (by simp [h'])
    simp only [qConcat, Out.bind_eq_panic] at h
    rcases h with h | ⟨⟨r, l⟩, h1, h2⟩
    · exact (hq q (by simp)).2 _ _ h
    · cases r with
      | success a => exact npf_concatRest qs _ _ hq' _ h2
      | recovered a es => exact (hq q (by simp)).1 _ _ _ _ h1
      | failed x es => cases h2

theorem npf_repItem {E α : Type} {cfg : RepCfg} {item : PSem E α} (hi : NR item ∧ NPF item)
    {start : Nat} {again : List α → Option (List E) → Nat → Out (Res (List α) E × Nat)}
    (ha : ∀ out i m, again out none i ≠ .panic m)
    {out : List α} {before : Option Nat} {i : Nat}
    {m : String} : repItemSem cfg item false start again out none before i ≠ .panic m := by
  intro h
  unfold repItemSem at h
  split at h
  · exact np_finish (fun _ => rfl) h
  · simp only [Out.bind_eq_panic, Bool.false_and] at h
    rcases h with h | ⟨⟨r, l⟩, h1, h2⟩
    · exact hi.2 _ _ h
    · cases r with
      | success a => exact ha _ _ _ h2
      | recovered a es => exact hi.1 _ _ _ _ h1
      | failed x es => simp only at h2; split at h2 <;> cases h2

theorem npf_repLoop {E α β : Type} {cfg : RepCfg} {item : PSem E α} {sep : Option (PSem E β)}
    (hi : NR item ∧ NPF item) (hs : ∀ q, sep = some q → NR q ∧ NPF q) {start : Nat} :
    ∀ (fuel : Nat) (out : List α) (i : Nat) (m : String),
      repLoopSem cfg item sep false start fuel out none i ≠ .panic m
  | 0, _, _, _, h => by cases h
  | fuel + 1, out, i, m, h => by
    have ih := npf_repLoop (cfg := cfg) hi hs (start := start) fuel
    unfold repLoopSem at h
    split at h
    · exact np_finish (fun _ => rfl) h
    · simp only [Bool.false_and] at h
      split at h
      · rename_i q _
        have hq := hs q rfl
        simp only [Out.bind_eq_panic] at h
        rcases h with h | ⟨⟨r, l⟩, h1, h2⟩
        · exact hq.2 _ _ h
        · cases r with
          | success a => exact npf_repItem hi ih h2
          | recovered a es => exact hq.1 _ _ _ _ h1
          | failed x es =>
            simp only at h2
            split at h2
            · exact npf_repItem hi ih h2
            · split at h2 <;> cases h2
      · exact npf_repItem hi ih h

theorem npf_altFirst {E α : Type} : ∀ (qs : List (PSem E α)) (fails : List (FailSem E α)) (i : Nat)
    (m : String), (∀ q ∈ qs, NR q ∧ NPF q) → altFirstSem qs fails i ≠ .panic m
  | [], fails, i, m, _, h => by cases h
  | q :: qs, fails, i, m, hq, h => by
    have hq' : ∀ q' ∈ qs, NR q' ∧ NPF q' := fun q' h' => hq q' (by simp [h'])
    simp only [altFirstSem, Out.bind_eq_panic] at h
    rcases h with h | ⟨⟨r, l⟩, h1, h2⟩
    · exact (hq q (by simp)).2 _ _ h
    · cases r with
      | success a => cases h2
      | recovered a es => exact (hq q (by simp)).1 _ _ _ _ h1
      | failed x es => exact npf_altFirst qs _ _ _ hq' h2

theorem npf_alternate {α : Type} {ε : ErrTy S} {qs : List (PSem ε.E α)} (hl : 2 ≤ qs.length)
    (hq : ∀ q ∈ qs, NR q ∧ NPF q) : NPF (qAlternate ε qs) := by
  intro i m h
  simp only [qAlternate, Out.bind_eq_panic] at h
  rcases h with h | ⟨⟨r, l⟩, h1, h2⟩
  · exact npf_altFirst _ _ _ _ hq h
  · cases r with
    | inl o => cases h2
    | inr fails =>
      have hlen := altFirst_length _ _ _ _ _ h1
      have hlen' : 2 ≤ ((sortDesc fails).map fun f => (f.1, f.2.1)).length := by
        simp only [List.length_map, length_sortDesc, hlen, List.length_nil]; omega
      simp only at h2
      split at h2
      · rename_i he
        rw [List.isEmpty_iff.1 he] at hlen
        simp only [List.length_nil] at hlen
        omega
      · exact np_altCombine hlen' h2

theorem npf_toRecover {E α : Type} {q : PSem E α} {s : SSem E α} (hq : NPF q) : NPF (qToRecover q s) := by
  intro i m h
  simp only [qToRecover, Out.bind_eq_panic] at h
  rcases h with h | ⟨⟨r, l⟩, h1, h2⟩
  · exact hq _ _ h
  · cases r <;> simp at h2

section

variable {e : Env S} {ρ : QEnv S N}

mutual

theorem G.npf (hρ : ∀ k, NR (ρ k) ∧ NPF (ρ k)) (n : Nat) : ∀ {ε : ErrTy S} {α : Type} (g : G S N ε α),
    g.All (calmOffL S N) → NPF (g.den e ρ n)
  | _, _, .empty, _ => by rw [G.den]; exact fun i m h => by cases h
  | _, _, .none _, _ => by rw [G.den]; exact fun i m h => by cases h
  | _, _, .eof, _ => by rw [G.den]; exact np_end.off
  | _, _, .just t, _ => by rw [G.den]; exact np_just.off
  | _, _, .filter p, _ => by rw [G.den]; exact np_filter.off
  | _, _, .filterMap f, _ => by rw [G.den]; exact np_filterMap.off
  | _, _, .seq v items, _ => by rw [G.den]; exact np_seq.off
  | _, _, .oneOf items, _ => by rw [G.den]; exact np_oneOf.off
  | _, _, .noneOf items, _ => by rw [G.den]; exact np_noneOf.off
  | _, _, .boxed g, h => by rw [G.All] at h; rw [G.den]; exact G.npf hρ n g h.2
  | _, _, .withError g, h => by rw [G.All] at h; rw [G.den]; exact G.npf hρ n g h.2
  | _, _, .to g v, h => by rw [G.All] at h; rw [G.den]; exact npf_map (G.npf hρ n g h.2)
  | _, _, .some g, h => by rw [G.All] at h; rw [G.den]; exact npf_map (G.npf hρ n g h.2)
  | _, _, .map f g, h => by rw [G.All] at h; rw [G.den]; exact npf_map (G.npf hρ n g h.2)
  | _, _, .mapWithSpan f g, h => by rw [G.All] at h; rw [G.den]; exact npf_mapWithSpan (G.npf hρ n g h.2)
  | _, _, .mapErr f g, h => by rw [G.All] at h; rw [G.den]; exact npf_mapErr (G.npf hρ n g h.2)
  | _, _, .mapErrWithSpan f g, h => by rw [G.All] at h; rw [G.den]; exact npf_mapErrWithSpan (G.npf hρ n g h.2)
  | _, _, .tryMap f g, h => by
    rw [G.All] at h; rw [G.den]
    exact npf_tryMap ⟨G.nr (fun k => (hρ k).1) n g, G.npf hρ n g h.2⟩ h.1
  | _, _, .then_ a b, h => by
    rw [G.All] at h; rw [G.den]
    exact npf_concat2 ⟨G.nr (fun k => (hρ k).1) n a, G.npf hρ n a h.2.1⟩ ⟨G.nr (fun k => (hρ k).1) n b, G.npf hρ n b h.2.2⟩
  | _, _, .thenIgnore a b, h => by
    rw [G.All] at h; rw [G.den]
    exact npf_concat2 ⟨G.nr (fun k => (hρ k).1) n a, G.npf hρ n a h.2.1⟩ ⟨G.nr (fun k => (hρ k).1) n b, G.npf hρ n b h.2.2⟩
  | _, _, .ignoreThen a b, h => by
    rw [G.All] at h; rw [G.den]
    exact npf_concat2 ⟨G.nr (fun k => (hρ k).1) n a, G.npf hρ n a h.2.1⟩ ⟨G.nr (fun k => (hρ k).1) n b, G.npf hρ n b h.2.2⟩
  | _, _, .delimitedBy l m r, h => by
    rw [G.All] at h; rw [G.den]
    exact npf_concat3 ⟨G.nr (fun k => (hρ k).1) n l, G.npf hρ n l h.2.1⟩
      ⟨G.nr (fun k => (hρ k).1) n m, G.npf hρ n m h.2.2.1⟩ ⟨G.nr (fun k => (hρ k).1) n r, G.npf hρ n r h.2.2.2⟩
  | _, _, .paddedBy p m, h => by
    rw [G.All] at h; rw [G.den]
    exact npf_concat3 ⟨G.nr (fun k => (hρ k).1) n p, G.npf hρ n p h.2.1⟩
      ⟨G.nr (fun k => (hρ k).1) n m, G.npf hρ n m h.2.2⟩ ⟨G.nr (fun k => (hρ k).1) n p, G.npf hρ n p h.2.1⟩
  | _, _, .chain gs, h => by rw [G.All] at h; rw [G.den]; exact npf_concat (GL.npf hρ n gs h.2)
  | _, _, .or a b, h => by
    rw [G.All] at h; rw [G.den]
    refine npf_alternate (Nat.le_refl _) fun q hq => ?_
    simp only [List.mem_cons, List.not_mem_nil, or_false] at hq
    rcases hq with rfl | rfl
    · exact ⟨G.nr (fun k => (hρ k).1) n a, G.npf hρ n a h.2.1⟩
    · exact ⟨G.nr (fun k => (hρ k).1) n b, G.npf hρ n b h.2.2⟩
  | _, _, .orNot g, h => by
    rw [G.All] at h; rw [G.den]
    refine npf_alternate (Nat.le_refl _) fun q hq => ?_
    simp only [List.mem_cons, List.not_mem_nil, or_false] at hq
    rcases hq with rfl | rfl
    · exact ⟨nr_map (G.nr (fun k => (hρ k).1) n g), npf_map (G.npf hρ n g h.2)⟩
    · exact ⟨nr_none, fun i m h => by cases h⟩
  | _, _, .alters gs, h => by
    rw [G.All] at h; rw [G.den]
    exact npf_alternate (by rw [GL.den_length]; exact h.1) (GL.npf hρ n gs h.2)
  | _, _, .repeated cfg item, h => by
    rw [G.All] at h; rw [G.den]
    exact fun i m => npf_repLoop ⟨G.nr (fun k => (hρ k).1) n item, G.npf hρ n item h.2⟩ (fun q h => by cases h) n _ _ _
  | _, _, .separatedBy cfg item sep, h => by
    rw [G.All] at h; rw [G.den]
    refine fun i m => npf_repLoop ⟨G.nr (fun k => (hρ k).1) n item, G.npf hρ n item h.2.1⟩ (fun q hq => ?_) n _ _ _
    cases hq
    exact ⟨G.nr (fun k => (hρ k).1) n sep, G.npf hρ n sep h.2.2⟩
  | _, _, .toRecover g st, h => by rw [G.All] at h; rw [G.den]; exact npf_toRecover (G.npf hρ n g h.2.1)
  | _, _, .call k, _ => by rw [G.den]; exact (hρ k).2

theorem GL.npf (hρ : ∀ k, NR (ρ k) ∧ NPF (ρ k)) (n : Nat) :
    ∀ {ε : ErrTy S} {α : Type} (gs : GL S N ε α), gs.All (calmOffL S N) → ∀ q ∈ gs.den e ρ n, NR q ∧ NPF q
  | _, _, .nil, _, q, h => by rw [GL.den] at h; cases h
  | _, _, .cons g gs, hc, q, h => by
    rw [GL.All] at hc
    rw [GL.den] at h
    rcases List.mem_cons.1 h with h | h
    · rw [h]; exact ⟨G.nr (fun k => (hρ k).1) n g, G.npf hρ n g hc.1⟩
    · exact GL.npf hρ n gs hc.2 q h

end

theorem callSem_npf {D : Defs S N} (hD : D.All (calmOffL S N)) (hd : ∀ k, (D k).isSome) :
    ∀ (n : Nat) (k : N.K), NPF (callSem e D n k)
  | 0, k => fun i m h => (by cases h)
  | n + 1, k => by
    obtain ⟨g, hg⟩ := Option.isSome_iff_exists.1 (hd k)
    have h1 := G.npf (e := e) (fun k => ⟨callSem_nr D n k, callSem_npf hD hd n k⟩) n g (hD k g hg)
    have he : callSem e D (n + 1) k = g.den e (callSem e D n) n := by
      funext en i; rw [callSem, hg]
    rw [he]; exact h1

theorem G.sem_npf {D : Defs S N} (hD : D.All (calmOffL S N)) (hd : ∀ k, (D k).isSome) (n : Nat)
    {ε : ErrTy S} {α : Type} (g : G S N ε α) (hg : g.All (calmOffL S N)) : NPF (g.sem e D n) :=
  G.npf (fun k => ⟨callSem_nr D n k, callSem_npf hD hd n k⟩) n g hg

end

end PPC
