import Verif.RunAt

/-!
# Choice on the positional semantics: lemmas
-/

namespace PPC

variable {S : Sig}

/-- The parsers of a list. -/
def GL.toList {S : Sig} {N : Names S} : {ε : ErrTy S} → {α : Type} → GL S N ε α → List (G S N ε α)
  | _, _, .nil => []
  | _, _, .cons g gs => g :: gs.toList

theorem GL.den_eq {N : Names S} {e : Env S} {ρ : QEnv S N} {n : Nat} {ε : ErrTy S} {α : Type} :
    (gs : GL S N ε α) → gs.den e ρ n = gs.toList.map fun g => g.den e ρ n
  | .nil => rfl
  | .cons g gs => by simp only [GL.den, GL.toList, List.map_cons, GL.den_eq gs]

/-! ## Stable sorting by descending index -/

/-- `ord` is `l` in order of preference: sorted by descending index, entries with the same
index in their original order. -/
structure Preferred {β : Type _} (l ord : List (Nat × β)) : Prop where
  perm : ord.Perm l
  sorted : ord.Pairwise fun a b => b.1 ≤ a.1
  stable : ∀ v, ord.filter (fun a => a.1 == v) = l.filter fun a => a.1 == v

theorem insertDesc_perm {β : Type _} (x : Nat × β) (l : List (Nat × β)) :
    (insertDesc x l).Perm (x :: l) := by
  induction l with
  | nil => exact List.Perm.refl _
  | cons y l ih =>
    unfold insertDesc
    split
    · exact List.Perm.refl _
    · exact (ih.cons y).trans (List.Perm.swap x y l)

theorem insertDesc_sorted {β : Type _} (x : Nat × β) {l : List (Nat × β)}
    (h : l.Pairwise fun a b => b.1 ≤ a.1) : (insertDesc x l).Pairwise fun a b => b.1 ≤ a.1 := by
  induction l with
  | nil => simp [insertDesc]
  | cons y l ih =>
    rw [List.pairwise_cons] at h
    unfold insertDesc
    split
    · rename_i hlt
      rw [List.pairwise_cons]
      refine ⟨?_, List.pairwise_cons.2 h⟩
      intro z hz
      rcases List.mem_cons.1 hz with rfl | hz
      · omega
      · have := h.1 z hz; omega
    · rename_i hlt
      rw [List.pairwise_cons]
      refine ⟨?_, ih h.2⟩
      intro z hz
      rcases mem_insertDesc.1 hz with rfl | hz
      · omega
      · exact h.1 z hz

theorem insertDesc_filter {β : Type _} (x : Nat × β) {l : List (Nat × β)}
    (h : l.Pairwise fun a b => b.1 ≤ a.1) (v : Nat) :
    (insertDesc x l).filter (fun a => a.1 == v) =
      l.filter (fun a => a.1 == v) ++ [x].filter fun a => a.1 == v := by
  induction l with
  | nil => simp [insertDesc]
  | cons y l ih =>
    rw [List.pairwise_cons] at h
    unfold insertDesc
    split
    · rename_i hlt
      by_cases hv : x.1 = v
      · have h1 : (y :: l).filter (fun a => a.1 == v) = [] := by
          rw [List.filter_eq_nil_iff]
          intro z hz
          rcases List.mem_cons.1 hz with rfl | hz
          · simp; omega
          · have := h.1 z hz; simp; omega
        rw [h1, List.filter_cons, h1]
        simp [hv]
      · rw [List.filter_cons]
        have hv' : (x.1 == v) = false := by simpa using hv
        simp [hv']
    · rw [List.filter_cons, List.filter_cons, ih h.2]
      split <;> rfl

theorem sortDesc_preferred {β : Type _} (l : List (Nat × β)) : Preferred l (sortDesc l) := by
  have key : ∀ (l acc : List (Nat × β)), acc.Pairwise (fun a b => b.1 ≤ a.1) →
      (l.foldl (fun acc x => insertDesc x acc) acc).Perm (acc ++ l) ∧
      (l.foldl (fun acc x => insertDesc x acc) acc).Pairwise (fun a b => b.1 ≤ a.1) ∧
      ∀ v, (l.foldl (fun acc x => insertDesc x acc) acc).filter (fun a => a.1 == v) =
        acc.filter (fun a => a.1 == v) ++ l.filter fun a => a.1 == v := by
    intro l
    induction l with
    | nil => intro acc h; simp [h]
    | cons x l ih =>
      intro acc h
      obtain ⟨h1, h2, h3⟩ := ih (insertDesc x acc) (insertDesc_sorted x h)
      refine ⟨?_, h2, fun v => ?_⟩
      · refine h1.trans (((insertDesc_perm x acc).append_right l).trans ?_)
        exact (List.perm_middle (l₁ := acc) (l₂ := l) (a := x)).symm
      · rw [List.foldl_cons, h3 v, insertDesc_filter x h v, List.append_assoc]
        rw [← List.filter_append]; rfl
  obtain ⟨h1, h2, h3⟩ := key l [] List.Pairwise.nil
  exact ⟨h1, h2, h3⟩

/-- The order of preference is unique. -/
theorem Preferred.unique {β : Type _} {l a b : List (Nat × β)} (ha : Preferred l a)
    (hb : Preferred l b) : a = b := by
  have key : ∀ (a b : List (Nat × β)), a.Pairwise (fun a b => b.1 ≤ a.1) →
      b.Pairwise (fun a b => b.1 ≤ a.1) →
      (∀ v, a.filter (fun x => x.1 == v) = b.filter fun x => x.1 == v) → a = b := by
    intro a
    induction a with
    | nil =>
      intro b _ _ h
      cases b with
      | nil => rfl
      | cons y b =>
        have := h y.1
        simp at this
    | cons x a ih =>
      intro b ha hb h
      cases b with
      | nil =>
        have := h x.1
        simp at this
      | cons y b =>
        rw [List.pairwise_cons] at ha hb
        have hmem : ∀ z, z ∈ x :: a ↔ z ∈ y :: b := by
          intro z
          have h1 := h z.1
          have h2 : z ∈ (x :: a).filter (fun w => w.1 == z.1) ↔
              z ∈ (y :: b).filter (fun w => w.1 == z.1) := by rw [h1]
          simpa only [List.mem_filter, beq_self_eq_true, and_true] using h2
        have hxy : x.1 = y.1 := by
          have h1 := (hmem x).1 List.mem_cons_self
          have h2 := (hmem y).2 List.mem_cons_self
          have h3 : x.1 ≤ y.1 := by
            rcases List.mem_cons.1 h1 with h1 | h1
            · rw [h1]; exact Nat.le_refl _
            · exact hb.1 x h1
          have h4 : y.1 ≤ x.1 := by
            rcases List.mem_cons.1 h2 with h2 | h2
            · rw [h2]; exact Nat.le_refl _
            · exact ha.1 y h2
          omega
        have h0 := h x.1
        rw [List.filter_cons_of_pos (by simp), List.filter_cons_of_pos (by simp [hxy])] at h0
        have hx : x = y := (List.cons.inj h0).1
        subst hx
        congr 1
        refine ih b ha.2 hb.2 fun v => ?_
        have h1 := h v
        by_cases hv : x.1 = v
        · rw [List.filter_cons_of_pos (by simp [hv]), List.filter_cons_of_pos (by simp [hv])] at h1
          exact (List.cons.inj h1).2
        · rw [List.filter_cons_of_neg (by simp [hv]), List.filter_cons_of_neg (by simp [hv])] at h1
          exact h1
  exact key a b ha.sorted hb.sorted fun v => by rw [ha.stable v, hb.stable v]

/-! ## The passes of a choice -/

variable {E α : Type}

/-- A failure ends where the parse started. -/
def RewindsAt (q : PSem E α) (en : Bool) (i : Nat) : Prop :=
  ∀ x es j, q en i = .ok (.failed x es, j) → j = i

theorem altFirst_success {qs : List (PSem E α)} {i : Nat} (hf : ∀ q ∈ qs, RewindsAt q false i) :
    ∀ {fs : List (FailSem E α)} {o : α} {j : Nat},
    altFirstSem qs fs i = .ok (.inl o, j) ↔
      ∃ (k : Nat) (q : PSem E α), qs[k]? = some q ∧ q false i = .ok (.success o, j) ∧
        ∀ m, m < k → ∀ q' : PSem E α, qs[m]? = some q' → ∃ x es, q' false i = .ok (.failed x es, i) := by
  induction qs with
  | nil => intro fs o j; simp [altFirstSem]
  | cons q qs ih =>
    intro fs o j
    have ih' := @ih (fun q hq => hf q (List.mem_cons_of_mem _ hq))
    simp only [altFirstSem, Out.bind_eq_ok]
    constructor
    · rintro ⟨⟨r, l⟩, h1, h2⟩
      cases r with
      | success o' =>
        cases h2
        exact ⟨0, q, rfl, h1, fun m hm => by omega⟩
      | recovered o' es => cases h2
      | failed x es =>
        have hl := hf q List.mem_cons_self _ _ _ h1
        subst hl
        obtain ⟨k, q', h3, h4, h5⟩ := ih'.1 h2
        refine ⟨k + 1, q', by simpa using h3, h4, fun m hm q'' hq'' => ?_⟩
        cases m with
        | zero =>
          simp at hq''
          subst hq''
          exact ⟨x, es, h1⟩
        | succ m => exact h5 m (by omega) q'' (by simpa using hq'')
    · rintro ⟨k, q', h3, h4, h5⟩
      cases k with
      | zero =>
        simp at h3
        subst h3
        exact ⟨_, h4, rfl⟩
      | succ k =>
        obtain ⟨x, es, h6⟩ := h5 0 (by omega) q rfl
        refine ⟨_, h6, ?_⟩
        exact ih'.2 ⟨k, q', by simpa using h3, h4, fun m hm q'' hq'' =>
          h5 (m + 1) (by omega) q'' (by simpa using hq'')⟩

theorem altFirst_all_fail {i : Nat} : ∀ {ps fs : List (FailSem E α)},
    (∀ p ∈ ps, p.2.2 false i = .ok (.failed p.1 p.2.1, i)) →
    altFirstSem (ps.map fun p => p.2.2) fs i = .ok (.inr (fs ++ ps), i) := by
  intro ps
  induction ps with
  | nil => intro fs _; simp [altFirstSem]
  | cons p ps ih =>
    intro fs h
    simp only [List.map_cons, altFirstSem]
    rw [h p List.mem_cons_self]
    simp only [Out.ok_bind]
    rw [ih fun q hq => h q (List.mem_cons_of_mem _ hq)]
    simp

theorem altRecover_isRecovered : ∀ {ps : List (FailSem E α)} {i : Nat} {r : Res α E} {j : Nat},
    altRecoverSem ps i = .ok (some r, j) → ∃ o es, r = .recovered o es := by
  intro ps
  induction ps with
  | nil => intro i r j h; cases h
  | cons p ps ih =>
    intro i r j h
    obtain ⟨x, es, q⟩ := p
    simp only [altRecoverSem, Out.bind_eq_ok] at h
    obtain ⟨⟨r', k⟩, h1, h2⟩ := h
    cases r' with
    | success o => cases h2
    | recovered o es => cases h2; exact ⟨o, es, rfl⟩
    | failed x es => exact ih h2

theorem altRecover_first {i : Nat} : ∀ {ps : List (FailSem E α)},
    (∀ p ∈ ps, RewindsAt p.2.2 true i) → ∀ {o : α} {es : List E} {j : Nat},
    altRecoverSem ps i = .ok (some (.recovered o es), j) ↔
      ∃ (k : Nat) (p : FailSem E α), ps[k]? = some p ∧ p.2.2 true i = .ok (.recovered o es, j) ∧
        ∀ m, m < k → ∀ p' : FailSem E α, ps[m]? = some p' → ∃ x es, p'.2.2 true i = .ok (.failed x es, i) := by
  intro ps
  induction ps with
  | nil => intro _ o es j; simp [altRecoverSem]
  | cons p ps ih =>
    intro hf o es j
    obtain ⟨px, pes, q⟩ := p
    have ih' := @ih (fun q hq => hf q (List.mem_cons_of_mem _ hq))
    simp only [altRecoverSem, Out.bind_eq_ok]
    constructor
    · rintro ⟨⟨r, l⟩, h1, h2⟩
      cases r with
      | success o' => cases h2
      | recovered o' es' =>
        cases h2
        exact ⟨0, _, rfl, h1, fun m hm => by omega⟩
      | failed x es' =>
        have hl := hf _ List.mem_cons_self _ _ _ h1
        subst hl
        obtain ⟨k, q', h3, h4, h5⟩ := ih'.1 h2
        refine ⟨k + 1, q', by simpa using h3, h4, fun m hm q'' hq'' => ?_⟩
        cases m with
        | zero =>
          simp at hq''
          subst hq''
          exact ⟨x, es', h1⟩
        | succ m => exact h5 m (by omega) q'' (by simpa using hq'')
    · rintro ⟨k, q', h3, h4, h5⟩
      cases k with
      | zero =>
        simp at h3
        subst h3
        exact ⟨_, h4, rfl⟩
      | succ k =>
        obtain ⟨x, es', h6⟩ := h5 0 (by omega) _ rfl
        refine ⟨_, h6, ?_⟩
        exact ih'.2 ⟨k, q', by simpa using h3, h4, fun m hm q'' hq'' =>
          h5 (m + 1) (by omega) q'' (by simpa using hq'')⟩

theorem altRecover_none {i : Nat} : ∀ {ps : List (FailSem E α)},
    (∀ p ∈ ps, ∃ x es, p.2.2 true i = .ok (.failed x es, i)) →
    altRecoverSem ps i = .ok (none, i) := by
  intro ps
  induction ps with
  | nil => intro _; rfl
  | cons p ps ih =>
    intro h
    obtain ⟨px, pes, q⟩ := p
    obtain ⟨x, es, h1⟩ := h _ List.mem_cons_self
    simp only at h1
    simp only [altRecoverSem, h1, Out.ok_bind]
    exact ih fun p hp => h p (List.mem_cons_of_mem _ hp)

theorem qAlternate_success {ε : ErrTy S} {qs : List (PSem ε.E α)} {en : Bool} {i : Nat} {o : α} {j : Nat} :
    qAlternate ε qs en i = .ok (.success o, j) ↔ altFirstSem qs [] i = .ok (.inl o, j) := by
  constructor
  · intro h
    simp only [qAlternate, Out.bind_eq_ok] at h
    obtain ⟨⟨r, l⟩, h1, h2⟩ := h
    cases r with
    | inl o' => cases h2; exact h1
    | inr fs =>
      exfalso
      simp only at h2
      split at h2
      · cases h2
      · split at h2
        · rw [Out.bind_eq_ok] at h2
          obtain ⟨⟨r2, l2⟩, h3, h4⟩ := h2
          cases r2 with
          | some r2 =>
            obtain ⟨o', es, rfl⟩ := altRecover_isRecovered h3
            cases h4
          | none =>
            obtain ⟨_, x, es, hh, _⟩ := altCombine_failed h4
            cases hh
        · obtain ⟨_, x, es, hh, _⟩ := altCombine_failed h2
          cases hh
  · intro h
    simp only [qAlternate, h, Out.ok_bind]

end PPC
