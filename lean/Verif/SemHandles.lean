import Verif.SpecHandles

/-!
# Reference counts

Helper lemmas for C54: the reference count of an allocation is the number of handles.
-/

namespace PPC.Own

/-- The reference count. -/
def strongAt (h : List Cell) (i : Nat) : Nat := match h[i]? with
  | some c => c.strong
  | none => 0

/-- All handles inside of allocations. -/
abbrev inner (h : List Cell) : List Nat := h.flatMap Cell.refs

theorem inner_set {h : List Cell} {i : Nat} {c c' : Cell} (hi : h[i]? = some c) (j : Nat) :
    (inner (h.set i c')).count j + c.refs.count j = (inner h).count j + c'.refs.count j := by
  induction h generalizing i with
  | nil => simp at hi
  | cons d h ih =>
    cases i with
    | zero => simp at hi; subst hi; simp [inner]; omega
    | succ i =>
      simp at hi
      have := ih hi
      simp [inner] at this ⊢
      omega

theorem strongAt_some {h : List Cell} {i : Nat} {c : Cell} (hi : h[i]? = some c) : strongAt h i = c.strong := by
  simp [strongAt, hi]

theorem strongAt_set {h : List Cell} {i : Nat} {c c' : Cell} (hi : h[i]? = some c) (j : Nat) :
    strongAt (h.set i c') j = if j = i then c'.strong else strongAt h j := by
  have hlt : i < h.length := by
    rcases Nat.lt_or_ge i h.length with h1 | h1
    · exact h1
    · rw [List.getElem?_eq_none h1] at hi; cases hi
  unfold strongAt
  rw [List.getElem?_set]
  by_cases hj : i = j
  · subst hj; simp [hlt]
  · simp [hj, Ne.symm hj]

theorem strongAt_append {h : List Cell} {c : Cell} (j : Nat) :
    strongAt (h ++ [c]) j = if j = h.length then c.strong else strongAt h j := by
  unfold strongAt
  rw [List.getElem?_append]
  by_cases hj : j < h.length
  · rw [if_pos hj, if_neg (by omega)]
  · rw [if_neg hj]
    by_cases hj2 : j = h.length
    · subst hj2; simp
    · rw [if_neg hj2, List.getElem?_eq_none (by simp; omega), List.getElem?_eq_none (by omega)]

/-- `u` are the handles outside of allocations. -/
structure Counted (h : List Cell) (u : List Nat) : Prop where
  count : ∀ i, strongAt h i = (inner h).count i + u.count i
  dead : ∀ (i : Nat) (c : Cell), h[i]? = some c → c.strong = 0 → c.refs = []

theorem Counted.perm {h : List Cell} {u u' : List Nat} (hi : Counted h u) (hu : ∀ i, u.count i = u'.count i) : Counted h u' :=
  ⟨fun i => by rw [hi.count, hu], hi.dead⟩

theorem set_get {h : List Cell} {i j : Nat} {c c' d : Cell} (hi : h[i]? = some c) (hj : (h.set i c')[j]? = some d) :
    (j = i ∧ d = c') ∨ (j ≠ i ∧ h[j]? = some d) := by
  rw [List.getElem?_set] at hj
  by_cases hij : i = j
  · subst hij
    rw [if_pos rfl] at hj
    split at hj
    · exact .inl ⟨rfl, (Option.some.inj hj).symm⟩
    · cases hj
  · rw [if_neg hij] at hj
    exact .inr ⟨Ne.symm hij, hj⟩

theorem Counted.decrement {h : List Cell} {i n : Nat} {u : List Nat} {c : Cell} (hi : Counted h (i :: u)) (hc : h[i]? = some c)
    (hs : c.strong = n + 2) : Counted (h.set i { c with strong := n + 1 }) u where
  count j := by
    have h1 := hi.count j
    have h2 := inner_set (c' := { c with strong := n + 1 }) hc j
    have h3 := strongAt_some hc
    rw [strongAt_set hc]
    simp only [List.count_cons, beq_iff_eq] at h1
    by_cases hj : j = i
    · subst hj; simp at h1 h2 ⊢; omega
    · rw [if_neg hj]; rw [if_neg (Ne.symm hj)] at h1; simp at h1 h2 ⊢; omega
  dead j d hd hz := by
    rcases set_get hc hd with ⟨rfl, rfl⟩ | ⟨h1, h2⟩
    · simp at hz
    · exact hi.dead j d h2 hz

theorem Counted.free {h : List Cell} {i : Nat} {u : List Nat} {c : Cell} (hi : Counted h (i :: u)) (hc : h[i]? = some c)
    (hs : c.strong = 1) : Counted (h.set i { c with strong := 0, refs := [] }) (c.refs ++ u) where
  count j := by
    have h1 := hi.count j
    have h2 := inner_set (c' := { c with strong := 0, refs := [] }) hc j
    have h3 := strongAt_some hc
    rw [strongAt_set hc]
    simp only [List.count_cons, List.count_append, beq_iff_eq] at h1 ⊢
    by_cases hj : j = i
    · subst hj; simp at h1 h2 ⊢; omega
    · rw [if_neg hj]; rw [if_neg (Ne.symm hj)] at h1; simp at h1 h2 ⊢; omega
  dead j d hd hz := by
    rcases set_get hc hd with ⟨rfl, rfl⟩ | ⟨h1, h2⟩
    · rfl
    · exact hi.dead j d h2 hz

theorem Counted.alive {h : List Cell} {i : Nat} {u : List Nat} (hi : Counted h u) (hm : i ∈ inner h ∨ i ∈ u) :
    ∃ c, h[i]? = some c ∧ 0 < c.strong := by
  have h1 : 0 < strongAt h i := by
    rw [hi.count]
    rcases hm with hm | hm <;> (have := List.count_pos_iff.2 hm; omega)
  unfold strongAt at h1
  cases hc : h[i]? with
  | none => simp [hc] at h1
  | some c => simp [hc] at h1; exact ⟨c, rfl, h1⟩

theorem release_cons (h : List Cell) (i : Nat) (w : List Nat) : release h (i :: w) = match h[i]? with
    | none => release h w
    | some c => match c.strong with
      | 0 => release h w
      | 1 => release (h.set i { c with strong := 0, refs := [] }) (c.refs ++ w)
      | n + 2 => release (h.set i { c with strong := n + 1 }) w := by
  rw [release.eq_def]
  simp only []
  split
  · rename_i hc; rw [hc]
  · rename_i c hc
    rw [hc]
    split <;> simp_all only []

theorem release_nil (h : List Cell) : release h [] = h := by rw [release.eq_def]

/-- What every step of dropping handles preserves is preserved by dropping. -/
theorem release_induct {P : List Cell → Prop} (hd : ∀ h i n u c, Counted h (i :: u) → h[i]? = some c → c.strong = n + 2 → P h →
      P (h.set i { c with strong := n + 1 }))
    (hf : ∀ h i u c, Counted h (i :: u) → h[i]? = some c → c.strong = 1 → P h →
      P (h.set i { c with strong := 0, refs := [] })) {u : List Nat} :
    ∀ h w, Counted h (w ++ u) → P h → Counted (release h w) u ∧ P (release h w) := by
  intro h w
  induction h, w using release.induct with
  | case1 h => intro hi hp; unfold release; exact ⟨hi, hp⟩
  | case2 h i w hn ih =>
    intro hi _
    obtain ⟨c, hc, _⟩ := hi.alive (i := i) (.inr (by simp))
    rw [hn] at hc; cases hc
  | case3 h i w c hc hs ih =>
    intro hi _
    obtain ⟨c', hc', hp⟩ := hi.alive (i := i) (.inr (by simp))
    rw [hc] at hc'; cases hc'; omega
  | case4 h i w c hc hs ih =>
    intro hi hp
    have h1 := ih (by rw [List.append_assoc]; exact hi.free hc hs) (hf h i (w ++ u) c hi hc hs hp)
    unfold release
    split
    · rename_i hn; rw [hc] at hn; cases hn
    · rename_i c' hc'
      rw [hc] at hc'; cases hc'
      split
      · omega
      · exact h1
      · omega
  | case5 h i w c hc n hs ih =>
    intro hi hp
    have h1 := ih (hi.decrement hc hs) (hd h i n (w ++ u) c hi hc hs hp)
    unfold release
    split
    · rename_i hn; rw [hc] at hn; cases hn
    · rename_i c' hc'
      rw [hc] at hc'; cases hc'
      split
      · omega
      · omega
      · rename_i m hm
        have : m = n := by omega
        subst this
        exact h1

theorem release_inv {h : List Cell} {w u : List Nat} (hi : Counted h (w ++ u)) : Counted (release h w) u :=
  (release_induct (P := fun _ => True) (fun _ _ _ _ _ _ _ _ _ => trivial) (fun _ _ _ _ _ _ _ _ => trivial) h w hi trivial).1

theorem Counted.increment {h : List Cell} {i : Nat} {u : List Nat} {c : Cell} (hi : Counted h u) (hc : h[i]? = some c)
    (_ : 0 < c.strong) : Counted (h.set i { c with strong := c.strong + 1 }) (i :: u) where
  count j := by
    have h1 := hi.count j
    have h2 := inner_set (c' := { c with strong := c.strong + 1 }) hc j
    have h3 := strongAt_some hc
    rw [strongAt_set hc]
    simp only [List.count_cons, beq_iff_eq]
    by_cases hj : j = i
    · subst hj; simp at h1 h2 ⊢; omega
    · rw [if_neg hj, if_neg (Ne.symm hj)]; simp at h1 h2 ⊢; omega
  dead j d hd hz := by
    rcases set_get hc hd with ⟨rfl, rfl⟩ | ⟨h1, h2⟩
    · simp at hz
    · exact hi.dead j d h2 hz

theorem retain_inv : ∀ {w : List Nat} {h : List Cell} {u : List Nat}, Counted h u → (∀ i ∈ w, 0 < strongAt h i) →
    Counted (retain h w) (w ++ u)
  | [], _, _, hi, _ => hi
  | i :: w, h, u, hi, hw => by
    have h0 := hw i (by simp)
    unfold retain
    cases hc : h[i]? with
    | none => simp [strongAt, hc] at h0
    | some c =>
      rw [strongAt_some hc] at h0
      refine (retain_inv (hi.increment hc h0) fun j hj => ?_).perm fun j => by simp [List.count_cons]; omega
      rw [strongAt_set hc]
      split
      · exact Nat.succ_pos _
      · exact hw j (by simp [hj])

theorem flatten_set {o : List (List Nat)} {k : Nat} {v v' : List Nat} (hk : o[k]? = some v) (j : Nat) :
    (o.set k v').flatten.count j + v.count j = o.flatten.count j + v'.count j := by
  induction o generalizing k with
  | nil => simp at hk
  | cons x o ih =>
    cases k with
    | zero => simp at hk; subst hk; simp; omega
    | succ k =>
      simp at hk
      have := ih hk
      simp at this ⊢
      omega

theorem moveOut_count (j : Nat) : ∀ {ks : List Nat} {o : List (List Nat)},
    (moveOut o ks).1.count j + (moveOut o ks).2.flatten.count j = o.flatten.count j
  | [], o => by simp [moveOut]
  | k :: ks, o => by
    have ih := moveOut_count j (ks := ks) (o := o)
    simp only [moveOut, List.count_append]
    cases hk : (moveOut o ks).2[k]? with
    | none =>
      rw [List.set_eq_of_length_le (by
        rcases Nat.lt_or_ge k (moveOut o ks).2.length with h1 | h1
        · rw [List.getElem?_eq_getElem h1] at hk; cases hk
        · exact h1)]
      simp; omega
    | some v =>
      have := flatten_set (v' := []) hk j
      simp at this ⊢; omega

theorem Counted.push {h : List Cell} {u v : List Nat} {b : Bool} (hi : Counted h (v ++ u)) :
    Counted (h ++ [⟨b, 1, v⟩]) (h.length :: u) where
  count j := by
    have h1 := hi.count j
    rw [strongAt_append]
    simp only [inner, List.flatMap_append, List.count_append, List.count_cons, beq_iff_eq] at h1 ⊢
    by_cases hj : j = h.length
    · subst hj
      have h2 : strongAt h h.length = 0 := by simp [strongAt]
      simp at h1 ⊢; omega
    · rw [if_neg hj, if_neg (Ne.symm hj)]; simp at h1 ⊢; omega
  dead j d hd hz := by
    rw [List.getElem?_append] at hd
    split at hd
    · exact hi.dead j d hd hz
    · have := List.mem_of_getElem? hd
      simp at this; subst this; simp at hz

/-- Putting a box into a recursive parser. -/
theorem Counted.fill {h : List Cell} {u w : List Nat} {i : Nat} {c : Cell} (hi : Counted h (w ++ u)) (hc : h[i]? = some c)
    (hs : 0 < c.strong) : Counted (h.set i { c with refs := w }) (c.refs ++ u) where
  count j := by
    have h1 := hi.count j
    have h2 := inner_set (c' := { c with refs := w }) hc j
    have h3 := strongAt_some hc
    rw [strongAt_set hc]
    simp only [List.count_append] at h1 ⊢
    by_cases hj : j = i
    · subst hj; simp at h1 h2 ⊢; omega
    · rw [if_neg hj]; simp at h1 h2 ⊢; omega
  dead j d hd hz := by
    rcases set_get hc hd with ⟨rfl, rfl⟩ | ⟨h1, h2⟩
    · simp at hz; omega
    · exact hi.dead j d h2 hz

end PPC.Own
