import Verif.SemHandles

/-!
# Histories of handles

Helper lemmas for C54: what every step preserves.
-/

namespace PPC.Own

/-- What is true of every state: the counts are right. -/
abbrev State.Ok (s : State) : Prop := Counted s.heap s.owned.flatten

theorem state_alive {s : State} (hs : s.Ok) {k : Nat} {v : List Nat} (hk : s.owned[k]? = some v) :
    ∀ i ∈ v, 0 < strongAt s.heap i := by
  intro i hi
  obtain ⟨c, hc, hp⟩ := Counted.alive hs (i := i) (.inr (List.mem_flatten.2 ⟨v, List.mem_of_getElem? hk, hi⟩))
  rw [strongAt_some hc]; exact hp

/-- What is preserved by the changes of the heap that a step is made of is preserved by the step. -/
structure Kept (P : List Cell → Prop) : Prop where
  dec : ∀ h i n u c, Counted h (i :: u) → h[i]? = some c → c.strong = n + 2 → P h → P (h.set i { c with strong := n + 1 })
  free : ∀ h i u c, Counted h (i :: u) → h[i]? = some c → c.strong = 1 → P h → P (h.set i { c with strong := 0, refs := [] })
  inc : ∀ h i c, h[i]? = some c → P h → P (h.set i { c with strong := c.strong + 1 })

theorem Kept.retain {P : List Cell → Prop} (hP : Kept P) : ∀ {w : List Nat} {h : List Cell}, P h →
    P (retain h w)
  | [], _, hp => hp
  | i :: w, h, hp => by
    unfold Own.retain
    cases hc : h[i]? with
    | none => exact Kept.retain hP hp
    | some c => exact Kept.retain hP (hP.inc h i c hc hp)

theorem Kept.release {P : List Cell → Prop} (hP : Kept P) {w u : List Nat} {h : List Cell}
    (hi : Counted h (w ++ u)) (hp : P h) : P (release h w) :=
  (release_induct hP.dec hP.free h w hi hp).2

theorem define_counted {s : State} (hs : s.Ok) {k l i : Nat} {v : List Nat} {c : Cell} (hk : s.owned[k]? = some [i])
    (hl : s.owned[l]? = some v) (hc : s.heap[i]? = some c) (hp : 0 < c.strong) :
    Counted (s.heap.set i { c with refs := [s.heap.length] } ++ [⟨false, 1, v⟩]) (c.refs ++ (s.owned.set l []).flatten) := by
  have h1 : Counted s.heap (v ++ (s.owned.set l []).flatten) := Counted.perm hs fun j => by
    have := flatten_set (v' := []) hl j
    simp at this ⊢; omega
  have h2 := Counted.push (b := false) h1
  have hlt : i < s.heap.length := by
    rcases Nat.lt_or_ge i s.heap.length with h | h
    · exact h
    · rw [List.getElem?_eq_none h] at hc; cases hc
  have h3 := Counted.fill (w := [s.heap.length]) (i := i) (c := c) (by simpa using h2)
    (by rw [List.getElem?_append_left hlt]; exact hc) hp
  rw [List.set_append_left _ _ hlt] at h3
  exact h3

theorem step_ok {s s' : State} {o : Op} {p : Option String} (hs : s.Ok) (h : step s o = some (p, s')) : s'.Ok := by
  cases o with
  | declare =>
    simp only [step, Option.some.injEq, Prod.mk.injEq] at h
    obtain ⟨_, rfl⟩ := h
    exact (Counted.push (b := true) (v := []) hs).perm fun j => by simp [List.count_cons]
  | clone k =>
    simp only [step] at h
    cases hk : s.owned[k]? with
    | none => simp [hk] at h
    | some v =>
      simp only [hk, Option.some.injEq, Prod.mk.injEq] at h
      obtain ⟨_, rfl⟩ := h
      exact (retain_inv hs (state_alive hs hk)).perm fun j => by simp; omega
  | combine ks =>
    simp only [step, Option.some.injEq, Prod.mk.injEq] at h
    obtain ⟨_, rfl⟩ := h
    exact Counted.perm hs fun j => by
      have := moveOut_count j (ks := ks) (o := s.owned)
      simp; omega
  | boxed k =>
    simp only [step] at h
    cases hk : s.owned[k]? with
    | none => simp [hk] at h
    | some v =>
      simp only [hk, Option.some.injEq, Prod.mk.injEq] at h
      obtain ⟨_, rfl⟩ := h
      have h1 : Counted s.heap (v ++ (s.owned.set k []).flatten) := Counted.perm hs fun j => by
        have := flatten_set (v' := []) hk j
        simp at this ⊢; omega
      exact (Counted.push (b := false) h1).perm fun j => by simp [List.count_cons]
  | define k l =>
    simp only [step] at h
    split at h
    · rename_i i v hk hl
      split at h
      · rename_i c hc
        split at h
        · simp only [Option.some.injEq, Prod.mk.injEq] at h
          obtain ⟨_, rfl⟩ := h
          have hp := state_alive hs hk i (by simp)
          rw [strongAt_some hc] at hp
          exact release_inv (define_counted hs hk hl hc hp)
        · cases h
      · cases h
    · cases h
  | drop k =>
    simp only [step] at h
    cases hk : s.owned[k]? with
    | none => simp [hk] at h
    | some v =>
      simp only [hk, Option.some.injEq, Prod.mk.injEq] at h
      obtain ⟨_, rfl⟩ := h
      refine release_inv (Counted.perm hs fun j => ?_)
      have := flatten_set (v' := []) hk j
      simp at this ⊢; omega

theorem run_ok {s s' : State} {os : List Op} (hs : s.Ok) (h : run s os = some s') : s'.Ok := by
  induction os generalizing s with
  | nil => cases h; exact hs
  | cons o os ih =>
    unfold run at h
    cases ho : step s o with
    | none => simp [ho] at h
    | some q =>
      obtain ⟨p, t⟩ := q
      simp only [ho] at h
      exact ih (step_ok hs ho) h

theorem init_ok : init.Ok := ⟨fun i => by simp [init, strongAt], fun i c h => by simp [init] at h⟩

theorem reachable_alive {s : State} (hs : s.Ok) {i : Nat} (h : Reachable s i) : Alive s i := by
  cases h with
  | owned hv hi => exact Counted.alive hs (.inr (List.mem_flatten.2 ⟨_, hv, hi⟩))
  | inside hk hc hi => exact Counted.alive hs (.inl (List.mem_flatMap.2 ⟨_, List.mem_of_getElem? hc, hi⟩))

/-! ## Paths -/

theorem LeadsTo.trans {h : List Cell} {v : List Nat} {x y : Nat} {c : Cell} (hx : LeadsTo h v x) (hc : h[x]? = some c)
    (hy : LeadsTo h c.refs y) : LeadsTo h v y := by
  induction hx with
  | here hi => exact .inside hi hc hy
  | inside hk hd _ ih => exact .inside hk hd (ih hc)

theorem LeadsTo.last {h : List Cell} {v : List Nat} {y : Nat} (hy : LeadsTo h v y) :
    y ∈ v ∨ ∃ x c, LeadsTo h v x ∧ h[x]? = some c ∧ y ∈ c.refs := by
  induction hy with
  | here hi => exact .inl hi
  | inside hk hd _ ih =>
    rcases ih with ih | ⟨x, c, h1, h2, h3⟩
    · exact .inr ⟨_, _, .here hk, hd, ih⟩
    · exact .inr ⟨x, c, .inside hk hd h1, h2, h3⟩

/-! ## Histories in which nothing is recursive -/

/-- The contents of an allocation come after it. -/
def Ordered (r : Nat → Nat) (h : List Cell) : Prop := ∀ (i : Nat) (c : Cell), h[i]? = some c → ∀ j ∈ c.refs, r i < r j

theorem Ordered.kept (r : Nat → Nat) : Kept (Ordered r) where
  dec h i n u c _ hc _ hp j d hd k hk := by
    rcases set_get hc hd with ⟨rfl, rfl⟩ | ⟨_, h2⟩
    · exact hp _ c hc k hk
    · exact hp j d h2 k hk
  free h i u c _ hc _ hp j d hd k hk := by
    rcases set_get hc hd with ⟨rfl, rfl⟩ | ⟨_, h2⟩
    · simp at hk
    · exact hp j d h2 k hk
  inc h i c hc hp j d hd k hk := by
    rcases set_get hc hd with ⟨rfl, rfl⟩ | ⟨_, h2⟩
    · exact hp _ c hc k hk
    · exact hp j d h2 k hk

theorem get_push {h : List Cell} {c d : Cell} {j : Nat} (hd : (h ++ [c])[j]? = some d) :
    (j < h.length ∧ h[j]? = some d) ∨ (j = h.length ∧ d = c) := by
  rw [List.getElem?_append] at hd
  split at hd
  · rename_i hj; exact .inl ⟨hj, hd⟩
  · rename_i hj
    have h1 : j - h.length = 0 := by
      rcases Nat.eq_zero_or_pos (j - h.length) with h1 | h1
      · exact h1
      · rw [List.getElem?_eq_none (by simp; omega)] at hd; cases hd
    rw [h1] at hd
    exact .inr ⟨by omega, by simpa using hd.symm⟩

theorem Counted.lt {h : List Cell} {u : List Nat} (hs : Counted h u) {j : Nat} {d : Cell} (hd : h[j]? = some d) {k : Nat}
    (hk : k ∈ d.refs) : k < h.length := by
  obtain ⟨c, hc, _⟩ := hs.alive (i := k) (.inl (List.mem_flatMap.2 ⟨_, List.mem_of_getElem? hd, hk⟩))
  rcases Nat.lt_or_ge k h.length with h1 | h1
  · exact h1
  · rw [List.getElem?_eq_none h1] at hc; cases hc

theorem State.Ok.lt {s : State} (hs : s.Ok) {k : Nat} {v : List Nat} (hk : s.owned[k]? = some v) {i : Nat} (hi : i ∈ v) :
    i < s.heap.length := by
  have h1 := state_alive hs hk i hi
  rcases Nat.lt_or_ge i s.heap.length with h | h
  · exact h
  · simp [strongAt, List.getElem?_eq_none h] at h1

open Classical in
theorem step_ordered {s s' : State} {o : Op} {p : Option String} (hs : s.Ok) (hn : NotRecursive s o)
    (ho : ∃ r, Ordered r s.heap) (h : step s o = some (p, s')) : ∃ r, Ordered r s'.heap := by
  obtain ⟨r, hr⟩ := ho
  cases o with
  | declare =>
    simp only [step, Option.some.injEq, Prod.mk.injEq] at h
    obtain ⟨_, rfl⟩ := h
    refine ⟨r, fun j d hd k hk => ?_⟩
    rcases get_push hd with ⟨_, h1⟩ | ⟨_, rfl⟩
    · exact hr j d h1 k hk
    · simp at hk
  | clone k =>
    simp only [step] at h
    cases hk : s.owned[k]? with
    | none => simp [hk] at h
    | some v =>
      simp only [hk, Option.some.injEq, Prod.mk.injEq] at h
      obtain ⟨_, rfl⟩ := h
      exact ⟨r, (Ordered.kept r).retain hr⟩
  | combine ks =>
    simp only [step, Option.some.injEq, Prod.mk.injEq] at h
    obtain ⟨_, rfl⟩ := h
    exact ⟨r, hr⟩
  | boxed k =>
    simp only [step] at h
    cases hk : s.owned[k]? with
    | none => simp [hk] at h
    | some v =>
      simp only [hk, Option.some.injEq, Prod.mk.injEq] at h
      obtain ⟨_, rfl⟩ := h
      refine ⟨fun x => if x = s.heap.length then 0 else r x + 1, fun j d hd x hx => ?_⟩
      rcases get_push hd with ⟨h0, h1⟩ | ⟨rfl, rfl⟩
      · have h2 := Counted.lt hs h1 hx
        have h3 := hr j d h1 x hx
        simp only [if_neg (Nat.ne_of_lt h0), if_neg (Nat.ne_of_lt h2)]; omega
      · have h2 := State.Ok.lt hs hk hx
        simp only [if_neg (Nat.ne_of_lt h2), if_true]; omega
  | define k l =>
    simp only [step] at h
    split at h
    · rename_i i v hk hl
      split at h
      · rename_i c hc
        split at h
        · simp only [Option.some.injEq, Prod.mk.injEq] at h
          obtain ⟨_, rfl⟩ := h
          have hp := state_alive hs hk i (by simp)
          rw [strongAt_some hc] at hp
          have hi := State.Ok.lt hs hk (i := i) (by simp)
          have hni : ¬LeadsTo s.heap v i := hn i v hk hl
          refine ⟨fun x => if x = s.heap.length then r i + 1 else if LeadsTo s.heap v x then r x + r i + 2 else r x, ?_⟩
          refine (Ordered.kept _).release (define_counted hs hk hl hc hp) fun j d hd x hx => ?_
          rcases get_push hd with ⟨h0, h1⟩ | ⟨h1, rfl⟩
          · simp only [List.length_set] at h0
            rcases set_get hc h1 with ⟨rfl, rfl⟩ | ⟨_, h2⟩
            · simp at hx
              subst hx
              simp only [if_neg (Nat.ne_of_lt h0), if_neg hni, if_true]; omega
            · have h3 := Counted.lt hs h2 hx
              have h4 := hr j d h2 x hx
              simp only [if_neg (Nat.ne_of_lt h0), if_neg (Nat.ne_of_lt h3)]
              by_cases h5 : LeadsTo s.heap v j
              · rw [if_pos h5, if_pos (h5.trans h2 (.here hx))]; omega
              · rw [if_neg h5]; split <;> omega
          · simp only [List.length_set] at h1
            subst h1
            have h2 := State.Ok.lt hs hl hx
            simp only [if_neg (Nat.ne_of_lt h2), if_pos (LeadsTo.here hx : LeadsTo s.heap v x), if_true]; omega
        · cases h
      · cases h
    · cases h
  | drop k =>
    simp only [step] at h
    cases hk : s.owned[k]? with
    | none => simp [hk] at h
    | some v =>
      simp only [hk, Option.some.injEq, Prod.mk.injEq] at h
      obtain ⟨_, rfl⟩ := h
      refine ⟨r, (Ordered.kept r).release (u := (s.owned.set k []).flatten) (Counted.perm hs fun j => ?_) hr⟩
      have := flatten_set (v' := []) hk j
      simp at this ⊢; omega

theorem run_ordered {s s' : State} {os : List Op} (hs : s.Ok) (hn : NeverRecursive s os) (ho : ∃ r, Ordered r s.heap)
    (h : run s os = some s') : ∃ r, Ordered r s'.heap := by
  induction os generalizing s with
  | nil => cases h; exact ho
  | cons o os ih =>
    unfold run at h
    cases hq : step s o with
    | none => simp [hq] at h
    | some q =>
      obtain ⟨p, t⟩ := q
      simp only [hq] at h
      exact ih (step_ok hs hq) (hn.2 p t hq) (step_ordered hs hn.1 ho hq) h

theorem alive_reachable {s : State} (hs : s.Ok) {r : Nat → Nat} (hr : Ordered r s.heap) {i : Nat} (h : Alive s i) :
    Reachable s i := by
  generalize hn : r i = n
  induction n using Nat.strongRecOn generalizing i with
  | ind n ih =>
    obtain ⟨c, hc, hp⟩ := h
    have h1 := hs.count i
    rw [strongAt_some hc] at h1
    rcases Nat.eq_zero_or_pos (s.owned.flatten.count i) with h2 | h2
    · have h3 : 0 < (inner s.heap).count i := by omega
      obtain ⟨d, hd, hi⟩ := List.mem_flatMap.1 (List.count_pos_iff.1 h3)
      obtain ⟨k, hk⟩ := List.getElem?_of_mem hd
      refine .inside (ih (r k) (by subst hn; exact hr k d hk i hi) ⟨d, hk, ?_⟩ rfl) hk hi
      rcases Nat.eq_zero_or_pos d.strong with h4 | h4
      · rw [hs.dead k d hk h4] at hi; simp at hi
      · exact h4
    · obtain ⟨v, hv, hi⟩ := List.mem_flatten.1 (List.count_pos_iff.1 h2)
      exact .owned hv hi

/-! ## Parsers that are defined in terms of themselves -/

/-- Everything in `T` is held by something in `T`. -/
def Held (T : Nat → Prop) (h : List Cell) : Prop := ∀ y, T y → ∃ x c, T x ∧ h[x]? = some c ∧ y ∈ c.refs

theorem Held.set {T : Nat → Prop} {h : List Cell} {i : Nat} {c c' : Cell} (hp : Held T h) (hc : h[i]? = some c)
    (hr : T i → c'.refs = c.refs) : Held T (h.set i c') := by
  intro y hy
  obtain ⟨x, d, h1, h2, h3⟩ := hp y hy
  by_cases hx : x = i
  · subst hx
    rw [h2] at hc; cases hc
    refine ⟨x, c', h1, ?_, by rw [hr h1]; exact h3⟩
    rw [List.getElem?_set_self]
    rcases Nat.lt_or_ge x h.length with h4 | h4
    · exact h4
    · rw [List.getElem?_eq_none h4] at h2; cases h2
  · exact ⟨x, d, h1, by rw [List.getElem?_set_ne (Ne.symm hx)]; exact h2, h3⟩

theorem Held.push {T : Nat → Prop} {h : List Cell} {c : Cell} (hp : Held T h) : Held T (h ++ [c]) := by
  intro y hy
  obtain ⟨x, d, h1, h2, h3⟩ := hp y hy
  refine ⟨x, d, h1, ?_, h3⟩
  rw [List.getElem?_append_left]
  · exact h2
  · rcases Nat.lt_or_ge x h.length with h4 | h4
    · exact h4
    · rw [List.getElem?_eq_none h4] at h2; cases h2

theorem Held.kept (T : Nat → Prop) : Kept (Held T) where
  dec h i n u c _ hc _ hp := hp.set hc fun _ => rfl
  free h i u c hi hc hs hp := hp.set hc fun ht => by
    obtain ⟨x, d, _, h2, h3⟩ := hp i ht
    have h4 := hi.count i
    rw [strongAt_some hc] at h4
    have h5 : 0 < (inner h).count i := List.count_pos_iff.2 (List.mem_flatMap.2 ⟨_, List.mem_of_getElem? h2, h3⟩)
    simp at h4; omega
  inc h i c hc hp := hp.set hc fun _ => rfl

theorem step_held {s s' : State} {o : Op} {T : Nat → Prop} (hs : s.Ok) (hp : Held T s.heap)
    (h : step s o = some (none, s')) : Held T s'.heap := by
  cases o with
  | declare =>
    simp only [step, Option.some.injEq, Prod.mk.injEq] at h
    obtain ⟨_, rfl⟩ := h
    exact hp.push
  | clone k =>
    simp only [step] at h
    cases hk : s.owned[k]? with
    | none => simp [hk] at h
    | some v =>
      simp only [hk, Option.some.injEq, Prod.mk.injEq] at h
      obtain ⟨_, rfl⟩ := h
      exact (Held.kept T).retain hp
  | combine ks =>
    simp only [step, Option.some.injEq, Prod.mk.injEq] at h
    obtain ⟨_, rfl⟩ := h
    exact hp
  | boxed k =>
    simp only [step] at h
    cases hk : s.owned[k]? with
    | none => simp [hk] at h
    | some v =>
      simp only [hk, Option.some.injEq, Prod.mk.injEq] at h
      obtain ⟨_, rfl⟩ := h
      exact hp.push
  | define k l =>
    simp only [step] at h
    split at h
    · rename_i i v hk hl
      split at h
      · rename_i c hc
        split at h
        · simp only [Option.some.injEq, Prod.mk.injEq] at h
          obtain ⟨h1, rfl⟩ := h
          have h2 : c.refs = [] := by
            by_cases h3 : c.refs = []
            · exact h3
            · rw [if_neg h3] at h1; cases h1
          have hq := state_alive hs hk i (by simp)
          rw [strongAt_some hc] at hq
          refine (Held.kept T).release (define_counted hs hk hl hc hq) (Held.push fun y hy => ?_)
          obtain ⟨x, d, h3, h4, h5⟩ := hp y hy
          refine ⟨x, d, h3, ?_, h5⟩
          rw [List.getElem?_set_ne]
          · exact h4
          · intro hx
            subst hx
            rw [hc] at h4; cases h4
            rw [h2] at h5; cases h5
        · cases h
      · cases h
    · cases h
  | drop k =>
    simp only [step] at h
    cases hk : s.owned[k]? with
    | none => simp [hk] at h
    | some v =>
      simp only [hk, Option.some.injEq, Prod.mk.injEq] at h
      obtain ⟨_, rfl⟩ := h
      refine (Held.kept T).release (u := (s.owned.set k []).flatten) (Counted.perm hs fun j => ?_) hp
      have := flatten_set (v' := []) hk j
      simp at this ⊢; omega

theorem run_held {s s' : State} {os : List Op} {T : Nat → Prop} (hs : s.Ok) (hp : Held T s.heap) (hn : NeverPanics s os)
    (h : run s os = some s') : Held T s'.heap := by
  induction os generalizing s with
  | nil => cases h; exact hp
  | cons o os ih =>
    unfold run at h
    cases hq : step s o with
    | none => simp [hq] at h
    | some q =>
      obtain ⟨p, t⟩ := q
      simp only [hq] at h
      obtain ⟨rfl, h1⟩ := hn p t hq
      exact ih (step_ok hs hq) (step_held hs hp hq) h1 h

theorem Held.alive {T : Nat → Prop} {s : State} (hs : s.Ok) (hp : Held T s.heap) {y : Nat} (hy : T y) : Alive s y := by
  obtain ⟨x, c, _, h2, h3⟩ := hp y hy
  exact Counted.alive hs (.inl (List.mem_flatMap.2 ⟨_, List.mem_of_getElem? h2, h3⟩))

theorem held_cycle {h : List Cell} {i : Nat} {c : Cell} (hc : h[i]? = some c) (hi : LeadsTo h c.refs i) :
    Held (LeadsTo h c.refs) h := by
  intro y hy
  rcases hy.last with h1 | ⟨x, d, h1, h2, h3⟩
  · exact ⟨i, c, hi, hc, h1⟩
  · exact ⟨x, d, h1, h2, h3⟩

theorem LeadsTo.push {h : List Cell} {v : List Nat} {y : Nat} {c : Cell} (hy : LeadsTo h v y) : LeadsTo (h ++ [c]) v y := by
  induction hy with
  | here hi => exact .here hi
  | @inside v k y d hk hd _ ih =>
    refine .inside hk ?_ ih
    rw [List.getElem?_append_left]
    · exact hd
    · rcases Nat.lt_or_ge k h.length with h4 | h4
      · exact h4
      · rw [List.getElem?_eq_none h4] at hd; cases hd

/-- The path up to the first time that one gets to `i` does not depend on the contents of `i`. -/
theorem LeadsTo.fill {h : List Cell} {v : List Nat} {i y : Nat} {c' : Cell} (hy : LeadsTo h v y) :
    LeadsTo (h.set i c') v y ∨ LeadsTo (h.set i c') v i := by
  induction hy with
  | here hi => exact .inl (.here hi)
  | @inside v k y d hk hd _ ih =>
    by_cases hki : k = i
    · subst hki; exact .inr (.here hk)
    · have h1 : (h.set i c')[k]? = some d := by rw [List.getElem?_set_ne (Ne.symm hki)]; exact hd
      rcases ih with ih | ih
      · exact .inl (.inside hk h1 ih)
      · exact .inr (.inside hk h1 ih)

theorem define_cycle {s s' : State} {k l i : Nat} {v : List Nat} (hk : s.owned[k]? = some [i])
    (hl : s.owned[l]? = some v) (hv : LeadsTo s.heap v i) (h : step s (.define k l) = some (none, s')) :
    ∃ c, s'.heap[i]? = some c ∧ LeadsTo s'.heap c.refs i := by
  simp only [step, hk, hl] at h
  split at h
  · rename_i c hc
    split at h
    · simp only [Option.some.injEq, Prod.mk.injEq] at h
      obtain ⟨h1, rfl⟩ := h
      have h2 : c.refs = [] := by
        by_cases h3 : c.refs = []
        · exact h3
        · rw [if_neg h3] at h1; cases h1
      have hlt : i < s.heap.length := by
        rcases Nat.lt_or_ge i s.heap.length with h | h
        · exact h
        · rw [List.getElem?_eq_none h] at hc; cases hc
      rw [h2]
      simp only [release]
      refine ⟨{ c with refs := [s.heap.length] }, ?_, ?_⟩
      · rw [List.getElem?_append_left (by simpa using hlt)]
        simp [hlt]
      · refine .inside (List.mem_singleton.2 rfl) (c := ⟨false, 1, v⟩) ?_ ?_
        · rw [List.getElem?_append_right (by simp)]; simp
        · refine LeadsTo.push ?_
          rcases hv.fill (i := i) (c' := { c with refs := [s.heap.length] }) with h3 | h3 <;> exact h3
    · cases h
  · cases h

end PPC.Own
