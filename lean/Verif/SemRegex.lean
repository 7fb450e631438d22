import Verif.Regex
import Verif.PropsTokenizer

/-!
# What matching a regular expression finds
-/

namespace PPC

namespace Re

/-- Repetition of a language. -/
inductive Star (L : List Char → Prop) : List Char → Prop where
  | nil : Star L []
  | cons {u v : List Char} : L u → Star L v → Star L (u ++ v)

/-- The language of an expression. -/
def Lang : Re → List Char → Prop
  | .eps, w => w = []
  | .set neg rs, w => ∃ c, inSet neg rs c = true ∧ w = [c]
  | .seq a b, w => ∃ u v, Lang a u ∧ Lang b v ∧ w = u ++ v
  | .alt a b, w => Lang a w ∨ Lang b w
  | .star a, w => Star (Lang a) w

theorem starEnds_sound {f : List Char → List (List Char)} {L : List Char → Prop}
    (h : ∀ t s, s ∈ f t → ∃ p, t = p ++ s ∧ L p) (n : Nat) :
    ∀ t s, s ∈ starEnds f n t → ∃ p, t = p ++ s ∧ Star L p := by
  induction n with
  | zero => intro t s hs; simp only [starEnds, List.mem_singleton] at hs; subst hs; exact ⟨[], rfl, .nil⟩
  | succ n ih =>
    intro t s hs
    rw [starEnds, List.mem_append, List.mem_flatMap] at hs
    rcases hs with ⟨s1, h1, h2⟩ | hs
    · obtain ⟨p1, rfl, hp1⟩ := h t s1 (List.mem_filter.1 h1).1
      obtain ⟨p2, rfl, hp2⟩ := ih s1 s h2
      exact ⟨p1 ++ p2, by simp, .cons hp1 hp2⟩
    · rw [List.mem_singleton] at hs; subst hs; exact ⟨[], rfl, .nil⟩

theorem ends_sound (r : Re) : ∀ t s, s ∈ r.ends t → ∃ p, t = p ++ s ∧ Lang r p := by
  induction r with
  | eps => intro t s hs; simp only [ends, List.mem_singleton] at hs; subst hs; exact ⟨[], rfl, rfl⟩
  | set neg rs =>
    intro t s hs
    cases t with
    | nil => simp [ends] at hs
    | cons c t =>
      simp only [ends] at hs
      split at hs
      · rename_i hc; rw [List.mem_singleton] at hs; subst hs; exact ⟨[c], rfl, c, hc, rfl⟩
      · cases hs
  | seq a b iha ihb =>
    intro t s hs
    rw [ends, List.mem_flatMap] at hs
    obtain ⟨s1, h1, h2⟩ := hs
    obtain ⟨p1, rfl, hp1⟩ := iha t s1 h1
    obtain ⟨p2, rfl, hp2⟩ := ihb s1 s h2
    exact ⟨p1 ++ p2, by simp, p1, p2, hp1, hp2, rfl⟩
  | alt a b iha ihb =>
    intro t s hs
    rw [ends, List.mem_append] at hs
    rcases hs with hs | hs
    · obtain ⟨p, h1, h2⟩ := iha t s hs; exact ⟨p, h1, .inl h2⟩
    · obtain ⟨p, h1, h2⟩ := ihb t s hs; exact ⟨p, h1, .inr h2⟩
  | star a iha => intro t s hs; exact starEnds_sound iha _ t s hs

theorem starEnds_complete {f : List Char → List (List Char)} {L : List Char → Prop}
    (h : ∀ p s, L p → s ∈ f (p ++ s)) {p : List Char} (hp : Star L p) :
    ∀ (n : Nat) (s : List Char), p.length ≤ n → s ∈ starEnds f n (p ++ s) := by
  induction hp with
  | nil =>
    intro n s _
    cases n with
    | zero => simp [starEnds]
    | succ n => simp [starEnds]
  | @cons u v hu _ ih =>
    intro n s hn
    by_cases hu0 : u = []
    · subst hu0; exact ih n s (by simpa using hn)
    · cases n with
      | zero =>
        have : u.length = 0 := by rw [List.length_append] at hn; omega
        exact (hu0 (List.length_eq_zero_iff.1 this)).elim
      | succ n =>
        have hl : 0 < u.length := List.length_pos_iff.2 hu0
        rw [starEnds, List.mem_append, List.mem_flatMap]
        refine .inl ⟨v ++ s, List.mem_filter.2 ⟨?_, ?_⟩, ih n s ?_⟩
        · rw [List.append_assoc]; exact h _ _ hu
        · simp only [List.length_append, decide_eq_true_eq]; omega
        · rw [List.length_append] at hn; omega

theorem ends_complete (r : Re) : ∀ p s, Lang r p → s ∈ r.ends (p ++ s) := by
  induction r with
  | eps => intro p s h; rw [Lang] at h; subst h; simp [ends]
  | set neg rs => rintro p s ⟨c, hc, rfl⟩; simp [ends, hc]
  | seq a b iha ihb =>
    rintro p s ⟨u, v, hu, hv, rfl⟩
    rw [ends, List.mem_flatMap]
    exact ⟨v ++ s, by rw [List.append_assoc]; exact iha _ _ hu, ihb _ _ hv⟩
  | alt a b iha ihb =>
    rintro p s (h | h)
    · rw [ends, List.mem_append]; exact .inl (iha _ _ h)
    · rw [ends, List.mem_append]; exact .inr (ihb _ _ h)
  | star a iha => intro p s h; exact starEnds_complete iha h _ s (by simp)

/-- The preferred match is a longest one. -/
def Greedy (r : Re) : Prop :=
  ∀ t s0 rest, r.ends t = s0 :: rest → ∀ s ∈ rest, s0.length ≤ s.length

/-- Matches are prefixes. -/
theorem matcher_prefix (r : Re) : r.matcher.Prefix := by
  intro t
  unfold matcher
  cases h : r.ends t with
  | nil => exact ⟨[], t, rfl, rfl⟩
  | cons s rest =>
    obtain ⟨p, hp, _⟩ := ends_sound r t s (by rw [h]; simp)
    refine ⟨p, s, hp, ?_⟩
    simp only [hp, bytes_append]
    omega

/-- What a greedy expression matches: the longest prefix in its language. -/
theorem matcher_longest {r : Re} (hg : Greedy r) (t : List Char) :
    (∃ p s, t = p ++ s ∧ Lang r p ∧ r.matcher t = bytes p ∧
      ∀ p' s', t = p' ++ s' → Lang r p' → p'.length ≤ p.length) ∨
    ((∀ p s, t = p ++ s → ¬ Lang r p) ∧ r.matcher t = 0) := by
  unfold matcher
  cases h : r.ends t with
  | nil =>
    refine .inr ⟨fun p s ht hl => ?_, rfl⟩
    have := ends_complete r p s hl
    rw [← ht, h] at this
    cases this
  | cons s rest =>
    obtain ⟨p, hp, hl⟩ := ends_sound r t s (by rw [h]; simp)
    refine .inl ⟨p, s, hp, hl, ?_, fun p' s' ht hl' => ?_⟩
    · simp only [hp, bytes_append]; omega
    · have h1 := ends_complete r p' s' hl'
      rw [← ht, h] at h1
      have h2 : s.length ≤ s'.length := by
        rcases List.mem_cons.1 h1 with h1 | h1
        · rw [h1]; exact Nat.le_refl _
        · exact hg t s rest h s' h1
      have h3 : (p' ++ s').length = (p ++ s).length := by rw [← ht, hp]
      simp only [List.length_append] at h3
      omega

/-- No word is the beginning of another. -/
def PrefixFree (L : List Char → Prop) : Prop := ∀ p s p' s', p ++ s = p' ++ s' → L p → L p' → p = p'

theorem greedy_of_prefixFree {r : Re} (h : PrefixFree (Lang r)) : Greedy r := by
  intro t s0 rest he s hs
  obtain ⟨p0, h1, h2⟩ := ends_sound r t s0 (by rw [he]; simp)
  obtain ⟨p, h3, h4⟩ := ends_sound r t s (by rw [he]; exact List.mem_cons_of_mem _ hs)
  have := h p0 s0 p s (by rw [← h1, h3]) h2 h4
  subst this
  rw [List.append_cancel_left (h1.symm.trans h3)]
  exact Nat.le_refl _

theorem mem_star_set {neg : Bool} {rs : List (Char × Char)} {w : List Char} :
    Star (Lang (.set neg rs)) w ↔ ∀ c ∈ w, inSet neg rs c = true := by
  constructor
  · intro h
    induction h with
    | nil => simp
    | cons hu _ ih =>
      obtain ⟨c, hc, rfl⟩ := hu
      simpa [hc] using ih
  · intro h
    induction w with
    | nil => exact .nil
    | cons c w ih => exact .cons (u := [c]) ⟨c, h c (by simp), rfl⟩ (ih fun d hd => h d (by simp [hd]))

/-- Repetition of a set goes as far as possible first. -/
theorem starEnds_set_head {neg : Bool} {rs : List (Char × Char)} (n : Nat) :
    ∀ t : List Char, t.length ≤ n →
      (starEnds (ends (.set neg rs)) n t).head? = some (t.dropWhile (inSet neg rs)) := by
  induction n with
  | zero =>
    intro t ht
    have : t = [] := List.length_eq_zero_iff.1 (by omega)
    subst this; rfl
  | succ n ih =>
    intro t ht
    cases t with
    | nil => rfl
    | cons c t =>
      rw [starEnds]
      by_cases hc : inSet neg rs c = true
      · have he : ends (.set neg rs) (c :: t) = [t] := by simp [ends, hc]
        rw [he, List.dropWhile_cons, if_pos hc]
        have hf : ([t].filter fun s => decide (s.length < (c :: t).length)) = [t] := by simp
        rw [hf, List.flatMap_cons, List.flatMap_nil, List.append_nil, List.head?_append,
          ih t (by simp at ht; omega)]
        rfl
      · simp [ends, hc]

theorem greedy_star_set {neg : Bool} {rs : List (Char × Char)} : Greedy (.star (.set neg rs)) := by
  intro t s0 rest he s hs
  have h0 : s0 = t.dropWhile (inSet neg rs) := by
    have := starEnds_set_head (neg := neg) (rs := rs) t.length t (Nat.le_refl _)
    rw [ends] at he
    rw [he] at this
    simpa using this
  obtain ⟨p, h3, h4⟩ := ends_sound _ t s (by rw [he]; exact List.mem_cons_of_mem _ hs)
  rw [Lang, mem_star_set] at h4
  rw [h0, h3, List.dropWhile_append]
  have : p.dropWhile (inSet neg rs) = [] := by
    clear h3
    induction p with
    | nil => rfl
    | cons c p ih => rw [List.dropWhile_cons, if_pos (h4 c (by simp))]; exact ih fun d hd => h4 d (by simp [hd])
  rw [this]
  simpa using (List.dropWhile_suffix (l := s) (inSet neg rs)).length_le

theorem greedy_set_seq {neg : Bool} {rs : List (Char × Char)} {r : Re} (h : Greedy r) :
    Greedy (.seq (.set neg rs) r) := by
  intro t s0 rest he
  cases t with
  | nil => simp [ends] at he
  | cons c t =>
    simp only [ends] at he
    split at he
    · simp only [List.flatMap_cons, List.flatMap_nil, List.append_nil] at he
      exact h t s0 rest he
    · simp at he

theorem greedy_alt {a b : Re} (ha : Greedy a) (hb : Greedy b)
    (h : ∀ p s p' s', p ++ s = p' ++ s' → Lang a p → ¬ Lang b p') : Greedy (.alt a b) := by
  intro t s0 rest he
  rw [ends] at he
  cases h1 : ends a t with
  | nil => rw [h1] at he; exact hb t s0 rest he
  | cons x xs =>
    have h2 : ends b t = [] := by
      cases h2 : ends b t with
      | nil => rfl
      | cons y ys =>
        obtain ⟨p, hp, hp2⟩ := ends_sound a t x (by rw [h1]; simp)
        obtain ⟨p', hp', hp2'⟩ := ends_sound b t y (by rw [h2]; simp)
        exact (h p x p' y (by rw [← hp, hp']) hp2 hp2').elim
    rw [h1, h2, List.append_nil] at he
    exact ha t s0 rest (by rw [h1, he])

end Re

end PPC
