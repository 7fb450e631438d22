import Verif.SpecDelims
import Verif.SemGeneric

/-!
# C63: scanning nested delimiters accounts for every delimiter

The specification is in SpecDelims.lean.
-/

namespace PPC.Delims

open Generic (ListR)

variable {S : Sig} {e : Env S} {ε : ErrTy S} {types : List (S.I × S.I)} {i j k m : Nat}

/-- The stack of the scanner holds the left delimiters at these positions. -/
def OpenAt (e : Env S) (types : List (S.I × S.I)) (p : Nat) (d : Delim S) : Prop :=
  e.source p = some d.left ∧ Opens S types d.left d.ty ∧ d.span = tokenSpan e p

/-- What happens to open delimiters, pairs and reports when the token at `m` is scanned. -/
inductive Step (e : Env S) (types : List (S.I × S.I)) (m : Nat) :
    List Nat → List (Nat × Nat) → List Report → List Nat → List (Nat × Nat) → List Report → Prop
  | ordinary {ps pairs rs} (h : ¬IsDelim e types m) : Step e types m ps pairs rs ps pairs rs
  | open_ {ps pairs rs k} (h : IsLeft e types m k) : Step e types m ps pairs rs (m :: ps) pairs rs
  | close {qs p ps pairs rs k} (hp : IsLeft e types p k) (h : IsRight e types m k) :
      Step e types m (qs ++ p :: ps) pairs rs ps ((p, m) :: pairs) (rs ++ qs.map (Report.left · m))
  | wrong {p ps pairs rs k r} (hp : IsLeft e types p k) (h : ¬IsRight e types m k) (hr : IsRight e types m r)
      (hl : ∀ k, ¬IsLeft e types m k) : Step e types m (p :: ps) pairs rs ps pairs (rs ++ [.wrong p m])
  | right {pairs rs r} (hr : IsRight e types m r) (hl : ∀ k, ¬IsLeft e types m k) :
      Step e types m [] pairs rs [] pairs (rs ++ [.right m])

/-- What holds after the tokens from `i` up to `m` have been scanned, and the delimiters at `ps` are open. -/
structure Inv (e : Env S) (types : List (S.I × S.I)) (i m : Nat) (ps : List Nat) (pairs : List (Nat × Nat))
    (rs : List Report) : Prop where
  once : open Classical in
    ∀ p, ps.count p + (listed pairs rs).count p = if i ≤ p ∧ p < m ∧ IsDelim e types p then 1 else 0
  open_ : ∀ p ∈ ps, p < m ∧ ∃ k, IsLeft e types p k
  sorted : ps.Pairwise (· > ·)
  clear : ∀ p ∈ ps, ∀ a b, Bracket pairs rs a b → p < a ∨ b < p
  before : ∀ a b, Bracket pairs rs a b → b < m
  pair : ∀ a b, (a, b) ∈ pairs → a < b ∧ ∃ k, IsLeft e types a k ∧ IsRight e types b k
  nested : ∀ a b c d, Bracket pairs rs a b → Bracket pairs rs c d → a < c → b < c ∨ d < b
  left : ∀ a b, .left a b ∈ rs → (∃ k, IsLeft e types a k) ∧ a < b ∧ ∃ c, (c, b) ∈ pairs ∧ c < a
  leftEnd : ∀ a x, ¬.leftEnd a x ∈ rs
  right : ∀ b, .right b ∈ rs → b = i ∧ (∃ k, IsRight e types b k) ∧ ∀ k, ¬IsLeft e types b k
  wrong : ∀ a b, .wrong a b ∈ rs → a < b ∧ (∃ k, IsLeft e types a k ∧ ¬IsRight e types b k) ∧
    (∃ k, IsRight e types b k) ∧ ∀ k, ¬IsLeft e types b k

theorem count_left (qs : List Nat) (m p : Nat) : (List.flatMap Report.about (qs.map (Report.left · m))).count p = qs.count p := by
  induction qs with
  | nil => rfl
  | cons q qs ih =>
    simp only [List.map_cons, List.flatMap_cons, Report.about, List.count_append, ih, List.count_cons, List.count_nil]
    omega

theorem Inv.step {ps ps' : List Nat} {pairs pairs' : List (Nat × Nat)} {rs rs' : List Report}
    (h : Inv e types i m ps pairs rs) (hm : i ≤ m) (h0 : ps = [] → m = i) (hs : Step e types m ps pairs rs ps' pairs' rs') :
    Inv e types i (m + 1) ps' pairs' rs' := by
  classical
  have hcount : ∀ p, IsDelim e types m → (ps.count p + (listed pairs rs).count p) + (if p = m then 1 else 0) =
      if i ≤ p ∧ p < m + 1 ∧ IsDelim e types p then 1 else 0 := by
    intro p hd
    rw [h.once p]
    by_cases hp : p = m
    · subst hp
      rw [if_neg (by omega), if_pos rfl, if_pos ⟨hm, by omega, hd⟩]
    · rw [if_neg hp]
      by_cases h1 : i ≤ p ∧ p < m ∧ IsDelim e types p
      · rw [if_pos h1, if_pos ⟨h1.1, by omega, h1.2.2⟩]
      · rw [if_neg h1, if_neg (fun h2 => h1 ⟨h2.1, by omega, h2.2.2⟩)]
  cases hs with
  | ordinary hn =>
    refine { h with once := ?_, open_ := ?_, before := ?_ }
    · intro p
      rw [h.once p]
      by_cases hp : p = m
      · subst hp
        rw [if_neg (by omega), if_neg (fun h2 => hn h2.2.2)]
      · by_cases h1 : i ≤ p ∧ p < m ∧ IsDelim e types p
        · rw [if_pos h1, if_pos ⟨h1.1, by omega, h1.2.2⟩]
        · rw [if_neg h1, if_neg (fun h2 => h1 ⟨h2.1, by omega, h2.2.2⟩)]
    · exact fun p hp => ⟨by have := (h.open_ p hp).1; omega, (h.open_ p hp).2⟩
    · exact fun a b hab => by have := h.before a b hab; omega
  | open_ hk =>
    refine { h with once := ?_, open_ := ?_, before := ?_, sorted := ?_, clear := ?_ }
    · intro p
      rw [← hcount p (.inl ⟨_, hk⟩), List.count_cons]
      simp only [beq_iff_eq, eq_comm (a := m)]
      omega
    · intro p hp
      rcases List.mem_cons.1 hp with rfl | hp
      · exact ⟨by omega, _, hk⟩
      · exact ⟨by have := (h.open_ p hp).1; omega, (h.open_ p hp).2⟩
    · exact List.pairwise_cons.2 ⟨fun p hp => (h.open_ p hp).1, h.sorted⟩
    · intro p hp a b hab
      rcases List.mem_cons.1 hp with rfl | hp
      · exact .inr (h.before a b hab)
      · exact h.clear p hp a b hab
    · exact fun a b hab => by have := h.before a b hab; omega
  | @close qs p _ _ _ k hp hk =>
    have hmem : p ∈ qs ++ p :: ps' := by simp
    have hpm := (h.open_ p hmem).1
    have hsub : ∀ q ∈ ps', q ∈ qs ++ p :: ps' := fun q hq => by simp [hq]
    have hw : ∀ a b, Report.wrong a b ∈ rs ++ qs.map (Report.left · m) ↔ Report.wrong a b ∈ rs := by
      intro a b; simp
    have hb : ∀ a b, Bracket ((p, m) :: pairs) (rs ++ qs.map (Report.left · m)) a b →
        (a = p ∧ b = m) ∨ Bracket pairs rs a b := by
      rintro a b (h1 | h1)
      · rcases List.mem_cons.1 h1 with h1 | h1
        · cases h1; exact .inl ⟨rfl, rfl⟩
        · exact .inr (.inl h1)
      · exact .inr (.inr ((hw a b).1 h1))
    have hsort := List.pairwise_append.1 h.sorted
    have hsort2 := List.pairwise_cons.1 hsort.2.1
    refine ⟨?_, ?_, hsort2.2, ?_, ?_, ?_, ?_, ?_, ?_, ?_, ?_⟩
    · intro x
      rw [← hcount x (.inr ⟨_, hk⟩)]
      simp only [listed, List.flatMap_cons, List.flatMap_append, List.count_append, List.count_cons, List.count_nil,
        count_left, beq_iff_eq, eq_comm (a := m)]
      omega
    · exact fun q hq => ⟨by have := (h.open_ q (hsub q hq)).1; omega, (h.open_ q (hsub q hq)).2⟩
    · intro q hq a b hab
      rcases hb a b hab with ⟨rfl, rfl⟩ | h1
      · exact .inl (hsort2.1 q hq)
      · exact h.clear q (hsub q hq) a b h1
    · intro a b hab
      rcases hb a b hab with ⟨rfl, rfl⟩ | h1
      · omega
      · have := h.before a b h1; omega
    · intro a b hab
      rcases List.mem_cons.1 hab with h1 | h1
      · cases h1; exact ⟨hpm, k, hp, hk⟩
      · exact h.pair a b h1
    · intro a b c d hab hcd hac
      rcases hb a b hab with ⟨rfl, rfl⟩ | h1
      · rcases hb c d hcd with ⟨rfl, rfl⟩ | h2
        · omega
        · exact .inr (h.before c d h2)
      · rcases hb c d hcd with ⟨rfl, rfl⟩ | h2
        · have := h.clear _ hmem a b h1
          omega
        · exact h.nested a b c d h1 h2 hac
    · intro a b hab
      rcases List.mem_append.1 hab with h1 | h1
      · obtain ⟨h2, h3, c, h4, h5⟩ := h.left a b h1
        exact ⟨h2, h3, c, List.mem_cons_of_mem _ h4, h5⟩
      · obtain ⟨q, hq, h1⟩ := List.mem_map.1 h1
        cases h1
        have hq' : a ∈ qs ++ p :: ps' := by simp [hq]
        exact ⟨(h.open_ a hq').2, (h.open_ a hq').1, p, List.mem_cons_self, hsort.2.2 a hq p List.mem_cons_self⟩
    · intro a x hax
      rcases List.mem_append.1 hax with h1 | h1
      · exact h.leftEnd a x h1
      · simp at h1
    · intro b hb'
      rcases List.mem_append.1 hb' with h1 | h1
      · exact h.right b h1
      · simp at h1
    · exact fun a b hab => h.wrong a b ((hw a b).1 hab)
  | @wrong p _ _ _ k r hp hk hr hl =>
    have hmem : p ∈ p :: ps' := List.mem_cons_self
    have hpm := (h.open_ p hmem).1
    have hsub : ∀ q ∈ ps', q ∈ p :: ps' := fun q hq => List.mem_cons_of_mem _ hq
    have hb : ∀ a b, Bracket pairs (rs ++ [.wrong p m]) a b → (a = p ∧ b = m) ∨ Bracket pairs rs a b := by
      rintro a b (h1 | h1)
      · exact .inr (.inl h1)
      · rcases List.mem_append.1 h1 with h1 | h1
        · exact .inr (.inr h1)
        · simp only [List.mem_singleton] at h1
          cases h1; exact .inl ⟨rfl, rfl⟩
    have hsort2 := List.pairwise_cons.1 h.sorted
    refine ⟨?_, ?_, hsort2.2, ?_, ?_, h.pair, ?_, ?_, ?_, ?_, ?_⟩
    · intro x
      rw [← hcount x (.inr ⟨_, hr⟩)]
      simp only [listed, List.flatMap_cons, List.flatMap_append, List.flatMap_nil, List.count_append, List.count_cons,
        List.count_nil, Report.about, beq_iff_eq, eq_comm (a := m)]
      omega
    · exact fun q hq => ⟨by have := (h.open_ q (hsub q hq)).1; omega, (h.open_ q (hsub q hq)).2⟩
    · intro q hq a b hab
      rcases hb a b hab with ⟨rfl, rfl⟩ | h1
      · exact .inl (hsort2.1 q hq)
      · exact h.clear q (hsub q hq) a b h1
    · intro a b hab
      rcases hb a b hab with ⟨rfl, rfl⟩ | h1
      · omega
      · have := h.before a b h1; omega
    · intro a b c d hab hcd hac
      rcases hb a b hab with ⟨rfl, rfl⟩ | h1
      · rcases hb c d hcd with ⟨rfl, rfl⟩ | h2
        · omega
        · exact .inr (h.before c d h2)
      · rcases hb c d hcd with ⟨rfl, rfl⟩ | h2
        · have := h.clear _ hmem a b h1
          omega
        · exact h.nested a b c d h1 h2 hac
    · intro a b hab
      rcases List.mem_append.1 hab with h1 | h1
      · exact h.left a b h1
      · simp at h1
    · intro a x hax
      rcases List.mem_append.1 hax with h1 | h1
      · exact h.leftEnd a x h1
      · simp at h1
    · intro b hb'
      rcases List.mem_append.1 hb' with h1 | h1
      · exact h.right b h1
      · simp at h1
    · intro a b hab
      rcases List.mem_append.1 hab with h1 | h1
      · exact h.wrong a b h1
      · simp only [List.mem_singleton] at h1
        cases h1
        exact ⟨hpm, ⟨k, hp, hk⟩, ⟨r, hr⟩, hl⟩
  | @right _ _ r hr hl =>
    have hb : ∀ a b, Bracket pairs (rs ++ [.right m]) a b → Bracket pairs rs a b := by
      rintro a b (h1 | h1)
      · exact .inl h1
      · rcases List.mem_append.1 h1 with h1 | h1
        · exact .inr h1
        · simp at h1
    refine ⟨?_, fun q hq => by simp at hq, .nil, fun q hq => by simp at hq, ?_, h.pair, ?_, ?_, ?_, ?_, ?_⟩
    · intro x
      rw [← hcount x (.inr ⟨_, hr⟩)]
      simp only [listed, List.flatMap_cons, List.flatMap_append, List.flatMap_nil, List.count_append, List.count_cons,
        List.count_nil, Report.about, beq_iff_eq, eq_comm (a := m)]
      omega
    · intro a b hab
      have := h.before a b (hb a b hab); omega
    · exact fun a b c d hab hcd hac => h.nested a b c d (hb a b hab) (hb c d hcd) hac
    · intro a b hab
      rcases List.mem_append.1 hab with h1 | h1
      · exact h.left a b h1
      · simp at h1
    · intro a x hax
      rcases List.mem_append.1 hax with h1 | h1
      · exact h.leftEnd a x h1
      · simp at h1
    · intro b hb'
      rcases List.mem_append.1 hb' with h1 | h1
      · exact h.right b h1
      · simp only [List.mem_singleton] at h1
        cases h1
        exact ⟨h0 rfl, ⟨r, hr⟩, hl⟩
    · intro a b hab
      rcases List.mem_append.1 hab with h1 | h1
      · exact h.wrong a b h1
      · simp at h1

/-! ## The scanner takes these steps -/

theorem any_split {ps : List Nat} {st : List (Delim S)} {r : Nat} {sp : S.Span} (h : ListR (OpenAt e types) ps st)
    (hsp : sp = tokenSpan e m) (hany : st.any (fun d => d.ty = r) = true) : ∀ es : List ε.E, ∃ qs p ps' st' new,
      ps = qs ++ p :: ps' ∧ IsLeft e types p r ∧ ListR (OpenAt e types) ps' st' ∧
      popUntil ε r sp st es = (true, st', es ++ new) ∧ ListR (Report.Says e ε) (qs.map (Report.left · m)) new := by
  subst hsp
  induction h with
  | nil => simp at hany
  | @cons p d ps st hd hs ih =>
    intro es
    by_cases hr : d.ty = r
    · refine ⟨[], p, ps, st, [], rfl, ⟨d.left, hd.1, hr ▸ hd.2.1⟩, hs, ?_, .nil⟩
      simp [popUntil, hr]
    · have hany' : st.any (fun d => d.ty = r) = true := by
        simpa [hr] using hany
      obtain ⟨qs, p', ps', st', new, h1, h2, h3, h4, h5⟩ :=
        ih hany' (es ++ [ε.unmatchedLeft d.left d.span (.span (tokenSpan e m))])
      refine ⟨p :: qs, p', ps', st', ε.unmatchedLeft d.left d.span (.span (tokenSpan e m)) :: new, by rw [h1]; rfl, h2, h3, ?_, ?_⟩
      · rw [popUntil, if_neg hr, h4, List.append_assoc]
        rfl
      · rw [hd.2.2]
        exact .cons (.left hd.1) h5

theorem handle_step {t : S.I} {ps : List Nat} {st st' : List (Delim S)} {es es' : List ε.E} (ht : e.source m = some t)
    (hst : ListR (OpenAt e types) ps st) (h : handleToken ε types t (tokenSpan e m) st es = .ok (st', es'))
    (pairs : List (Nat × Nat)) (rs : List Report) : ∃ ps' pairs' add new, ListR (OpenAt e types) ps' st' ∧
      Step e types m ps pairs rs ps' pairs' (rs ++ add) ∧ es' = es ++ new ∧ ListR (Report.Says e ε) add new := by
  have hleft : ∀ {k}, IsLeft e types m k ↔ Opens S types t k := by
    intro k
    constructor
    · rintro ⟨u, h1, h2⟩
      rw [ht] at h1; cases h1; exact h2
    · exact fun h => ⟨t, ht, h⟩
  have hright : ∀ {k}, IsRight e types m k ↔ Closes S types t k := by
    intro k
    constructor
    · rintro ⟨u, h1, h2⟩
      rw [ht] at h1; cases h1; exact h2
    · exact fun h => ⟨t, ht, h⟩
  have hrest : handleRest ε types t (tokenSpan e m) st es = .ok (st', es') →
      (∀ d ds, st = d :: ds → ¬Closes S types t d.ty) →
      ∃ ps' pairs' add new, ListR (OpenAt e types) ps' st' ∧
      Step e types m ps pairs rs ps' pairs' (rs ++ add) ∧ es' = es ++ new ∧ ListR (Report.Says e ε) add new := by
    intro h hnc
    by_cases h1 : ∃ k, Opens S types t k
    · obtain ⟨k, h1⟩ := h1
      rw [rest_open h1] at h
      cases h
      exact ⟨m :: ps, pairs, [], [], .cons ⟨ht, h1, rfl⟩ hst, by rw [List.append_nil]; exact .open_ (hleft.2 h1),
        by rw [List.append_nil], .nil⟩
    · have h1' : NoLeft S types t := fun k hk => h1 ⟨k, hk⟩
      have hl : ∀ k, ¬IsLeft e types m k := fun k hk => h1 ⟨k, hleft.1 hk⟩
      by_cases h2 : ∃ k, Closes S types t k
      · cases h3 : firstIdx (fun ty => S.eqI t ty.2) types 0 with
        | none =>
          obtain ⟨k, h2⟩ := h2
          exact (right_none.1 h3 k h2).elim
        | some r =>
          have hr : IsRight e types m r := hright.2 (firstIdx_right.1 h3).1
          unfold handleRest at h
          rw [left_none.2 h1', h3] at h
          dsimp only at h
          have hone : popOne ε r t (tokenSpan e m) st es = .ok (st', es') →
              ∃ ps' pairs' add new, ListR (OpenAt e types) ps' st' ∧
              Step e types m ps pairs rs ps' pairs' (rs ++ add) ∧ es' = es ++ new ∧
              ListR (Report.Says e ε) add new := by
            intro h
            cases hst with
            | nil =>
              cases h
              exact ⟨[], pairs, [.right m], _, .nil, .right hr hl, rfl, .cons (.right ht) .nil⟩
            | @cons p d ps st hd hs =>
              unfold popOne at h
              dsimp only at h
              split at h
              · cases h
              · cases h
                refine ⟨ps, pairs, [.wrong p m], _, hs, .wrong ⟨d.left, hd.1, hd.2.1⟩
                  (fun h => hnc d _ rfl (hright.1 h)) hr hl, rfl, .cons ?_ .nil⟩
                rw [hd.2.2]
                exact .wrong hd.1 ht
          split at h
          · next hany =>
            obtain ⟨qs, p, ps', st'', new, h5, h6, h7, h8, h9⟩ := any_split (ε := ε) (m := m) hst rfl hany es
            rw [h8] at h
            cases h
            subst h5
            exact ⟨ps', (p, m) :: pairs, _, new, h7, .close h6 hr, rfl, h9⟩
          · exact hone h
      · rw [rest_ordinary ⟨h1', fun k hk => h2 ⟨k, hk⟩⟩] at h
        cases h
        refine ⟨ps, pairs, [], [], hst, ?_, by rw [List.append_nil], .nil⟩
        rw [List.append_nil]
        refine .ordinary ?_
        rintro (⟨k, hk⟩ | ⟨k, hk⟩)
        · exact hl k hk
        · exact h2 ⟨k, hright.1 hk⟩
  cases hst with
  | nil => exact hrest h fun d ds h => by cases h
  | @cons p d ps st hd hs =>
    by_cases hc : Closes S types t d.ty
    · rw [handle_close hc] at h
      cases h
      refine ⟨ps, (p, m) :: pairs, [], [], hs, ?_, by rw [List.append_nil], .nil⟩
      exact .close (qs := []) ⟨d.left, hd.1, hd.2.1⟩ (hright.2 hc)
    · rw [handle_not_close hd.2.1.lt hc] at h
      refine hrest h fun d' ds' h' => ?_
      cases h'
      exact hc

theorem step_last {ps ps' : List Nat} {pairs pairs' : List (Nat × Nat)} {rs rs' : List Report}
    (hs : Step e types m ps pairs rs ps' pairs' rs') (h0 : ps = [] → m = i) (hl : ps ≠ [] → ps.getLast? = some i)
    (hne : ps' ≠ []) : ps'.getLast? = some i := by
  cases hs with
  | ordinary _ => exact hl hne
  | open_ _ =>
    cases ps with
    | nil => rw [h0 rfl]; rfl
    | cons p ps => rw [List.getLast?_cons_cons]; exact hl (by simp)
  | @close qs p _ _ _ _ _ _ =>
    have := hl (by simp)
    cases ps' with
    | nil => exact (hne rfl).elim
    | cons q ps => 
      rw [List.getLast?_append, List.getLast?_cons_cons] at this
      rw [List.getLast?_cons] at this ⊢
      exact this
  | wrong _ _ _ _ =>
    have := hl (by simp)
    cases ps' with
    | nil => exact (hne rfl).elim
    | cons q ps => rwa [List.getLast?_cons_cons] at this
  | right _ _ => exact (hne rfl).elim

theorem count_leftEnd (qs : List Nat) (m p : Nat) :
    (List.flatMap Report.about (qs.map (Report.leftEnd · m))).count p = qs.count p := by
  induction qs with
  | nil => rfl
  | cons q qs ih =>
    simp only [List.map_cons, List.flatMap_cons, Report.about, List.count_append, ih, List.count_cons, List.count_nil]
    omega

theorem Inv.accounts {pairs : List (Nat × Nat)} {rs : List Report} (h : Inv e types i m [] pairs rs) :
    Accounts e types i m pairs rs where
  once p := by have := h.once p; simpa using this
  pair := h.pair
  nested := h.nested
  left := h.left
  leftEnd a x hx := (h.leftEnd a x hx).elim
  right := h.right
  wrong := h.wrong

theorem Inv.accounts_end {ps : List Nat} {pairs : List (Nat × Nat)} {rs : List Report} (h : Inv e types i m ps pairs rs)
    (hm : e.source m = none) : Accounts e types i m pairs (rs ++ ps.map (Report.leftEnd · m)) := by
  have hb : ∀ a b, Bracket pairs (rs ++ ps.map (Report.leftEnd · m)) a b → Bracket pairs rs a b := by
    rintro a b (h1 | h1)
    · exact .inl h1
    · rcases List.mem_append.1 h1 with h1 | h1
      · exact .inr h1
      · simp at h1
  refine ⟨?_, h.pair, ?_, ?_, ?_, ?_, ?_⟩
  · intro p
    rw [← h.once p]
    simp only [listed, List.flatMap_append, List.count_append, count_leftEnd]
    omega
  · exact fun a b c d hab hcd hac => h.nested a b c d (hb a b hab) (hb c d hcd) hac
  · intro a b hab
    rcases List.mem_append.1 hab with h1 | h1
    · exact h.left a b h1
    · simp at h1
  · intro a x hax
    rcases List.mem_append.1 hax with h1 | h1
    · exact (h.leftEnd a x h1).elim
    · obtain ⟨q, hq, h1⟩ := List.mem_map.1 h1
      cases h1
      exact ⟨(h.open_ a hq).2, rfl, hm⟩
  · intro b hb'
    rcases List.mem_append.1 hb' with h1 | h1
    · exact h.right b h1
    · simp at h1
  · intro a b hab
    rcases List.mem_append.1 hab with h1 | h1
    · exact h.wrong a b h1
    · simp at h1

theorem scans_accounts {st : (nestedDelimiters ε types).σ} {es es' : List ε.E}
    (h : Scans e (nestedDelimiters ε types) st es m es' j) : ∀ {ps : List Nat} {pairs : List (Nat × Nat)}
    {rs : List Report}, ListR (OpenAt e types) ps st → Inv e types i m ps pairs rs → i ≤ m → (ps = [] → m = i) →
    (ps ≠ [] → ps.getLast? = some i) → ∃ pairs' add new, es' = es ++ new ∧ ListR (Report.Says e ε) add new ∧
      Ends e types i j pairs' (rs ++ add) ∧ ((∀ k, ¬IsLeft e types i k) → j = i) := by
  have hin : ∀ {ps : List Nat} {m : Nat} {pairs rs}, Inv e types i m ps pairs rs → ps ≠ [] →
      (ps ≠ [] → ps.getLast? = some i) → ∃ k, IsLeft e types i k := fun hv hne hl =>
    (hv.open_ i (List.mem_of_getLast? (hl hne))).2
  induction h with
  | @stop st st' es es' i0 t h1 h2 =>
    intro ps pairs rs hst hv hm h0 hl
    obtain ⟨h3, h4⟩ := scan_ok h2
    obtain ⟨ps', pairs', add, new, h5, h6, h7, h8⟩ := handle_step h1 hst h3 pairs rs
    have hv' := hv.step hm h0 h6
    have hps' : ps' = [] := by
      cases h5 with
      | nil => rfl
      | cons _ _ => simp at h4
    subst hps'
    refine ⟨pairs', add, new, h7, h8, .inr ⟨⟨t, h1⟩, hv'.accounts, ?_⟩, ?_⟩
    · rintro ⟨k, hk⟩
      revert h6
      generalize rs ++ add = rs'
      intro h6
      cases h6 with
      | ordinary hn => cases h0 rfl; exact (hn (.inl ⟨k, hk⟩)).elim
      | @close qs p _ _ _ _ _ _ =>
        have := hl (by simp)
        simp at this
        subst this
        exact .inl List.mem_cons_self
      | @wrong p _ _ _ _ _ _ _ _ _ =>
        have := hl (by simp)
        simp at this
        subst this
        exact .inr (by simp)
      | right _ h => cases h0 rfl; exact (h k hk).elim
    · intro hno
      by_cases hne : ps = []
      · exact h0 hne
      · obtain ⟨k, hk⟩ := hin hv hne hl
        exact (hno k hk).elim
  | @more st st' es es1 es' i0 j t h1 h2 _ ih =>
    intro ps pairs rs hst hv hm h0 hl
    obtain ⟨h3, h4⟩ := scan_ok h2
    obtain ⟨ps', pairs', add, new, h5, h6, h7, h8⟩ := handle_step h1 hst h3 pairs rs
    have hv' := hv.step hm h0 h6
    have hne : ps' ≠ [] := by
      rintro rfl
      cases h5
      simp at h4
    have hl' := step_last h6 h0 hl
    obtain ⟨pairs'', add', new', h9, h10, h11, h12⟩ := ih h5 hv' (by omega) (fun h => (hne h).elim) hl'
    refine ⟨pairs'', add ++ add', new ++ new', ?_, h8.append h10, ?_, h12⟩
    · rw [h9, h7, List.append_assoc]
    · rw [← List.append_assoc]; exact h11
  | @eof st es i0 h1 =>
    intro ps pairs rs hst hv hm h0 hl
    refine ⟨pairs, ps.map (Report.leftEnd · i0), _, rfl, ?_, .inl ⟨h1, hv.accounts_end h1, ?_⟩, ?_⟩
    · clear hv h0 hl hin
      induction hst with
      | nil => exact .nil
      | cons hd _ ih =>
        refine .cons ?_ ih
        dsimp only
        rw [hd.2.2]
        exact .leftEnd hd.1
    · rintro ⟨k, t, ht, _⟩
      by_cases hne : ps = []
      · rw [h0 hne, ht] at h1; cases h1
      · exact List.mem_append_right _ (List.mem_map.2 ⟨i, List.mem_of_getLast? (hl hne), rfl⟩)
    · intro hno
      by_cases hne : ps = []
      · exact h0 hne
      · obtain ⟨k, hk⟩ := hin hv hne hl
        exact (hno k hk).elim

/-! ## C63 -/

theorem Inv.start : Inv e types i i [] [] [] := by
  refine ⟨fun p => ?_, ?_, .nil, ?_, ?_, ?_, ?_, ?_, ?_, ?_, ?_⟩
  · rw [if_neg (by omega)]; rfl
  all_goals (intros; simp_all [Bracket])

/-- **C63.** Scanning with `nested_delimiters`, from any position and wherever `scan` is used in a strategy, keeps the errors
so far, and what it adds accounts for every delimiter that was scanned: each of them is matched with one of the same
type or is named in exactly one error, with its own token and span. Started at a left delimiter, the scan ends before
the token that closes it, or at the end of the input; it does not move otherwise. -/
theorem C63_scan {es es' : List ε.E} (h : Scans e (nestedDelimiters ε types) [] es i es' j) :
    ∃ pairs rs new, es' = es ++ new ∧ ListR (Report.Says e ε) rs new ∧ Ends e types i j pairs rs ∧
      ((∀ k, ¬IsLeft e types i k) → j = i) :=
  scans_accounts h .nil .start (Nat.le_refl _) (fun _ => rfl) fun h => (h rfl).elim

/-- **C63.** The same for a parser that recovers with `scan(nested_delimiters(types)).and_return(v)`. -/
theorem C63_recovers {N : Names S} {D : Defs S N} {n : Nat} {α : Type} {g : G S N ε α} (hi : Valid e i)
    (hr : Rewinds e D n g true i) {x : Nat} {es₀ : List ε.E} {v w : α}
    (hf : ParsesAt e D n g true i (.failed x es₀) i) {es : List ε.E}
    (h : ParsesAt e D n (.toRecover g (scanDelims S ε types v)) true i (.recovered w es) j) :
    w = v ∧ ∃ pairs rs new, es = es₀ ++ new ∧ ListR (Report.Says e ε) rs new ∧ Ends e types i j pairs rs ∧
      ((∀ k, ¬IsLeft e types i k) → j = i) := by
  obtain ⟨h1, _, h2⟩ := (scanDelims_iff hi hr hf).1 h
  exact ⟨h1, C63_scan h2⟩

theorem count_about {rs : List Report} {r : Report} {p : Nat} (h : r ∈ rs) (hp : p ∈ r.about) :
    1 ≤ (rs.flatMap Report.about).count p :=
  List.count_pos_iff.2 (List.mem_flatMap.2 ⟨r, h, hp⟩)

/-- **C63.** No delimiter is in two errors, and none that is in an error is matched. -/
theorem C63_once {pairs : List (Nat × Nat)} {as bs : List Report} {r : Report} {p : Nat}
    (h : Accounts e types i m pairs (as ++ r :: bs)) (hp : p ∈ r.about) :
    (∀ q ∈ as ++ bs, p ∉ q.about) ∧ ∀ a b, (a, b) ∈ pairs → p ≠ a ∧ p ≠ b := by
  have h1 := h.once p
  have h2 : (listed pairs (as ++ r :: bs)).count p ≤ 1 := by rw [h1]; split <;> omega
  simp only [listed, List.flatMap_append, List.flatMap_cons, List.count_append] at h2
  have h3 : 1 ≤ r.about.count p := List.count_pos_iff.2 hp
  constructor
  · intro q hq hpq
    rcases List.mem_append.1 hq with hq | hq
    · have := count_about hq hpq
      omega
    · have := count_about hq hpq
      omega
  · intro a b hab
    have h4 : ∀ x ∈ [a, b], 1 ≤ (pairs.flatMap fun p => [p.1, p.2]).count x := fun x hx =>
      List.count_pos_iff.2 (List.mem_flatMap.2 ⟨(a, b), hab, hx⟩)
    constructor
    · rintro rfl
      have := h4 p (by simp)
      omega
    · rintro rfl
      have := h4 p (by simp)
      omega

theorem length_le {i : Nat} : ∀ (d : Nat) (l : List Nat), (∀ p, l.count p ≤ 1) → (∀ p ∈ l, i ≤ p ∧ p < i + d) →
    l.length ≤ d
  | 0, l, _, h => by
    cases l with
    | nil => exact Nat.le_refl _
    | cons p l => have := h p List.mem_cons_self; omega
  | d + 1, l, h1, h2 => by
    have h3 := List.length_eq_countP_add_countP (fun p => p == i + d) (l := l)
    have h4 := h1 (i + d)
    rw [List.count] at h4
    have h5 := length_le (i := i) d (l.filter fun p => !(p == i + d))
      (fun p => Nat.le_trans (List.Sublist.count_le p List.filter_sublist) (h1 p)) (fun p hp => by
        obtain ⟨h6, h7⟩ := List.mem_filter.1 hp
        simp only [Bool.not_eq_true', beq_eq_false_iff_ne] at h7
        have := h2 p h6
        omega)
    rw [← List.countP_eq_length_filter] at h5
    simp only [Bool.not_eq_true, Bool.decide_eq_false] at h3
    omega

theorem reports_le (rs : List Report) : rs.length ≤ (rs.flatMap Report.about).length := by
  induction rs with
  | nil => exact Nat.le_refl _
  | cons r rs ih =>
    simp only [List.flatMap_cons, List.length_append, List.length_cons]
    have : 1 ≤ r.about.length := by cases r <;> simp [Report.about]
    omega

/-- **C63.** There are at most as many errors as tokens were scanned; a matched pair takes the place of two. -/
theorem C63_few {pairs : List (Nat × Nat)} {rs : List Report} (h : Accounts e types i m pairs rs) (hm : i ≤ m) :
    rs.length + 2 * pairs.length ≤ m - i := by
  classical
  have h1 := length_le (i := i) (m - i) (listed pairs rs) (fun p => by rw [h.once p]; split <;> omega) (fun p hp => by
    have h2 := h.once p
    have h3 : 1 ≤ (listed pairs rs).count p := List.count_pos_iff.2 hp
    rw [h2] at h3
    split at h3
    · next h4 => omega
    · omega)
  have h2 := reports_le rs
  have h3 : (pairs.flatMap fun p => [p.1, p.2]).length = 2 * pairs.length := by
    clear h h1
    induction pairs with
    | nil => rfl
    | cons p ps ih => simp only [List.flatMap_cons, List.length_append, List.length_cons, List.length_nil, ih]; omega
  simp only [listed, List.length_append, h3] at h1
  omega

/-! ## A concrete case -/

/-- `( [ 0 ( ) { ) 7` with delimiters `()`, `[]` and `{}` as `34`, `56` and `78`: the scan ends before the second right
parenthesis; `[` and `{` are reported, the parentheses are not. -/
theorem exScanned :
    ParsesAt (exEnv [3, 5, 0, 3, 4, 7, 4, 1]) exNoDefs 20
      (.toRecover (.just 1) (scanDelims exSig (simpleErr exSig) [(3, 4), (5, 6), (7, 8)] 9) : ExG Nat) true 0
      (.recovered 9 [.expectedFound [some 1] (some 3) (.span (0, 1)), .unmatchedLeft 7 (5, 6) (.span (6, 7)),
        .unmatchedLeft 5 (1, 2) (.span (6, 7))]) 6 :=
  exParsesAt (by decide +kernel)

example : ∃ pairs rs, Accounts (exEnv [3, 5, 0, 3, 4, 7, 4, 1]) [(3, 4), (5, 6), (7, 8)] 0 7 pairs rs ∧
    rs.length = 2 ∧ Bracket pairs rs 0 6 := by
  have hf : ParsesAt (exEnv [3, 5, 0, 3, 4, 7, 4, 1]) exNoDefs 20 (.just 1 : ExG Nat) true 0
      (.failed 0 [.expectedFound [some 1] (some 3) (.span (0, 1))]) 0 := exParsesAt (by decide +kernel)
  have hr : Rewinds (exEnv [3, 5, 0, 3, 4, 7, 4, 1]) exNoDefs 20 (.just 1 : ExG Nat) true 0 :=
    rewinds_of_clean Valid.zero (fun k => k.elim) trivial
  have h := C63_recovers .zero hr hf exScanned
  obtain ⟨_, pairs, rs, new, h1, h2, h3, _⟩ := h
  rcases h3 with ⟨h4, _⟩ | ⟨_, h4, h5⟩
  · cases h4
  · refine ⟨pairs, rs, h4, ?_, h5 ⟨0, 3, rfl, firstIdx_left.1 (by decide)⟩⟩
    simp at h1
    subst h1
    cases h2 with
    | cons _ h2 =>
      cases h2 with
      | cons _ h2 => cases h2; rfl

end PPC.Delims
