import Verif.SpecDepth
import Verif.SemTerm

/-!
# How deeply recursive parsers are nested: lemmas
-/

namespace PPC

variable {S : Sig} {N : Names S} {e : Env S} {D : Defs S N} {ν : Bool → N.K → Bool} {L : Nat} {ε : ErrTy S} {α : Type}
  {g : G S N ε α} {en : Bool} {i d m : Nat}

/-- Positional semantics of the recursive parsers, with room for `d` nested calls. -/
def depthSem (e : Env S) (D : Defs S N) (m : Nat) : Nat → QEnv S N
  | 0, _, _, _ => .oof
  | d + 1, k, en, i =>
    match D k with
    | some g => g.den e (depthSem e D m d) m en i
    | none => .panic "recursive parser is not defined"

theorem callDepth_ref (D : Defs S N) (m : Nat) : ∀ d, EnvRef e (callDepth D m d) (depthSem e D m d)
  | 0, _ => fun _ _ _ => Ref.oof
  | d + 1, k => by
    intro en c hwf
    unfold callDepth depthSem
    cases D k with
    | some g => exact G.ref (callDepth_ref D m d) m g en c hwf
    | none => exact Ref.panic

theorem depthSem_mq (hν : Nullable D ν) (m : Nat) : ∀ (d : Nat) (k : N.K), MQ (fun en => ν en k) (depthSem e D m d k)
  | 0, k, en, i, r, j, h => by cases h
  | d + 1, k, en, i, r, j, h => by
    rw [depthSem] at h
    cases hk : D k with
    | none => rw [hk] at h; cases h
    | some g =>
      rw [hk] at h
      have h1 := G.mq (e := e) (depthSem_mq hν m d) m g en i r j h
      refine ⟨h1.1, h1.2.1, fun hm => h1.2.2 ?_⟩
      cases hg : g.mayEmpty ν en with
      | false => exact hg
      | true => have h2 := hν k g en hk hg; have h3 : ν en k = false := hm; rw [h3] at h2; cases h2

theorem Good.depthSem (hν : Nullable D ν) (m d : Nat) : Good e ν (depthSem e D m d) :=
  ⟨depthSem_mq hν m d, _, callDepth_ref D m d⟩

/-- Running on the concrete stream computes the positional semantics. -/
theorem G.runDepth (g : G S N ε α) (en : Bool) {st : Nat} {s : Stream S} {c : Cursor} (h : Sim e st s c) :
    StreamRuns e c ((g.progDepth D d m en).run Stream.step s) (g.den e (depthSem e D m d) m en c.pos) := by
  have h1 := Sim.run (g.progDepth D d m en) h
  have h2 := G.ref (callDepth_ref D m d) m g en c h.wf
  unfold G.progDepth at h1 ⊢
  unfold Ref at h2
  split at h2
  · rename_i r c' g hp hq
    rw [hp] at h1
    obtain ⟨hx, hv, hf⟩ := h2
    obtain ⟨st', s', hs, hsim⟩ := h1
    rw [hq, hv]
    exact ⟨st', s', c', hs, hsim, rfl, hx, hf⟩
  · rename_i m m' hp hq
    rw [hp] at h1
    rw [hq, ← h2]; exact h1
  · rename_i hp hq
    rw [hp] at h1
    rw [hq]; exact h1
  · exact h2.elim

theorem finishesIn_iff (hi : Valid e i) {r : Res α ε.E} {j : Nat} :
    FinishesIn d e D g en i r j ↔ ∃ m, g.den e (depthSem e D m d) m en i = .ok (r, j) := by
  refine exists_congr fun m => ⟨fun h => ?_, fun h al s h1 h2 => ?_⟩
  · obtain ⟨s, h1, h2⟩ := hi.exists_stream rustAlloc
    obtain ⟨s', h3, h4⟩ := h _ s h1 h2
    obtain ⟨st, c, hs⟩ := h1.sim
    have h5 := G.runDepth (D := D) (d := d) (m := m) g en hs
    rw [← hs.pos, h2] at h5
    rw [h3] at h5
    cases hq : g.den e (PPC.depthSem e D m d) m en i with
    | ok x =>
      rw [hq] at h5
      obtain ⟨_, s'', c', h6, h7, h8, -⟩ := h5
      cases h6
      rw [← h4, h7.pos, h8]
    | panic msg => rw [hq] at h5; exact absurd h5 (by simp [StreamRuns])
    | oof => rw [hq] at h5; exact absurd h5 (by simp [StreamRuns])
    | stuck => rw [hq] at h5; exact h5.elim
  · obtain ⟨st, c, hs⟩ := h1.sim
    have h5 := G.runDepth (D := D) (d := d) (m := m) g en hs
    rw [← hs.pos, h2, h] at h5
    obtain ⟨_, s', c', h6, h7, h8, -⟩ := h5
    exact ⟨s', h6, by rw [h7.pos, h8]⟩

theorem crashesIn_iff (hi : Valid e i) {msg : String} :
    CrashesIn d e D g en i msg ↔ ∃ m, g.den e (depthSem e D m d) m en i = .panic msg := by
  refine exists_congr fun m => ⟨fun h => ?_, fun h al s h1 h2 => ?_⟩
  · obtain ⟨s, h1, h2⟩ := hi.exists_stream rustAlloc
    have h3 := h _ s h1 h2
    obtain ⟨st, c, hs⟩ := h1.sim
    have h5 := G.runDepth (D := D) (d := d) (m := m) g en hs
    rw [← hs.pos, h2] at h5
    rw [h3] at h5
    cases hq : g.den e (PPC.depthSem e D m d) m en i with
    | ok x =>
      rw [hq] at h5
      obtain ⟨_, s'', c', h6, -⟩ := h5
      cases h6
    | panic msg => rw [hq] at h5; cases (show _ = _ from h5); rfl
    | oof => rw [hq] at h5; exact absurd h5 (by simp [StreamRuns])
    | stuck => rw [hq] at h5; exact h5.elim
  · obtain ⟨st, c, hs⟩ := h1.sim
    have h5 := G.runDepth (D := D) (d := d) (m := m) g en hs
    rw [← hs.pos, h2, h] at h5
    exact h5

/-! ## More room -/

theorem depthSem_mono {m m' : Nat} (hm : m ≤ m') : ∀ {d d' : Nat}, d ≤ d' → ∀ x,
    PR True 0 (depthSem e D m d x) (depthSem e D m' d' x) := by
  intro d
  induction d with
  | zero => intro d' _ x en i; exact .oof trivial
  | succ d ih =>
    intro d' hd x en i
    obtain ⟨d', rfl⟩ : ∃ k, d' = k + 1 := ⟨d' - 1, by omega⟩
    unfold depthSem
    cases D x with
    | none => exact .panic
    | some g => exact G.shift (IsRest.refl e) (.inr ⟨trivial, hm⟩) (ih (by omega)) g en i

theorem depthSem_callSem {m : Nat} : ∀ {d n : Nat}, m + d ≤ n → ∀ x,
    PR True 0 (depthSem e D m d x) (callSem e D n x) := by
  intro d
  induction d with
  | zero => intro n _ x en i; exact .oof trivial
  | succ d ih =>
    intro n hn x en i
    obtain ⟨n, rfl⟩ : ∃ k, n = k + 1 := ⟨n - 1, by omega⟩
    unfold depthSem callSem
    cases D x with
    | none => exact .panic
    | some g => exact G.shift (IsRest.refl e) (.inr ⟨trivial, by omega⟩) (ih (by omega)) g en i

theorem callSem_depthSem {m : Nat} : ∀ {n d : Nat}, n ≤ m → n ≤ d → ∀ x,
    PR True 0 (callSem e D n x) (depthSem e D m d x) := by
  intro n
  induction n with
  | zero => intro d _ _ x en i; exact .oof trivial
  | succ n ih =>
    intro d hm hd x en i
    obtain ⟨d, rfl⟩ : ∃ k, d = k + 1 := ⟨d - 1, by omega⟩
    unfold depthSem callSem
    cases D x with
    | none => exact .panic
    | some g => exact G.shift (IsRest.refl e) (.inr ⟨trivial, by omega⟩) (ih (by omega) (by omega)) g en i

theorem depth_more {m m' d d' : Nat} (hm : m ≤ m') (hd : d ≤ d') (h : g.den e (depthSem e D m d) m en i ≠ .oof) :
    g.den e (depthSem e D m' d') m' en i = g.den e (depthSem e D m d) m en i := by
  have h1 := G.shift (P := True) (IsRest.refl e) (.inr ⟨trivial, hm⟩) (depthSem_mono (e := e) (D := D) hm hd) g en i
  rw [Nat.zero_add] at h1
  exact h1.eq_zero h

theorem depth_sem {n : Nat} (hn : m + d ≤ n) (h : g.den e (depthSem e D m d) m en i ≠ .oof) :
    g.sem e D n en i = g.den e (depthSem e D m d) m en i := by
  have h1 := G.shift (P := True) (n := m) (n' := n) (IsRest.refl e) (.inr ⟨trivial, by omega⟩)
    (depthSem_callSem (e := e) (D := D) hn) g en i
  rw [Nat.zero_add] at h1
  exact h1.eq_zero h

theorem sem_depth {n : Nat} (hm : n ≤ m) (hd : n ≤ d) (h : g.sem e D n en i ≠ .oof) :
    g.den e (depthSem e D m d) m en i = g.sem e D n en i := by
  have h1 := G.shift (P := True) (n := n) (n' := m) (IsRest.refl e) (.inr ⟨trivial, hm⟩)
    (callSem_depthSem (e := e) (D := D) hm hd) g en i
  rw [Nat.zero_add] at h1
  exact h1.eq_zero h

/-! ## How much room is enough -/

theorem calls_depth (hL : Length e L) (hν : Nullable D ν) (hD : D.All (progressL S N ν)) {rank : Bool → N.K → Nat} {R : Nat}
    (hR : Ranked D ν rank R) : ∀ (d i : Nat), i ≤ L → ∀ b k, (L - i) * R + rank b k + 1 ≤ d →
      Cv fun m => depthSem e D m d k b i := by
  intro d
  induction d with
  | zero => intro i _ b k h; omega
  | succ d ih =>
    intro i hi b k hd
    have hlater : LaterC (fun m => depthSem e D m d) L i := by
      intro b' k' i' h1 h2
      refine ih i' h2 b' k' ?_
      have h3 := hR.below b' k'
      have h4 : (L - i') * R + R ≤ (L - i) * R := by
        have h5 : L - i' + 1 ≤ L - i := by omega
        have h6 := Nat.mul_le_mul_right R h5
        rwa [Nat.add_mul, Nat.one_mul] at h6
      omega
    cases hk : D k with
    | none => exact ⟨.panic "recursive parser is not defined", by simp, 0, fun m _ => by simp only [depthSem, hk]⟩
    | some g =>
      have h := G.cv hL (fun m => Good.depthSem hν m d) g (hD _ _ hk) b i hi hlater fun b' k' h => ih i hi b' k' (by
        have := hR.down b k b' k' g hk h
        omega)
      simpa only [depthSem, hk] using h

theorem G.converges_depth (hL : Length e L) (hν : Nullable D ν) (hD : D.All (progressL S N ν)) {rank : Bool → N.K → Nat}
    {R : Nat} (hR : Ranked D ν rank R) {g : G S N ε α} (hg : g.All (progressL S N ν)) (en : Bool) (hi : i ≤ L)
    (hd : ∀ b k, (L - i) * R + rank b k + 1 ≤ d) : Cv fun m => g.den e (depthSem e D m d) m en i := by
  refine G.cv hL (fun m => Good.depthSem hν m d) g hg en i hi (fun b k i' h1 h2 => ?_)
    (fun b k _ => calls_depth hL hν hD hR d i hi b k (hd b k))
  refine calls_depth hL hν hD hR d i' h2 b k (Nat.le_trans ?_ (hd b k))
  have := Nat.mul_le_mul_right R (show L - i' ≤ L - i by omega)
  omega

/-! ## Ranks of finitely many parsers -/

theorem filter_le {β : Type} {p q : β → Bool} (h : ∀ x, p x = true → q x = true) (l : List β) :
    (l.filter p).length ≤ (l.filter q).length := by
  induction l with
  | nil => exact Nat.le_refl _
  | cons x l ih =>
    cases hp : p x with
    | true => simp only [List.filter, hp, h x hp, List.length_cons]; omega
    | false =>
      cases hq : q x <;> simp only [List.filter, hp, hq, List.length_cons] <;> omega

theorem filter_lt {β : Type} {p q : β → Bool} (h : ∀ x, p x = true → q x = true) {y : β} (hy : p y = false)
    (hq : q y = true) : ∀ {l : List β}, y ∈ l → (l.filter p).length < (l.filter q).length
  | x :: l, hl => by
    rcases List.mem_cons.1 hl with rfl | hl
    · have := filter_le h l
      simp only [List.filter, hy, hq, List.length_cons]
      omega
    · have ih := filter_lt h hy hq hl
      cases hp : p x with
      | true => simp only [List.filter, hp, h x hp, List.length_cons]; omega
      | false => cases hq : q x <;> simp only [List.filter, hp, hq, List.length_cons] <;> omega

theorem Ranked.of_list (ks : List N.K) (hks : ∀ k, k ∈ ks) (hlr : NoLeftRecursion D ν) :
    ∃ rank, Ranked D ν rank (2 * ks.length) := by
  classical
  let r : Bool × N.K → Bool × N.K → Prop := fun x y => ∃ g, D y.2 = some g ∧ g.MayCall ν x.1 x.2 y.1
  let all : List (Bool × N.K) := ks.map (true, ·) ++ ks.map (false, ·)
  have hall : ∀ x, x ∈ all := by
    rintro ⟨b, k⟩
    cases b <;> simp [all, hks]
  have hlen : (all.filter fun _ => true).length = 2 * ks.length := by
    rw [List.filter_eq_self.2 (fun _ _ => rfl)]
    simp [all]
    omega
  have hwf : WellFounded (Relation.TransGen r) := WellFounded.transGen hlr
  have hirr : ∀ x, ¬ Relation.TransGen r x x := by
    intro x
    induction x using hwf.induction with
    | _ x ih => exact fun h => ih x h h
  refine ⟨fun b k => (all.filter fun y => decide (Relation.TransGen r y (b, k))).length, ?_, ?_⟩
  · intro b k
    rw [← hlen]
    exact filter_lt (fun _ _ => rfl) (y := (b, k)) (by simpa using hirr _) rfl (hall _)
  · intro b k b' k' g hk h
    have h1 : r (b', k') (b, k) := ⟨g, hk, h⟩
    refine filter_lt (fun y hy => ?_) (y := (b', k')) (by simpa using hirr _) (by simpa using .single h1) (hall _)
    simp only [decide_eq_true_eq] at hy ⊢
    exact .tail hy h1

end PPC
