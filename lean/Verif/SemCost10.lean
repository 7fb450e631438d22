import Verif.SemLe
import Verif.SemDepth
import Verif.SemCost4

/-!
# Upper bounds on the number of calls: recursive parsers
-/

namespace PPC

variable {S : Sig} {N : Names S} {e : Env S}

theorem noErrSpanL_eq : noErrSpanL S N = costedL S N True := by
  unfold noErrSpanL costedL
  congr
  funext ε α g
  cases g <;> rfl

/-! ## The bound in terms of the bound of the recursive parsers -/

/-- `a` is at most `b` times `K + 1`. -/
def Times (K a b : Nat) : Prop := a ≤ b * (K + 1)

namespace Times

variable {K a b a' b' : Nat}

theorem const (k : Nat) : Times K k k := Nat.le_mul_of_pos_right _ (Nat.succ_pos _)

theorem add (h : Times K a b) (h' : Times K a' b') : Times K (a + a') (b + b') := by
  unfold Times at *
  rw [Nat.add_mul]
  exact Nat.add_le_add h h'

theorem addc (h : Times K a b) (k : Nat) : Times K (a + k) (b + k) := h.add (.const k)

theorem smul (h : Times K a b) (k : Nat) : Times K (k * a) (k * b) := by
  unfold Times at *
  rw [Nat.mul_assoc]
  exact Nat.mul_le_mul_left _ h

end Times

section

variable {L Kc : Nat}

mutual

theorem G.cost_le : ∀ {ε : ErrTy S} {α : Type} (g : G S N ε α), Times Kc (g.cost L Kc) (g.cost L 1)
  | _, _, .empty => .const _
  | _, _, .none _ => .const _
  | _, _, .eof => .const _
  | _, _, .just _ => .const _
  | _, _, .filter _ => .const _
  | _, _, .filterMap _ => .const _
  | _, _, .seq _ _ => .const _
  | _, _, .oneOf _ => .const _
  | _, _, .noneOf _ => .const _
  | _, _, .boxed g => by simp only [G.cost]; exact G.cost_le g
  | _, _, .withError g => by simp only [G.cost]; exact G.cost_le g
  | _, _, .to g _ => by simp only [G.cost]; exact G.cost_le g
  | _, _, .some g => by simp only [G.cost]; exact G.cost_le g
  | _, _, .map _ g => by simp only [G.cost]; exact G.cost_le g
  | _, _, .mapErr _ g => by simp only [G.cost]; exact G.cost_le g
  | _, _, .mapErrWithSpan _ g => by simp only [G.cost]; exact G.cost_le g
  | _, _, .mapWithSpan _ g => by simp only [G.cost]; exact (G.cost_le g).addc 3
  | _, _, .tryMap _ g => by simp only [G.cost]; exact (G.cost_le g).addc 4
  | _, _, .then_ a b => by simp only [G.cost]; exact ((G.cost_le a).add (G.cost_le b)).addc 3
  | _, _, .thenIgnore a b => by simp only [G.cost]; exact ((G.cost_le a).add (G.cost_le b)).addc 3
  | _, _, .ignoreThen a b => by simp only [G.cost]; exact ((G.cost_le a).add (G.cost_le b)).addc 3
  | _, _, .delimitedBy l m r => by
    simp only [G.cost]; exact (((G.cost_le l).add (G.cost_le m)).add (G.cost_le r)).addc 3
  | _, _, .paddedBy p m => by
    simp only [G.cost]; exact (((G.cost_le p).add (G.cost_le m)).add (G.cost_le p)).addc 3
  | _, _, .chain gs => by simp only [G.cost]; exact (GL.cost_le gs).addc 3
  | _, _, .or a b => by simp only [G.cost]; exact ((G.cost_le a).add ((G.cost_le b).addc 0)).smul 2
  | _, _, .orNot g => by simp only [G.cost]; exact ((G.cost_le g).addc _).smul 2
  | _, _, .alters gs => by simp only [G.cost]; exact (GL.cost_le gs).smul 2
  | _, _, .repeated c g => by
    simp only [G.cost]; exact ((((G.cost_le g).addc 0).addc 4).smul _).addc 2
  | _, _, .separatedBy c g s => by
    simp only [G.cost]; exact ((((G.cost_le g).add (G.cost_le s)).addc 4).smul _).addc 2
  | _, _, .toRecover g st => by
    simp only [G.cost]; exact ((G.cost_le g).add (CS.cost_le st (G.cost_le g))).addc 5
  | _, _, .call _ => by simp only [G.cost]; unfold Times; omega

theorem GL.cost_le : ∀ {ε : ErrTy S} {α : Type} (gs : GL S N ε α), Times Kc (gs.cost L Kc) (gs.cost L 1)
  | _, _, .nil => .const _
  | _, _, .cons g gs => by simp only [GL.cost]; exact (G.cost_le g).add (GL.cost_le gs)

theorem IS.cost_le {K K1 : Nat} : ∀ {ε : ErrTy S} {α : Type} (s : IS S N ε α), Times Kc K K1 →
    Times Kc (s.cost L K Kc) (s.cost L K1 1)
  | _, _, .attemptTo, _ => .const _
  | _, _, .skipIf s _, h => by simp only [IS.cost]; exact (IS.cost_le s h).addc 2
  | _, _, .pushError s _, h => by simp only [IS.cost]; exact (IS.cost_le s h).addc 2
  | _, _, .pushErrorHere s _, h => by simp only [IS.cost]; exact (IS.cost_le s h).addc 2
  | _, _, .pushErrorUpToHere s _, h => by simp only [IS.cost]; exact (IS.cost_le s h).addc 2
  | _, _, .pushErrorForToken s _, h => by simp only [IS.cost]; exact (IS.cost_le s h).addc 2
  | _, _, .updateErrors s _, h => by simp only [IS.cost]; exact (IS.cost_le s h).addc 2
  | _, _, .updateErrorsHere s _, h => by simp only [IS.cost]; exact (IS.cost_le s h).addc 2
  | _, _, .updateErrorsUpToHere s _, h => by simp only [IS.cost]; exact (IS.cost_le s h).addc 2
  | _, _, .updateErrorsForToken s _, h => by simp only [IS.cost]; exact (IS.cost_le s h).addc 2
  | _, _, .restart s, h => by simp only [IS.cost]; exact (IS.cost_le s h).addc 2
  | _, _, .seekToFailed s, h => by simp only [IS.cost]; exact (IS.cost_le s h).addc 2
  | _, _, .skip s, h => by simp only [IS.cost]; exact (IS.cost_le s h).addc 2
  | _, _, .boxed s, h => by simp only [IS.cost]; exact IS.cost_le s h
  | _, _, .find s _, h => by simp only [IS.cost]; exact (IS.cost_le s h).addc _
  | _, _, .scan s _, h => by simp only [IS.cost]; exact (IS.cost_le s h).addc _
  | _, _, .maybe s t, h => by simp only [IS.cost]; exact (IS.cost_le s h).add ((IS.cost_le t h).addc 3)
  | _, _, .whileNot s _ t, h => by
    simp only [IS.cost]; exact (IS.cost_le s h).add ((((IS.cost_le t h).addc 2).smul L).addc 1)
  | _, _, .retry s _ _, h => by simp only [IS.cost]; exact (IS.cost_le s h).add (h.addc 2)
  | _, _, .tryToParse s g _ _, h => by simp only [IS.cost]; exact (IS.cost_le s h).add ((G.cost_le g).addc 2)

theorem CS.cost_le {K K1 : Nat} : ∀ {ε : ErrTy S} {α : Type} (s : CS S N ε α), Times Kc K K1 →
    Times Kc (s.cost L K Kc) (s.cost L K1 1)
  | _, _, .ret s _, h => by simp only [CS.cost]; exact (IS.cost_le s h).addc 0
  | _, _, .retWith s _, h => by simp only [CS.cost]; exact (IS.cost_le s h).addc 0
  | _, _, .retWithSpan s _, h => by simp only [CS.cost]; exact (IS.cost_le s h).addc 1
  | _, _, .orFail s, h => by simp only [CS.cost]; exact IS.cost_le s h

end

end

/-! ## Nested calls -/

section

variable {D : Defs S N} {ν : Bool → N.K → Bool} {L P : Nat}

theorem callDepth_up (hL : Length e L) (hν : Nullable D ν) (hD : D.All (progressL S N ν))
    (hC : D.All (noErrSpanL S N)) (hP : 0 < P) (hk : ∀ k g, D k = some g → g.cost L 1 ≤ P) (m : Nat) :
    ∀ (d : Nat) (k : N.K), UpP e (callDepth D m d k) ((2 * P) ^ d - 1)
  | 0, _ => fun _ _ _ => Nat.zero_le _
  | d + 1, k => by
    intro en c hw
    unfold callDepth
    cases h : D k with
    | none => exact Nat.zero_le _
    | some g =>
      have h1 := G.up (n := m) (C := True) hL (callDepth_ref D m d) (depthSem_mq hν m d)
        (fun _ => callDepth_up hL hν hD hC hP hk m d) g (by rw [← noErrSpanL_eq]; exact hC k g h) (hD k g h) en c hw
      have h2 : Times _ _ _ := G.cost_le (L := L) (Kc := (2 * P) ^ d - 1) g
      refine h1.le (Nat.le_trans h2 ?_)
      have h3 : 0 < (2 * P) ^ d := Nat.pow_pos (by omega)
      have h4 := Nat.mul_le_mul_right ((2 * P) ^ d) (hk k g h)
      rw [Nat.sub_add_cancel h3, Nat.pow_succ]
      have h5 : 0 < P * (2 * P) ^ d := Nat.mul_pos hP h3
      have h6 : (2 * P) ^ d * (2 * P) = 2 * (P * (2 * P) ^ d) := by
        rw [Nat.mul_comm, Nat.mul_assoc]
      omega

variable {ε : ErrTy S} {α : Type} {g : G S N ε α}

/-- The calls of a parse, with any bound on loops and nesting, if `d` nested calls are enough. -/
theorem prog_calls_le (hL : Length e L) (hν : Nullable D ν) (hD : D.All (progressL S N ν))
    (hC : D.All (noErrSpanL S N)) (hg : g.All (progressL S N ν)) (hgC : g.All (noErrSpanL S N)) (hP : 0 < P)
    (hk : ∀ k g, D k = some g → g.cost L 1 ≤ P) (hgP : g.cost L 1 ≤ P) {rank : Bool → N.K → Nat} {R : Nat}
    (hR : Ranked D ν rank R) (n : Nat) (en : Bool) {c : Cursor} (hw : c.WF e) :
    (g.prog D n en).calls (Cursor.step e) c ≤ (2 * P) ^ ((L + 1) * R + 1) := by
  have hi := hL.pos_le hw
  obtain ⟨v, hv, m, hm⟩ := G.converges_depth (d := (L + 1) * R) hL hν hD hR hg en hi fun b k => by
    have h1 := hR.below b k
    have h2 := Nat.mul_le_mul_right R (Nat.sub_le L c.pos)
    rw [Nat.add_mul, Nat.one_mul]
    omega
  have hm : g.den e (depthSem e D m ((L + 1) * R)) m en c.pos = v := hm m (Nat.le_refl _)
  have h1 : PLe (g.prog D n) (g.denote (callDepth D (max n m) (max n ((L + 1) * R))) (max n m)) :=
    G.le (callRec_le_callDepth D (Nat.le_max_left _ _) (Nat.le_max_left _ _)) (Nat.le_max_left _ _) g
  have h2 : PLe (g.denote (callDepth D m ((L + 1) * R)) m)
      (g.denote (callDepth D (max n m) (max n ((L + 1) * R))) (max n m)) :=
    G.le (callDepth_le D (Nat.le_max_right _ _) (Nat.le_max_right _ _)) (Nat.le_max_right _ _) g
  have h3 : (g.denote (callDepth D m ((L + 1) * R)) m en).run (Cursor.step e) c ≠ .oof := by
    intro h
    have h4 := G.ref (callDepth_ref (e := e) D m ((L + 1) * R)) m g en c hw
    unfold Ref at h4
    rw [h, hm] at h4
    cases v with
    | oof => exact hv rfl
    | _ => exact h4
  refine Nat.le_trans ((h1 en).calls_le c) ?_
  rw [(h2 en).calls_eq c h3]
  have h5 := G.up (n := m) (C := True) hL (callDepth_ref D m _) (depthSem_mq hν m _)
    (fun _ => callDepth_up hL hν hD hC hP hk m ((L + 1) * R)) g (by rw [← noErrSpanL_eq]; exact hgC) hg en c hw
  have h6 : Times _ _ _ := G.cost_le (L := L) (Kc := (2 * P) ^ ((L + 1) * R) - 1) g
  refine Nat.le_trans h5 (Nat.le_trans h6 ?_)
  rw [Nat.sub_add_cancel (Nat.pow_pos (by omega)), Nat.pow_succ, Nat.mul_comm]
  exact Nat.mul_le_mul_left _ (Nat.le_trans hgP (by omega))

/-- One constant for the parser and all definitions. -/
theorem cost_const (ks : List N.K) {w : Nat} (hw : ∀ k h, D k = some h → h.loops ≤ w) (hg : g.loops ≤ w) :
    ∃ c, 0 < c ∧ (∀ L, g.cost L 1 ≤ c * (L + 1) ^ w) ∧ ∀ k ∈ ks, ∀ h, D k = some h → ∀ L, h.cost L 1 ≤ c * (L + 1) ^ w := by
  induction ks with
  | nil =>
    obtain ⟨c, hc⟩ := (g.poly (Kc := 1)).mono hg
    refine ⟨c + 1, Nat.succ_pos _, fun L => Nat.le_trans (hc L) (Nat.mul_le_mul_right _ (Nat.le_succ _)), fun _ h => ?_⟩
    cases h
  | cons k ks ih =>
    obtain ⟨c, h0, h1, h2⟩ := ih
    cases hk : D k with
    | none =>
      refine ⟨c, h0, h1, fun k' hk' h hh => ?_⟩
      rcases List.mem_cons.1 hk' with rfl | hk'
      · rw [hk] at hh; cases hh
      · exact h2 k' hk' h hh
    | some h =>
      obtain ⟨c', hc'⟩ := (h.poly (Kc := 1)).mono (hw k h hk)
      have hx : ∀ L, c * (L + 1) ^ w ≤ (c + c') * (L + 1) ^ w := fun L => Nat.mul_le_mul_right _ (by omega)
      have hy : ∀ L, c' * (L + 1) ^ w ≤ (c + c') * (L + 1) ^ w := fun L => Nat.mul_le_mul_right _ (by omega)
      refine ⟨c + c', by omega, fun L => Nat.le_trans (h1 L) (hx L), fun k' hk' h' hh L => ?_⟩
      rcases List.mem_cons.1 hk' with rfl | hk'
      · rw [hk] at hh; cases hh; exact Nat.le_trans (hc' L) (hy L)
      · exact Nat.le_trans (h2 k' hk' h' hh L) (hx L)

end

end PPC
