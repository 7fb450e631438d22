import Verif.SemCost3

/-!
# Upper bounds on the number of calls: every parser
-/

namespace PPC

variable {S : Sig} {N : Names S} {e : Env S}

/-! ## Strategies with loops, and recovery -/

section

variable {E α : Type}

theorem SPre.of {c c' : Cursor} {st fa : SavedState} (h : SPre e c st fa) (hw : c'.WF e)
    (hl : ∀ m, c.live m = true → c'.live m = true) (hp : c.pos ≤ c'.pos) : SPre e c' st fa :=
  ⟨hw, hl _ h.liveSt, hl _ h.liveFa, h.ne, Nat.le_trans h.stPos hp, h.stFa⟩

theorem SRef.of_run {s : Strat S E α} {q : SSem E α} (hr : SRef e s q) {p : Parser S E α} {qp : PSem E α}
    (hq : PRef e p qp) {c c' : Cursor} {st fa : SavedState} {es : List E} {r : RecRes α E} (hc : SPre e c st fa)
    (hrun : (s p st fa es).run (Cursor.step e) c = .ok (r, c')) :
    q qp st.index fa.index es c.pos = .ok ((r.1, r.2.1.index, r.2.2), c'.pos) ∧ SPre e c' st r.2.1 := by
  have h1 := hr p qp hq c st fa es hc
  unfold Ref at h1
  rw [hrun] at h1
  cases hq' : q qp st.index fa.index es c.pos with
  | ok g => rw [hq'] at h1; exact ⟨by rw [h1.val], SPost.pre hc h1⟩
  | panic m => rw [hq'] at h1; exact h1.elim
  | oof => rw [hq'] at h1; exact h1.elim
  | stuck => rw [hq'] at h1; exact h1.elim

theorem UpS.attempt {t : Strat S E α} {Kp K : Nat} (h : UpS e t Kp K) :
    UpS e (fun p st fa es => Prog.attempt ((t p st fa es).bind fun r => .ret (r.1.isSome, r))) Kp (K + 3) := by
  intro p qp m hp hq hm c st fa es hc
  unfold Prog.attempt Prog.withSave
  prog
  refine AtMost.le (K := 1 + ((K + 1) + 1)) ?_ (by omega)
  refine AtMost.op fun sv c1 hs => ?_
  have hw1 := hc.wf.step _ hs
  have hpre : SPre e c1 st fa := hc.of hw1 (by cases hs; intro m hm; simp [hm])
    (by cases hs; exact Nat.le_refl _)
  refine AtMost.bind (K := K + 1) ?_ fun r c2 hr => ?_
  · rw [Prog.bind_assoc]
    refine (h p qp m hp hq hm c1 st fa es hpre).bind fun r c2 hr => ?_
    have hw2 := Prog.run_wf _ hw1 hr
    simp only [Prog.ret_bind]
    split
    · exact .ret
    · exact Up.op (K := 0) (fun _ => .ret) c2 hw2
  · exact Up.op (K := 0) (fun _ => .ret) c2 (Prog.run_wf _ hw1 hr)

theorem whileNotLoop_up {L Kp K : Nat} (hL : Length e L) {t : Strat S E α} {q : SSem E α} {fw : Prop}
    {ms : (Bool → Bool) → Bool} (ht : UpS e t Kp K) (hr : SRef e t q) (hsm : SMQ fw ms q) (hfw : fw) {pr : S.I → Bool}
    {p : Parser S E α} {qp : PSem E α} {m : Bool → Bool} (hp : UpP e p Kp) (hq : PRef e p qp) (hm : MQ m qp)
    {st : SavedState} : ∀ (n : Nat) (fa : SavedState) (es : List E) (c : Cursor), SPre e c st fa →
      AtMost e (whileNotLoop pr t p st n fa es) c ((L - c.pos) * (K + 2) + 1)
  | 0, _, _, _, _ => .oof
  | n + 1, fa, es, c, hc => by
    unfold whileNotLoop
    by_cases hend : c.pos = L
    · refine AtMost.le ((tokenIs_up c hc.wf).bind (K' := 0) fun x c' hr => ?_) (by omega)
      have := (tokenIs_run hr).2 (by rw [hend]; exact hL.stop)
      subst this
      exact .ret
    · have hle := hL.pos_le hc.wf
      refine AtMost.le ((tokenIs_up c hc.wf).bind (K' := K + (1 + ((L - (c.pos + 1)) * (K + 2) + 1)))
        fun x c1 hr1 => ?_) ?_
      · have hw1 := Prog.run_wf _ hc.wf hr1
        have hpos := (tokenIs_run hr1).1
        have hpre : SPre e c1 st fa := hc.of hw1
          (by unfold tokenIs at hr1; cases hr1; intro m hm; exact hm) (Nat.le_of_eq hpos.symm)
        cases x with
        | true => exact .ret
        | false =>
          refine (ht p qp m hp hq hm c1 st fa es hpre).bind fun r c2 hr2 => ?_
          obtain ⟨h1, h2⟩ := hr.of_run hq hpre hr2
          obtain ⟨o, fa', es'⟩ := r
          cases o with
          | some o => exact .ret
          | none =>
            have h3 := (hsm qp m hm _ _ _ _ _ _ _ _ hpre.stPos hpre.stFa h1).2.2.1 hfw rfl
            refine AtMost.op fun b c3 hs3 => ?_
            have hw3 := h2.wf.step _ hs3
            have hle2 := hL.pos_le h2.wf
            have h4 : c.pos + 1 ≤ c3.pos ∧ c2.pos ≤ c3.pos ∧ c3.live = c2.live := by
              simp only [Cursor.step] at hs3
              split at hs3
              · cases hs3
                exact ⟨by show c.pos + 1 ≤ c2.pos + 1; omega, Nat.le_succ _, rfl⟩
              · rename_i hno
                cases hs3
                have : ¬ c2.pos < L := fun hlt => hno (hL.all _ hlt)
                exact ⟨by show c.pos + 1 ≤ c2.pos; omega, Nat.le_refl _, rfl⟩
            refine (whileNotLoop_up hL ht hr hsm hfw hp hq hm n fa' es' c3
              (h2.of hw3 (by intro m hm; rw [h4.2.2]; exact hm) h4.2.1)).le ?_
            have := h4.1
            exact Nat.add_le_add_right (Nat.mul_le_mul_right _ (by omega)) 1
      · rw [show L - c.pos = L - (c.pos + 1) + 1 by omega, Nat.add_mul]
        omega

theorem pToRecover_up {p : Parser S E α} {qp : PSem E α} {m : Bool → Bool} {s : Strat S E α} {Kp K : Nat}
    (hp : UpP e p Kp) (hq : PRef e p qp) (hm : MQ m qp) (hs : UpS e s Kp K) :
    UpP e (pToRecover p s) (Kp + K + 5) := by
  intro en c hw
  refine AtMost.le ((hp en c hw).bind (K' := 1 + (1 + (K + 3))) fun x c2 hr => ?_) (by omega)
  have hw2 := Prog.run_wf _ hw hr
  cases x with
  | success b => exact .ret
  | recovered b es => exact .ret
  | failed i es =>
    cases en with
    | false => exact .ret
    | true =>
      simp only [Bool.not_true, Bool.false_eq_true, if_false]
      prog
      refine AtMost.op fun st c3 hs3 => ?_
      have hw3 := hw2.step _ hs3
      refine AtMost.op fun fa c4 hs4 => ?_
      have hw4 := hw3.step _ hs4
      have hpre : SPre e c4 st fa := by
        cases hs3
        simp only [Cursor.step] at hs4
        split at hs4
        · cases hs4
        · rename_i hge
          split at hs4
          · cases hs4
            refine ⟨hw4, ?_, ?_, ?_, ?_, ?_⟩
            · simp
            · simp
            · simp
            · exact Nat.le_refl _
            · simp only at hge ⊢; omega
          · cases hs4
      refine (hs p qp m hp hq hm c4 st fa es hpre).bind fun r c5 hr5 => ?_
      have hw5 := Prog.run_wf _ hw4 hr5
      obtain ⟨o, fa', es'⟩ := r
      cases o with
      | some o =>
        refine AtMost.le (K := 1 + (1 + 0)) ?_ (by omega)
        unfold toRecoverEnd; prog
        exact Up.op (fun _ => Up.op fun _ => .ret) c5 hw5
      | none =>
        refine AtMost.le (K := 1 + (1 + (1 + 0))) ?_ (by omega)
        unfold toRecoverEnd; prog
        exact Up.op (fun _ => Up.op fun _ => Up.op fun _ => .ret) c5 hw5

end

/-! ## The bound -/

mutual

/-- A bound on the number of calls for an input of length `L`, where `Kc` is one for every recursive parser. -/
def G.cost (L : Nat) (Kc : Nat := 0) : {ε : ErrTy S} → {α : Type} → G S N ε α → Nat
  | _, _, .empty => 6
  | _, _, .none _ => 6
  | _, _, .eof => 6
  | _, _, .just _ => 6
  | _, _, .filter _ => 6
  | _, _, .filterMap _ => 6
  | _, _, .seq _ items => 2 * items.length + 4
  | _, _, .oneOf _ => 6
  | _, _, .noneOf _ => 6
  | _, _, .boxed g => g.cost L Kc
  | _, _, .withError g => g.cost L Kc
  | _, _, .to g _ => g.cost L Kc
  | _, _, .some g => g.cost L Kc
  | _, _, .map _ g => g.cost L Kc
  | _, _, .mapWithSpan _ g => g.cost L Kc + 3
  | _, _, .mapErr _ g => g.cost L Kc
  | _, _, .mapErrWithSpan _ g => g.cost L Kc
  | _, _, .tryMap _ g => g.cost L Kc + 4
  | _, _, .then_ a b => a.cost L Kc + b.cost L Kc + 3
  | _, _, .thenIgnore a b => a.cost L Kc + b.cost L Kc + 3
  | _, _, .ignoreThen a b => a.cost L Kc + b.cost L Kc + 3
  | _, _, .delimitedBy l m r => l.cost L Kc + m.cost L Kc + r.cost L Kc + 3
  | _, _, .paddedBy p m => p.cost L Kc + m.cost L Kc + p.cost L Kc + 3
  | _, _, .chain gs => gs.cost L Kc + 3
  | _, _, .or a b => 2 * (a.cost L Kc + (b.cost L Kc + 0))
  | _, _, .orNot g => 2 * (g.cost L Kc + (0 + 0))
  | _, _, .alters gs => 2 * gs.cost L Kc
  | _, _, .repeated c g => (c.bound L 0 0 + 1) * (g.cost L Kc + 0 + 4) + 2
  | _, _, .separatedBy c g s => (c.bound L 0 0 + 1) * (g.cost L Kc + s.cost L Kc + 4) + 2
  | _, _, .toRecover g st => g.cost L Kc + st.cost L (g.cost L Kc) Kc + 5
  | _, _, .call _ => Kc

def GL.cost (L : Nat) (Kc : Nat := 0) : {ε : ErrTy S} → {α : Type} → GL S N ε α → Nat
  | _, _, .nil => 0
  | _, _, .cons g gs => g.cost L Kc + gs.cost L Kc

/-- The same for a strategy, given the bound of the parser. -/
def IS.cost (L K : Nat) (Kc : Nat := 0) : {ε : ErrTy S} → {α : Type} → IS S N ε α → Nat
  | _, _, .attemptTo => 0
  | _, _, .skipIf s _ => s.cost L K Kc + 2
  | _, _, .pushError s _ => s.cost L K Kc + 2
  | _, _, .pushErrorHere s _ => s.cost L K Kc + 2
  | _, _, .pushErrorUpToHere s _ => s.cost L K Kc + 2
  | _, _, .pushErrorForToken s _ => s.cost L K Kc + 2
  | _, _, .updateErrors s _ => s.cost L K Kc + 2
  | _, _, .updateErrorsHere s _ => s.cost L K Kc + 2
  | _, _, .updateErrorsUpToHere s _ => s.cost L K Kc + 2
  | _, _, .updateErrorsForToken s _ => s.cost L K Kc + 2
  | _, _, .restart s => s.cost L K Kc + 2
  | _, _, .seekToFailed s => s.cost L K Kc + 2
  | _, _, .skip s => s.cost L K Kc + 2
  | _, _, .boxed s => s.cost L K Kc
  | _, _, .find s _ => s.cost L K Kc + (2 * L + 1)
  | _, _, .scan s _ => s.cost L K Kc + (3 * L + 2)
  | _, _, .maybe s t => s.cost L K Kc + (t.cost L K Kc + 3)
  | _, _, .whileNot s _ t => s.cost L K Kc + (L * (t.cost L K Kc + 2) + 1)
  | _, _, .retry s _ _ => s.cost L K Kc + (K + 2)
  | _, _, .tryToParse s g _ _ => s.cost L K Kc + (g.cost L Kc + 2)

def CS.cost (L K : Nat) (Kc : Nat := 0) : {ε : ErrTy S} → {α : Type} → CS S N ε α → Nat
  | _, _, .ret s _ => s.cost L K Kc + 0
  | _, _, .retWith s _ => s.cost L K Kc + 0
  | _, _, .retWithSpan s _ => s.cost L K Kc + 1
  | _, _, .orFail s => s.cost L K Kc

end

/-- No `map_err_with_span`, and calls of recursive parsers only if `C`. -/
def G.Costed (C : Prop) : {ε : ErrTy S} → {α : Type} → G S N ε α → Prop
  | _, _, .call _ => C
  | _, _, .mapErrWithSpan _ _ => False
  | _, _, _ => True

def costedL (S : Sig) (N : Names S) (C : Prop) : Local S N where
  g := G.Costed C
  s := fun _ => True

theorem directL_eq : directL S N = costedL S N False := by
  unfold directL costedL
  congr

section

variable {ρ : REnv S N} {σ : QEnv S N} {ν : Bool → N.K → Bool} {L Kc : Nat} {n : Nat} {C : Prop}

set_option maxHeartbeats 4000000

mutual

theorem G.up (hL : Length e L) (hρ : EnvRef e ρ σ) (hm : ∀ k, MQ (fun en => ν en k) (σ k))
    (hc : C → ∀ k, UpP e (ρ k) Kc) :
    ∀ {ε : ErrTy S} {α : Type} (g : G S N ε α), g.All (costedL S N C) → g.All (progressL S N ν) →
      UpP e (g.denote ρ n) (g.cost L Kc)
  | _, _, .empty, _, _ => fun _ => .ret
  | _, _, .none _, _, _ => fun _ => .ret
  | _, _, .eof, _, _ => fun _ => pEnd_up.le (by simp [G.cost])
  | _, _, .just _, _, _ => fun _ => pJust_up.le (by simp [G.cost])
  | _, _, .filter _, _, _ => fun _ => pFilter_up.le (by simp [G.cost])
  | _, _, .filterMap _, _, _ => fun _ => pFilterMap_up.le (by simp [G.cost])
  | _, _, .seq _ _, _, _ => fun _ => pSeq_up.le (by simp [G.cost])
  | _, _, .oneOf _, _, _ => fun _ => pOneOf_up.le (by simp [G.cost])
  | _, _, .noneOf _, _, _ => fun _ => pNoneOf_up.le (by simp [G.cost])
  | _, _, .boxed g, h, h' => by
    simp only [G.denote, G.cost]
    exact G.up hL hρ hm hc g h.2 h'.2
  | _, _, .withError g, h, h' => by
    simp only [G.denote, G.cost]
    exact G.up hL hρ hm hc g h.2 h'.2
  | _, _, .to g _, h, h' => by
    simp only [G.denote, G.cost]
    exact (G.up hL hρ hm hc g h.2 h'.2).post _
  | _, _, .some g, h, h' => by
    simp only [G.denote, G.cost]
    exact (G.up hL hρ hm hc g h.2 h'.2).post _
  | _, _, .map _ g, h, h' => by
    simp only [G.denote, G.cost]
    exact (G.up hL hρ hm hc g h.2 h'.2).post _
  | _, _, .mapErr _ g, h, h' => by
    simp only [G.denote, G.cost]
    exact (G.up hL hρ hm hc g h.2 h'.2).post _
  | _, _, .mapWithSpan _ g, h, h' => by
    simp only [G.denote, G.cost]
    exact pMapWithSpan_up (G.up hL hρ hm hc g h.2 h'.2)
  | _, _, .mapErrWithSpan _ g, h, h' => h.1.elim
  | _, _, .tryMap _ g, h, h' => by
    simp only [G.denote, G.cost]
    exact pTryMap_up (G.up hL hρ hm hc g h.2 h'.2)
  | _, _, .then_ a b, h, h' => by
    simp only [G.denote, G.cost]
    exact concat2_up (G.up hL hρ hm hc a h.2.1 h'.2.1) (G.up hL hρ hm hc b h.2.2 h'.2.2)
  | _, _, .thenIgnore a b, h, h' => by
    simp only [G.denote, G.cost]
    exact concat2_up (G.up hL hρ hm hc a h.2.1 h'.2.1) (G.up hL hρ hm hc b h.2.2 h'.2.2)
  | _, _, .ignoreThen a b, h, h' => by
    simp only [G.denote, G.cost]
    exact concat2_up (G.up hL hρ hm hc a h.2.1 h'.2.1) (G.up hL hρ hm hc b h.2.2 h'.2.2)
  | _, _, .delimitedBy l m r, h, h' => by
    simp only [G.denote, G.cost]
    exact concat3_up (G.up hL hρ hm hc l h.2.1 h'.2.1) (G.up hL hρ hm hc m h.2.2.1 h'.2.2.1) (G.up hL hρ hm hc r h.2.2.2 h'.2.2.2)
  | _, _, .paddedBy p m, h, h' => by
    simp only [G.denote, G.cost]
    exact concat3_up (G.up hL hρ hm hc p h.2.1 h'.2.1) (G.up hL hρ hm hc m h.2.2 h'.2.2) (G.up hL hρ hm hc p h.2.1 h'.2.1)
  | _, _, .chain gs, h, h' => by
    simp only [G.denote, G.cost]
    exact concatList_up (GL.up hL hρ hm hc gs h.2 h'.2)
  | _, _, .or a b, h, h' => by
    simp only [G.denote, G.cost]
    exact alternate_up (.cons (G.up hL hρ hm hc a h.2.1 h'.2.1) (.cons (G.up hL hρ hm hc b h.2.2 h'.2.2) .nil))
  | _, _, .orNot g, h, h' => by
    simp only [G.denote, G.cost]
    exact alternate_up (.cons ((G.up hL hρ hm hc g h.2 h'.2).post _) (.cons (fun _ => .ret) .nil))
  | _, _, .alters gs, h, h' => by
    simp only [G.denote, G.cost]
    exact alternate_up (GL.up hL hρ hm hc gs h.2 h'.2)
  | _, _, .repeated c g, h, h' => by
    simp only [G.denote, G.cost]
    exact repeatP_up (Ks := 0) (ms := fun _ => true) hL (G.up hL hρ hm hc g h.2 h'.2) (G.ref hρ n g) (G.mq hm n g)
      (by rintro _ ⟨⟩) (fun hx => .inl (h'.1 hx))
  | _, _, .separatedBy c g s, h, h' => by
    simp only [G.denote, G.cost]
    refine repeatP_up hL (G.up hL hρ hm hc g h.2.1 h'.2.1) (G.ref hρ n g) (G.mq hm n g) (ms := fun en => s.mayEmpty ν en) ?_ ?_
    · rintro _ ⟨⟩
      exact ⟨G.up hL hρ hm hc s h.2.2 h'.2.2, _, G.ref hρ n s, G.mq hm n s⟩
    · intro hx
      rcases h'.1 hx with h1 | h1
      · exact .inl h1
      · exact .inr ⟨rfl, h1⟩
  | _, _, .toRecover g st, h, h' => by
    simp only [G.denote, G.cost]
    exact pToRecover_up (G.up hL hρ hm hc g h.2.1 h'.2.1) (G.ref hρ n g) (G.mq hm n g) (CS.up hL hρ hm hc st h.2.2 h'.2.2)
  | _, _, .call k, h, _ => by
    simp only [G.denote, G.cost]
    exact hc h k

theorem GL.up (hL : Length e L) (hρ : EnvRef e ρ σ) (hm : ∀ k, MQ (fun en => ν en k) (σ k))
    (hc : C → ∀ k, UpP e (ρ k) Kc) :
    ∀ {ε : ErrTy S} {α : Type} (gs : GL S N ε α), gs.All (costedL S N C) → gs.All (progressL S N ν) →
      UpPs e (gs.denote ρ n) (gs.cost L Kc)
  | _, _, .nil, _, _ => .nil
  | _, _, .cons g gs, h, h' => .cons (G.up hL hρ hm hc g h.1 h'.1) (GL.up hL hρ hm hc gs h.2 h'.2)

theorem IS.up (hL : Length e L) (hρ : EnvRef e ρ σ) (hm : ∀ k, MQ (fun en => ν en k) (σ k))
    (hc : C → ∀ k, UpP e (ρ k) Kc) {K : Nat} :
    ∀ {ε : ErrTy S} {α : Type} (s : IS S N ε α), s.All (costedL S N C) → s.All (progressL S N ν) →
      UpS e (s.denote ρ n) K (s.cost L K Kc)
  | _, _, .attemptTo, _, _ => .of fun _ _ _ _ => .ret
  | _, _, .skipIf s _, h, h' => by
    simp only [IS.denote, IS.cost]
    refine (IS.up hL hρ hm hc s h.2 h'.2).orElse (IS.ref hρ n s) (.of fun _ _ _ _ => ?_)
    exact by
      refine tokenIs_up.bind' (K' := 1) (fun b => ?_) (by omega)
      cases b
      · exact .ret
      · exact Up.op (K := 0) fun _ => .ret
  | _, _, .pushError s _, h, h' => by
    simp only [IS.denote, IS.cost]
    refine (IS.up hL hρ hm hc s h.2 h'.2).orElse (IS.ref hρ n s) (.of fun _ _ _ _ => ?_)
    exact .ret
  | _, _, .pushErrorHere s _, h, h' => by
    simp only [IS.denote, IS.cost]
    refine (IS.up hL hρ hm hc s h.2 h'.2).orElse (IS.ref hρ n s) (.of fun _ _ _ _ => ?_)
    exact Up.le (Up.op (K := 0) fun _ => .ret) (by omega)
  | _, _, .pushErrorUpToHere s _, h, h' => by
    simp only [IS.denote, IS.cost]
    refine (IS.up hL hρ hm hc s h.2 h'.2).orElse (IS.ref hρ n s) (.of fun _ _ _ _ => ?_)
    exact Up.le (Up.op (K := 0) fun _ => .ret) (by omega)
  | _, _, .pushErrorForToken s _, h, h' => by
    simp only [IS.denote, IS.cost]
    refine (IS.up hL hρ hm hc s h.2 h'.2).orElse (IS.ref hρ n s) (.of fun _ _ _ _ => ?_)
    exact Up.op (K := 1) fun _ => Up.op (K := 0) fun _ => .ret
  | _, _, .updateErrors s _, h, h' => by
    simp only [IS.denote, IS.cost]
    refine (IS.up hL hρ hm hc s h.2 h'.2).orElse (IS.ref hρ n s) (.of fun _ _ _ _ => ?_)
    exact .ret
  | _, _, .updateErrorsHere s _, h, h' => by
    simp only [IS.denote, IS.cost]
    refine (IS.up hL hρ hm hc s h.2 h'.2).orElse (IS.ref hρ n s) (.of fun _ _ _ _ => ?_)
    exact Up.le (Up.op (K := 0) fun _ => .ret) (by omega)
  | _, _, .updateErrorsUpToHere s _, h, h' => by
    simp only [IS.denote, IS.cost]
    refine (IS.up hL hρ hm hc s h.2 h'.2).orElse (IS.ref hρ n s) (.of fun _ _ _ _ => ?_)
    exact Up.le (Up.op (K := 0) fun _ => .ret) (by omega)
  | _, _, .updateErrorsForToken s _, h, h' => by
    simp only [IS.denote, IS.cost]
    refine (IS.up hL hρ hm hc s h.2 h'.2).orElse (IS.ref hρ n s) (.of fun _ _ _ _ => ?_)
    exact Up.op (K := 1) fun _ => Up.op (K := 0) fun _ => .ret
  | _, _, .restart s, h, h' => by
    simp only [IS.denote, IS.cost]
    refine (IS.up hL hρ hm hc s h.2 h'.2).orElse (IS.ref hρ n s) (.of fun _ _ _ _ => ?_)
    exact Up.le (Up.op (K := 0) fun _ => .ret) (by omega)
  | _, _, .seekToFailed s, h, h' => by
    simp only [IS.denote, IS.cost]
    refine (IS.up hL hρ hm hc s h.2 h'.2).orElse (IS.ref hρ n s) (.of fun _ _ _ _ => ?_)
    exact Up.le (Up.op (K := 0) fun _ => .ret) (by omega)
  | _, _, .skip s, h, h' => by
    simp only [IS.denote, IS.cost]
    refine (IS.up hL hρ hm hc s h.2 h'.2).orElse (IS.ref hρ n s) (.of fun _ _ _ _ => ?_)
    exact Up.le (Up.op (K := 0) fun _ => .ret) (by omega)
  | _, _, .boxed s, h, h' => by
    simp only [IS.denote, IS.cost]
    exact IS.up hL hρ hm hc s h.2 h'.2
  | _, _, .find s _, h, h' => by
    simp only [IS.denote, IS.cost]
    refine (IS.up hL hρ hm hc s h.2 h'.2).orElse (IS.ref hρ n s) (.of fun _ _ _ _ => ?_)
    refine Up.bind' (K := 2 * L + 1) (K' := 0) (fun c hw => (findLoop_up hL n c hw).le (by omega)) (fun _ => .ret) (by omega)
  | _, _, .scan s _, h, h' => by
    simp only [IS.denote, IS.cost]
    refine (IS.up hL hρ hm hc s h.2 h'.2).orElse (IS.ref hρ n s) (.of fun _ _ _ _ => ?_)
    refine Up.bind' (K := 3 * L + 2) (K' := 0) (fun c hw => (scanLoop_up hL n _ _ c hw).le (by omega)) (fun _ => .ret) (by omega)
  | _, _, .maybe s t, h, h' => by
    simp only [IS.denote, IS.cost]
    exact (IS.up hL hρ hm hc s h.2.1 h'.2.1).orElse (IS.ref hρ n s) (UpS.attempt (IS.up hL hρ hm hc t h.2.2 h'.2.2))
  | _, _, .whileNot s _ t, h, h' => by
    simp only [IS.denote, IS.cost]
    refine (IS.up hL hρ hm hc s h.2.1 h'.2.1).orElse (IS.ref hρ n s) ?_
    intro p qp m hp hq hm' c st fa es hpre
    exact (whileNotLoop_up hL (IS.up hL hρ hm hc t h.2.2 h'.2.2) (IS.ref hρ n t) (IS.smq hm n t) ⟨h'.2.2, h'.1⟩ hp hq hm'
      n fa es c hpre).le (Nat.add_le_add_right (Nat.mul_le_mul_right _ (Nat.sub_le _ _)) 1)
  | _, _, .retry s _ _, h, h' => by
    simp only [IS.denote, IS.cost]
    refine (IS.up hL hρ hm hc s h.2 h'.2).orElse (IS.ref hρ n s) ?_
    intro p qp m hp hq hm' c st fa es hc
    exact runIn_up hp c hc.wf
  | _, _, .tryToParse s g _ _, h, h' => by
    simp only [IS.denote, IS.cost]
    exact (IS.up hL hρ hm hc s h.2.1 h'.2.1).orElse (IS.ref hρ n s)
      (.of fun _ _ _ _ => runIn_up (G.up hL hρ hm hc g h.2.2 h'.2.2))

theorem CS.up (hL : Length e L) (hρ : EnvRef e ρ σ) (hm : ∀ k, MQ (fun en => ν en k) (σ k))
    (hc : C → ∀ k, UpP e (ρ k) Kc) {K : Nat} :
    ∀ {ε : ErrTy S} {α : Type} (s : CS S N ε α), s.All (costedL S N C) → s.All (progressL S N ν) →
      UpS e (s.denote ρ n) K (s.cost L K Kc)
  | _, _, .ret s _, h, h' => by
    simp only [CS.denote, CS.cost]
    exact (IS.up hL hρ hm hc s h h').orElse (IS.ref hρ n s) (.of fun _ _ _ _ => .ret)
  | _, _, .retWith s _, h, h' => by
    simp only [CS.denote, CS.cost]
    exact (IS.up hL hρ hm hc s h h').orElse (IS.ref hρ n s) (.of fun _ _ _ _ => .ret)
  | _, _, .retWithSpan s _, h, h' => by
    simp only [CS.denote, CS.cost]
    exact (IS.up hL hρ hm hc s h h').orElse (IS.ref hρ n s) (.of fun _ _ _ _ => Up.op (K := 0) fun _ => .ret)
  | _, _, .orFail s, h, h' => by
    simp only [CS.denote, CS.cost]
    exact IS.up hL hρ hm hc s h h'

end

end

theorem G.up_direct {ρ : REnv S N} {σ : QEnv S N} {ν : Bool → N.K → Bool} {L n : Nat} {ε : ErrTy S} {α : Type}
    (hL : Length e L) (hρ : EnvRef e ρ σ) (hm : ∀ k, MQ (fun en => ν en k) (σ k)) (g : G S N ε α)
    (h : g.All (directL S N)) (h' : g.All (progressL S N ν)) : UpP e (g.denote ρ n) (g.cost L) :=
  G.up (C := False) hL hρ hm (fun h => h.elim) g (by rw [← directL_eq]; exact h) h'

/-! ## The bound is a polynomial -/

/-- `f` is bounded by a multiple of `(L + 1) ^ d`. -/
def Poly (d : Nat) (f : Nat → Nat) : Prop := ∃ c, ∀ L, f L ≤ c * (L + 1) ^ d

namespace Poly

variable {d d' : Nat} {f g : Nat → Nat}

theorem le (h : Poly d g) (hf : ∀ L, f L ≤ g L) : Poly d f :=
  let ⟨c, hc⟩ := h
  ⟨c, fun L => Nat.le_trans (hf L) (hc L)⟩

theorem mono (h : Poly d f) (hd : d ≤ d') : Poly d' f :=
  let ⟨c, hc⟩ := h
  ⟨c, fun L => Nat.le_trans (hc L) (Nat.mul_le_mul_left _ (Nat.pow_le_pow_right (Nat.succ_pos L) hd))⟩

theorem const (k : Nat) : Poly d fun _ => k :=
  ⟨k, fun L => Nat.le_mul_of_pos_right _ (Nat.pow_pos (Nat.succ_pos L))⟩

theorem add' (h : Poly d f) (h' : Poly d g) : Poly d fun L => f L + g L :=
  let ⟨c, hc⟩ := h
  let ⟨c', hc'⟩ := h'
  ⟨c + c', fun L => by rw [Nat.add_mul]; exact Nat.add_le_add (hc L) (hc' L)⟩

theorem add (h : Poly d f) (h' : Poly d' g) : Poly (max d d') fun L => f L + g L :=
  (h.mono (Nat.le_max_left _ _)).add' (h'.mono (Nat.le_max_right _ _))

theorem addc (h : Poly d f) (k : Nat) : Poly d fun L => f L + k := h.add' (const k)

theorem smul (h : Poly d f) (k : Nat) : Poly d fun L => k * f L :=
  let ⟨c, hc⟩ := h
  ⟨k * c, fun L => by rw [Nat.mul_assoc]; exact Nat.mul_le_mul_left _ (hc L)⟩

/-- A linear number of times. -/
theorem lin (h : Poly d f) {b : Nat → Nat} {k : Nat} (hb : ∀ L, b L ≤ k * (L + 1)) : Poly (d + 1) fun L => b L * f L :=
  let ⟨c, hc⟩ := h
  ⟨k * c, fun L => by
    refine Nat.le_trans (Nat.mul_le_mul (hb L) (hc L)) (Nat.le_of_eq ?_)
    rw [Nat.pow_succ, Nat.mul_mul_mul_comm, Nat.mul_comm (L + 1)]⟩

end Poly

theorem RepCfg.bound_some {cfg : RepCfg} {M : Nat} (h : cfg.maximum = some M) (L : Nat) : cfg.bound L 0 0 = M := by
  simp [RepCfg.bound, h]

theorem RepCfg.bound_none {cfg : RepCfg} (h : cfg.maximum = none) (L : Nat) :
    cfg.bound L 0 0 + 1 ≤ (cfg.minimum + 2) * (L + 1) := by
  simp only [RepCfg.bound, h, if_true, Nat.sub_zero]
  rw [Nat.mul_add, Nat.add_mul]
  have : 0 ≤ cfg.minimum * L := Nat.zero_le _
  omega

theorem Poly.rep {cfg : RepCfg} {d : Nat} {f : Nat → Nat} (h : Poly d f) :
    Poly (if cfg.maximum.isSome then d else d + 1) fun L => (cfg.bound L 0 0 + 1) * f L + 2 := by
  cases hm : cfg.maximum with
  | some M =>
    simp only [RepCfg.bound_some hm, Option.isSome_some, if_true]
    exact (h.smul (M + 1)).addc 2
  | none =>
    simp only [Option.isSome_none, Bool.false_eq_true, if_false]
    exact (h.lin (RepCfg.bound_none hm)).addc 2

section

variable {Kc : Nat}

mutual

theorem G.poly : ∀ {ε : ErrTy S} {α : Type} (g : G S N ε α), Poly g.loops fun L => g.cost L Kc
  | _, _, .empty => .const _
  | _, _, .none _ => .const _
  | _, _, .eof => .const _
  | _, _, .just _ => .const _
  | _, _, .filter _ => .const _
  | _, _, .filterMap _ => .const _
  | _, _, .seq _ _ => .const _
  | _, _, .oneOf _ => .const _
  | _, _, .noneOf _ => .const _
  | _, _, .call _ => .const _
  | _, _, .boxed g => by
    simp only [G.loops, G.cost]
    exact (G.poly g)
  | _, _, .withError g => by
    simp only [G.loops, G.cost]
    exact (G.poly g)
  | _, _, .to g _ => by
    simp only [G.loops, G.cost]
    exact (G.poly g)
  | _, _, .some g => by
    simp only [G.loops, G.cost]
    exact (G.poly g)
  | _, _, .map _ g => by
    simp only [G.loops, G.cost]
    exact (G.poly g)
  | _, _, .mapErr _ g => by
    simp only [G.loops, G.cost]
    exact (G.poly g)
  | _, _, .mapErrWithSpan _ g => by
    simp only [G.loops, G.cost]
    exact (G.poly g)
  | _, _, .mapWithSpan _ g => by
    simp only [G.loops, G.cost]
    exact (G.poly g).addc 3
  | _, _, .tryMap _ g => by
    simp only [G.loops, G.cost]
    exact (G.poly g).addc 4
  | _, _, .then_ a b => by
    simp only [G.loops, G.cost]
    exact ((G.poly a).add (G.poly b)).addc 3
  | _, _, .thenIgnore a b => by
    simp only [G.loops, G.cost]
    exact ((G.poly a).add (G.poly b)).addc 3
  | _, _, .ignoreThen a b => by
    simp only [G.loops, G.cost]
    exact ((G.poly a).add (G.poly b)).addc 3
  | _, _, .delimitedBy l m r => by
    simp only [G.loops, G.cost, Nat.add_assoc]
    exact (G.poly l).add ((G.poly m).add ((G.poly r).addc 3))
  | _, _, .paddedBy p m => by
    simp only [G.loops, G.cost]
    exact ((((G.poly p).add (G.poly m)).add' ((G.poly p).mono (Nat.le_max_left _ _))).addc 3)
  | _, _, .chain gs => by
    simp only [G.loops, G.cost]
    exact (GL.poly gs).addc 3
  | _, _, .or a b => by
    simp only [G.loops, G.cost]
    exact ((G.poly a).add ((G.poly b).addc 0)).smul 2
  | _, _, .orNot g => by
    simp only [G.loops, G.cost]
    exact ((G.poly g).addc _).smul 2
  | _, _, .alters gs => by
    simp only [G.loops, G.cost]
    exact (GL.poly gs).smul 2
  | _, _, .repeated c g => by
    simp only [G.loops, G.cost]
    exact (((G.poly g).addc 0).addc 4).rep
  | _, _, .separatedBy c g s => by
    simp only [G.loops, G.cost]
    exact (((G.poly g).add (G.poly s)).addc 4).rep
  | _, _, .toRecover g st => by
    simp only [G.loops, G.cost]
    exact ((G.poly g).add (CS.poly st (G.poly g))).addc 5

theorem GL.poly : ∀ {ε : ErrTy S} {α : Type} (gs : GL S N ε α), Poly gs.loops fun L => gs.cost L Kc
  | _, _, .nil => .const _
  | _, _, .cons g gs => by
    simp only [GL.loops, GL.cost]
    exact (G.poly g).add (GL.poly gs)

theorem IS.poly {d : Nat} {K : Nat → Nat} : ∀ {ε : ErrTy S} {α : Type} (s : IS S N ε α), Poly d K →
    Poly (s.loops d) fun L => s.cost L (K L) Kc
  | _, _, .attemptTo, _ => .const _
  | _, _, .skipIf s _, h => by
    simp only [IS.loops, IS.cost]
    exact (IS.poly s h).addc 2
  | _, _, .pushError s _, h => by
    simp only [IS.loops, IS.cost]
    exact (IS.poly s h).addc 2
  | _, _, .pushErrorHere s _, h => by
    simp only [IS.loops, IS.cost]
    exact (IS.poly s h).addc 2
  | _, _, .pushErrorUpToHere s _, h => by
    simp only [IS.loops, IS.cost]
    exact (IS.poly s h).addc 2
  | _, _, .pushErrorForToken s _, h => by
    simp only [IS.loops, IS.cost]
    exact (IS.poly s h).addc 2
  | _, _, .updateErrors s _, h => by
    simp only [IS.loops, IS.cost]
    exact (IS.poly s h).addc 2
  | _, _, .updateErrorsHere s _, h => by
    simp only [IS.loops, IS.cost]
    exact (IS.poly s h).addc 2
  | _, _, .updateErrorsUpToHere s _, h => by
    simp only [IS.loops, IS.cost]
    exact (IS.poly s h).addc 2
  | _, _, .updateErrorsForToken s _, h => by
    simp only [IS.loops, IS.cost]
    exact (IS.poly s h).addc 2
  | _, _, .restart s, h => by
    simp only [IS.loops, IS.cost]
    exact (IS.poly s h).addc 2
  | _, _, .seekToFailed s, h => by
    simp only [IS.loops, IS.cost]
    exact (IS.poly s h).addc 2
  | _, _, .skip s, h => by
    simp only [IS.loops, IS.cost]
    exact (IS.poly s h).addc 2
  | _, _, .boxed s, h => by
    simp only [IS.loops, IS.cost]
    exact (IS.poly s h)
  | _, _, .find s _, h => by
    simp only [IS.loops, IS.cost]
    exact (IS.poly s h).add ⟨2, fun L => by rw [Nat.pow_one]; show 2 * L + 1 ≤ _; omega⟩
  | _, _, .scan s _, h => by
    simp only [IS.loops, IS.cost]
    exact (IS.poly s h).add ⟨3, fun L => by rw [Nat.pow_one]; show 3 * L + 2 ≤ _; omega⟩
  | _, _, .maybe s t, h => by
    simp only [IS.loops, IS.cost]
    exact (IS.poly s h).add ((IS.poly t h).addc 3)
  | _, _, .whileNot s _ t, h => by
    simp only [IS.loops, IS.cost]
    exact (IS.poly s h).add ((((IS.poly t h).addc 2).lin (b := fun L => L) (k := 1) fun L => by omega).addc 1)
  | _, _, .retry s _ _, h => by
    simp only [IS.loops, IS.cost]
    exact (IS.poly s h).add (h.addc 2)
  | _, _, .tryToParse s g _ _, h => by
    simp only [IS.loops, IS.cost]
    exact (IS.poly s h).add ((G.poly g).addc 2)

theorem CS.poly {d : Nat} {K : Nat → Nat} : ∀ {ε : ErrTy S} {α : Type} (s : CS S N ε α), Poly d K →
    Poly (s.loops d) fun L => s.cost L (K L) Kc
  | _, _, .ret s _, h => by simp only [CS.loops, CS.cost]; exact (IS.poly s h).addc 0
  | _, _, .retWith s _, h => by simp only [CS.loops, CS.cost]; exact (IS.poly s h).addc 0
  | _, _, .retWithSpan s _, h => by simp only [CS.loops, CS.cost]; exact (IS.poly s h).addc 1
  | _, _, .orFail s, h => by simp only [CS.loops, CS.cost]; exact IS.poly s h

end

end

end PPC
