import Verif.SemCost
import Verif.SemTerm

/-!
# Upper bounds on the number of calls: lemmas
-/

namespace PPC

variable {S : Sig} {N : Names S} {e : Env S}

theorem Prog.run_wf {α : Type} (p : Prog S α) : ∀ {c c' : Cursor} {a : α}, c.WF e →
    p.run (Cursor.step e) c = .ok (a, c') → c'.WF e := by
  induction p with
  | ret a => intro c c' b h hr; cases hr; exact h
  | panic m => intro c c' b h hr; cases hr
  | oof => intro c c' b h hr; cases hr
  | op o k ih =>
    intro c c' b h hr
    simp only [Prog.run] at hr
    obtain ⟨x, h1, h2⟩ := Out.bind_eq_ok.1 hr
    exact ih _ (h.step o h1) h2

/-- From `c`, the client makes at most `K` calls. -/
def AtMost {α : Type} (e : Env S) (p : Prog S α) (c : Cursor) (K : Nat) : Prop := p.calls (Cursor.step e) c ≤ K

/-- From every state, the client makes at most `K` calls. -/
def Up {α : Type} (e : Env S) (p : Prog S α) (K : Nat) : Prop := ∀ c : Cursor, c.WF e → AtMost e p c K

section

variable {α β : Type} {c : Cursor} {K K' : Nat}

theorem AtMost.ret {a : α} : AtMost e (.ret a) c K := Nat.zero_le _
theorem AtMost.pure {a : α} : AtMost e (pure a) c K := Nat.zero_le _
theorem AtMost.panic {m : String} : AtMost e (.panic m : Prog S α) c K := Nat.zero_le _
theorem AtMost.oof : AtMost e (.oof : Prog S α) c K := Nat.zero_le _

theorem AtMost.le {p : Prog S α} (h : AtMost e p c K) (hk : K ≤ K') : AtMost e p c K' := Nat.le_trans h hk

theorem AtMost.bind {p : Prog S α} {k : α → Prog S β} (h : AtMost e p c K)
    (hk : ∀ a c', p.run (Cursor.step e) c = .ok (a, c') → AtMost e (k a) c' K') : AtMost e (p.bind k) c (K + K') := by
  unfold AtMost at *
  rw [Prog.calls_bind]
  refine Nat.add_le_add h ?_
  cases hr : p.run (Cursor.step e) c with
  | ok x => exact hk x.1 x.2 hr
  | panic m => exact Nat.zero_le _
  | oof => exact Nat.zero_le _
  | stuck => exact Nat.zero_le _

theorem AtMost.op {o : Op S} {k : o.Resp → Prog S α}
    (hk : ∀ r c', Cursor.step e o c = .ok (r, c') → AtMost e (k r) c' K) : AtMost e (.op o k) c (1 + K) := by
  unfold AtMost at *
  rw [Prog.calls]
  split
  · rename_i x hx; exact Nat.add_le_add_left (hk x.1 x.2 hx) 1
  · omega

theorem Up.ret {a : α} : Up e (.ret a) K := fun _ _ => .ret
theorem Up.pure {a : α} : Up e (pure a) K := fun _ _ => .pure
theorem Up.panic {m : String} : Up e (.panic m : Prog S α) K := fun _ _ => .panic
theorem Up.oof : Up e (.oof : Prog S α) K := fun _ _ => .oof
theorem Up.le {p : Prog S α} (h : Up e p K) (hk : K ≤ K') : Up e p K' := fun c hw => (h c hw).le hk

theorem Up.bind {p : Prog S α} {k : α → Prog S β} (h : Up e p K) (hk : ∀ a, Up e (k a) K') :
    Up e (p.bind k) (K + K') := fun c hw =>
  (h c hw).bind fun a _ hr => hk a _ (p.run_wf hw hr)

theorem Up.bind' {p : Prog S α} {k : α → Prog S β} {K0 : Nat} (h : Up e p K) (hk : ∀ a, Up e (k a) K')
    (hle : K + K' ≤ K0) : Up e (p.bind k) K0 := (h.bind hk).le hle

theorem Up.op {o : Op S} {k : o.Resp → Prog S α} (hk : ∀ r, Up e (k r) K) : Up e (.op o k) (1 + K) :=
  fun _ hw => .op fun r _ hs => hk r _ (hw.step o hs)

/-- One call. -/
theorem Up.one {o : Op S} : Up e (.op o .ret) 1 := Up.op (K := 0) fun _ => .ret

theorem Up.withSave {body : SavedState → Prog S α} (h : ∀ m, Up e (body m) K) :
    Up e (Prog.withSave body) (K + 2) := by
  refine Up.le (K := 1 + (K + (1 + 0))) ?_ (by omega)
  unfold Prog.withSave; prog
  exact Up.op fun m => Up.bind (h m) fun a => Up.op fun _ => .ret

theorem Up.attempt {f : Prog S (Bool × α)} (h : Up e f K) : Up e (Prog.attempt f) (K + 3) := by
  refine Up.le (Up.withSave (K := K + 1) fun m => Up.bind h fun a => ?_) (by omega)
  obtain ⟨b, r⟩ := a
  cases b
  · exact Up.op (K := 0) fun _ => .ret
  · exact .ret

end

/-! ## Primitives -/

section

variable {ε : ErrTy S} {α : Type} {en : Bool}

theorem pEnd_up : Up e (pEnd ε en) 4 := by
  refine Up.le (K := 1 + (1 + (1 + (1 + 0)))) ?_ (by omega)
  unfold pEnd; prog
  refine Up.op fun t => ?_
  cases t.isNone
  · exact .op fun _ => .op fun _ => .op fun _ => .ret
  · exact .ret

theorem pJust_up {x : S.I} : Up e (pJust ε x en) 3 := by
  refine Up.le (K := 1 + (1 + (1 + 0))) ?_ (by omega)
  unfold pJust; prog
  refine Up.op fun t => ?_
  split
  · exact .op fun _ => .ret
  · exact .op fun _ => .op fun _ => .ret

theorem pFilter_up {p : S.I → Bool} : Up e (pFilter ε p en) 6 := by
  refine Up.attempt (K := 1 + (1 + (1 + 0))) ?_
  prog
  refine Up.op fun t => ?_
  split
  · split
    · exact .op fun _ => .ret
    · exact .op fun _ => .op fun _ => .ret
  · exact .op fun _ => .op fun _ => .ret

theorem pFilterMap_up {f : S.I → Option α} : Up e (pFilterMap ε f en) 3 := by
  refine Up.le (K := 1 + (1 + (1 + 0))) ?_ (by omega)
  unfold pFilterMap; prog
  refine Up.op fun t => ?_
  split
  · exact .op fun _ => .ret
  · exact .op fun _ => .op fun _ => .ret

theorem seqLoop_up : ∀ (items : List S.I), Up e (seqLoop (α := α) ε items) (2 * items.length + 1)
  | [] => .ret
  | x :: items => by
    refine Up.le (K := 1 + (1 + (2 * items.length + 1))) ?_ (by simp; omega)
    unfold seqLoop; prog
    refine Up.op fun t => ?_
    split
    · exact .op fun _ => seqLoop_up items
    · exact .op fun _ => Up.le (Up.op (K := 0) fun _ => .ret) (by omega)

theorem pSeq_up {v : α} {items : List S.I} : Up e (pSeq ε v items en) (2 * items.length + 4) := by
  refine Up.attempt ?_
  refine Up.bind' (K' := 0) (seqLoop_up items) (fun a => ?_) (by omega)
  cases a <;> exact .ret

theorem pOneOf_up {items : List S.I} : Up e (pOneOf ε items en) 3 := by
  refine Up.le (K := 1 + (1 + (1 + 0))) ?_ (by omega)
  unfold pOneOf; prog
  refine Up.op fun t => ?_
  split
  · split
    · exact .op fun _ => .ret
    · exact .op fun _ => .op fun _ => .ret
  · exact .op fun _ => .op fun _ => .ret

theorem pNoneOf_up {items : List S.I} : Up e (pNoneOf ε items en) 3 := by
  refine Up.le (K := 1 + (1 + (1 + 0))) ?_ (by omega)
  unfold pNoneOf; prog
  refine Up.op fun t => ?_
  split
  · split
    · exact .op fun _ => .op fun _ => .ret
    · exact .op fun _ => .ret
  · exact .op fun _ => .op fun _ => .ret

end

/-! ## Combinators -/

section

variable {E α β γ δ : Type}

/-- With recovery enabled and disabled, the parser makes at most `K` calls. -/
def UpP (e : Env S) (p : Parser S E α) (K : Nat) : Prop := ∀ en, Up e (p en) K

theorem UpP.post {p : Parser S E α} {K : Nat} (h : UpP e p K) (f : Res α E → Res β γ) :
    UpP e (fun en => (p en).bind fun r => .ret (f r)) K := fun en => (h en).bind' (K' := 0) (fun _ => .ret) (by omega)

theorem pMapWithSpan_up {p : Parser S E α} {K : Nat} (h : UpP e p K) {f : α → S.Span → β} :
    UpP e (pMapWithSpan f p) (K + 3) := fun en => by
  refine Up.withSave (K := K + 1) fun m => Up.bind (h en) fun r => ?_
  cases r with
  | success a => exact Up.op (K := 0) fun _ => .ret
  | recovered a es => exact Up.op (K := 0) fun _ => .ret
  | failed i es => exact .ret

theorem tryMapBody_up {f : α → S.Span → TryMapResult β E} {en : Bool} {m : SavedState} {a : α} :
    Up e (tryMapBody f en m a) 2 := by
  refine Up.le (K := 1 + (1 + 0)) ?_ (by omega)
  unfold tryMapBody; prog
  refine Up.op fun sp => ?_
  split
  · exact .ret
  · split
    · exact .panic
    · exact .op fun _ => .ret
  · split
    · exact .panic
    · split <;> exact .ret

theorem pTryMap_up {p : Parser S E α} {K : Nat} (h : UpP e p K) {f : α → S.Span → TryMapResult β E} :
    UpP e (pTryMap f p) (K + 4) := fun en => by
  refine Up.withSave (K := K + 2) fun m => Up.bind (h en) fun r => ?_
  cases r with
  | success a => exact tryMapBody_up
  | recovered a es =>
    refine Up.bind' (K' := 0) tryMapBody_up (fun r => ?_) (by omega)
    cases r <;> exact .ret
  | failed i es => exact .ret

theorem finishRec_up {en : Bool} {o : α} {r : Option (List E)} {K : Nat} : Up e (finishRec (S := S) en o r) K := by
  unfold finishRec
  split
  · split
    · exact .ret
    · exact .panic
  · exact .ret

theorem concatLast_up {p : Parser S E β} {K : Nat} (h : UpP e p K) {en : Bool} {m : SavedState} {f : β → γ}
    {r : Option (List E)} : Up e (concatLast en m f p r) (K + 1) := by
  refine Up.bind (h en) fun x => ?_
  cases x with
  | success b => exact finishRec_up
  | recovered b es => exact finishRec_up
  | failed i es => exact Up.op (K := 0) fun _ => .ret

theorem concatMid_up {p : Parser S E β} {q : Parser S E γ} {K K' : Nat} (h : UpP e p K) (h' : UpP e q K') {en : Bool}
    {m : SavedState} {f : β × γ → δ} {r : Option (List E)} : Up e (concatMid en m f p q r) (K + (K' + 1)) := by
  refine Up.bind (h en) fun x => ?_
  cases x with
  | success b => exact concatLast_up h'
  | recovered b es => exact concatLast_up h'
  | failed i es => exact Up.le (Up.op (K := 0) fun _ => .ret) (by omega)

theorem concat2_up {p : Parser S E α} {q : Parser S E β} {K K' : Nat} (h : UpP e p K) (h' : UpP e q K') {f : α × β → γ} :
    UpP e (concat2 f p q) (K + K' + 3) := fun en => by
  refine Up.le (Up.withSave (K := K + (K' + 1)) fun m => Up.bind (h en) fun x => ?_) (by omega)
  cases x with
  | success b => exact concatLast_up h'
  | recovered b es => exact concatLast_up h'
  | failed i es => exact .ret

theorem concat3_up {p : Parser S E α} {q : Parser S E β} {r : Parser S E γ} {K K' K'' : Nat} (h : UpP e p K)
    (h' : UpP e q K') (h'' : UpP e r K'') {f : α × β × γ → δ} :
    UpP e (concat3 f p q r) (K + K' + K'' + 3) := fun en => by
  refine Up.le (Up.withSave (K := K + (K' + (K'' + 1))) fun m => Up.bind (h en) fun x => ?_) (by omega)
  cases x with
  | success b => exact concatMid_up h' h''
  | recovered b es => exact concatMid_up h' h''
  | failed i es => exact .ret

/-- The parsers of a list, and a bound for each of them. -/
inductive UpPs (e : Env S) {E α : Type} : List (Parser S E α) → Nat → Prop
  | nil : UpPs e [] 0
  | cons {p : Parser S E α} {ps : List (Parser S E α)} {K K' : Nat} : UpP e p K → UpPs e ps K' → UpPs e (p :: ps) (K + K')

theorem concatRest_up {en : Bool} {m : SavedState} : ∀ {ps : List (Parser S E α)} {K : Nat} {out : List α}
    {r : Option (List E)}, UpPs e ps K → Up e (concatRest en m ps out r) (K + 1)
  | [], _, _, _, _ => finishRec_up
  | p :: ps, _, out, r, .cons (K := K) (K' := K') h h' => by
    rw [Nat.add_assoc]
    refine Up.bind (h en) fun x => ?_
    cases x with
    | success b => exact concatRest_up h'
    | recovered b es => exact concatRest_up h'
    | failed i es => exact Up.le (Up.op (K := 0) fun _ => .ret) (by omega)

theorem concatList_up {ps : List (Parser S E α)} {K : Nat} (h : UpPs e ps K) : UpP e (concatList ps) (K + 3) := fun en => by
  refine Up.withSave (K := K + 1) fun m => ?_
  cases h with
  | nil => exact finishRec_up
  | cons h h' =>
    rw [Nat.add_assoc]
    refine Up.bind (h en) fun x => ?_
    cases x with
    | success b => exact concatRest_up h'
    | recovered b es => exact concatRest_up h'
    | failed i es => exact .ret

theorem altFirst_up : ∀ {ps : List (Parser S E α)} {K : Nat} {fs : List (Failure S E α)},
    UpPs e ps K → Up e (altFirst ps fs) K
  | [], _, _, _ => .ret
  | p :: ps, _, fs, .cons h h' => by
    refine Up.bind (h false) fun x => ?_
    cases x with
    | success b => exact .ret
    | recovered b es => exact .panic
    | failed i es => exact altFirst_up h'

theorem altFirst_fails : ∀ {ps : List (Parser S E α)} {fs fs' : List (Failure S E α)} {c c' : Cursor},
    (altFirst ps fs).run (Cursor.step e) c = .ok (.inr fs', c') → fs'.map (fun f => f.2.2) = fs.map (fun f => f.2.2) ++ ps
  | [], fs, fs', c, c', h => by cases h; simp
  | p :: ps, fs, fs', c, c', h => by
    obtain ⟨⟨r, c2⟩, h1, h2⟩ := Out.bind_eq_ok.1 ((Prog.run_bind _ _ _ _).symm.trans h)
    cases r with
    | success b => cases h2
    | recovered b es => cases h2
    | failed i es =>
      rw [altFirst_fails h2]
      simp

theorem UpPs.insertDesc {x : Failure S E α} {K : Nat} (h : UpP e x.2.2 K) : ∀ {fs : List (Failure S E α)} {K' : Nat},
    UpPs e (fs.map fun f => f.2.2) K' → UpPs e ((PPC.insertDesc x fs).map fun f => f.2.2) (K' + K)
  | [], _, h' => by
    rw [Nat.add_comm]; exact .cons h h'
  | f :: fs, _, h' => by
    unfold PPC.insertDesc
    split
    · rw [Nat.add_comm]; exact .cons h h'
    · cases h' with
      | cons h1 h2 => rw [Nat.add_assoc]; exact .cons h1 (h2.insertDesc h)

theorem UpPs.foldl : ∀ {fs : List (Failure S E α)} {K : Nat}, UpPs e (fs.map fun f => f.2.2) K →
    ∀ {gs : List (Failure S E α)} {K' : Nat}, UpPs e (gs.map fun f => f.2.2) K' →
      UpPs e ((fs.foldl (fun acc x => PPC.insertDesc x acc) gs).map fun f => f.2.2) (K' + K)
  | [], _, .nil, _, _, h' => h'
  | f :: fs, _, .cons h1 h2, gs, K', h' => by
    rw [← Nat.add_assoc]
    exact UpPs.foldl h2 (h'.insertDesc h1)

theorem UpPs.sortDesc {fs : List (Failure S E α)} {K : Nat} (h : UpPs e (fs.map fun f => f.2.2) K) :
    UpPs e ((PPC.sortDesc fs).map fun f => f.2.2) K := by
  have := UpPs.foldl h (gs := []) .nil
  rwa [Nat.zero_add] at this

theorem altRecover_up : ∀ {fs : List (Failure S E α)} {K : Nat}, UpPs e (fs.map fun f => f.2.2) K →
    Up e (altRecover fs) K
  | [], _, _ => .ret
  | f :: fs, _, .cons h h' => by
    refine Up.bind (h true) fun x => ?_
    cases x with
    | success b => exact .panic
    | recovered b es => exact .ret
    | failed i es => exact altRecover_up h'

theorem altCombine_up {ε : ErrTy S} {fs : List (Failure S ε.E α)} {K : Nat} : Up e (altCombine ε fs) K := by
  have h1 : ∀ fs : List (Failure S ε.E α), Up e (altElse ε fs) K := by
    intro fs; unfold altElse; split
    · exact .ret
    · exact .panic
  unfold altCombine
  split
  · exact .panic
  · split
    · split
      · exact .ret
      · exact h1 _
    · exact h1 _

theorem alternate_up {ε : ErrTy S} {ps : List (Parser S ε.E α)} {K : Nat} (h : UpPs e ps K) :
    UpP e (alternate ε ps) (2 * K) := fun en c hw => by
  rw [Nat.two_mul]
  refine (altFirst_up h c hw).bind fun a c' hr => ?_
  have hw' := Prog.run_wf _ hw hr
  cases a with
  | inl o => exact .ret
  | inr fs =>
    have h1 : UpPs e (fs.map fun f => f.2.2) K := by
      rw [altFirst_fails hr]; exact h
    show AtMost e (if fs.isEmpty then _ else _) c' K
    split
    · exact .panic
    · cases en
      · exact altCombine_up c' hw'
      · refine Up.bind' (K' := 0) (altRecover_up h1.sortDesc) (fun r => ?_) (by omega) c' hw'
        cases r with
        | some r => exact .ret
        | none => exact altCombine_up

/-! ## Repetition -/

theorem PRef.of_run {p : Parser S E α} {q : PSem E α} (h : PRef e p q) {en : Bool} {c c' : Cursor} {r : Res α E}
    (hw : c.WF e) (hr : (p en).run (Cursor.step e) c = .ok (r, c')) : q en c.pos = .ok (r, c'.pos) := by
  have h1 := h en c hw
  unfold Ref at h1
  rw [hr] at h1
  cases hq : q en c.pos with
  | ok g =>
    rw [hq] at h1
    obtain ⟨-, h3, -⟩ := h1
    rw [h3]
  | panic m => rw [hq] at h1; exact h1.elim
  | oof => rw [hq] at h1; exact h1.elim
  | stuck => rw [hq] at h1; exact h1.elim

theorem dropOpt_run {m : Option SavedState} {c c' : Cursor} {u : Unit}
    (hr : (dropOpt (S := S) m).run (Cursor.step e) c = .ok (u, c')) : c'.pos = c.pos := by
  cases m with
  | none => cases hr; rfl
  | some m =>
    obtain ⟨x, h1, h2⟩ := Out.bind_eq_ok.1 hr
    cases h2
    simp only [Cursor.step] at h1
    split at h1
    · cases h1; rfl
    · cases h1

theorem dropOpt_up {m : Option SavedState} : Up e (dropOpt (S := S) m) 1 := by
  cases m with
  | none => exact .ret
  | some m => exact .one

theorem Length.pos_le {L : Nat} (hL : Length e L) {c : Cursor} (hw : c.WF e) : c.pos ≤ L := hL.le.1 (hw.valid hw.posLe)

theorem repeatLoop_up {cfg : RepCfg} {L Ki Ks : Nat} (hL : Length e L) {item : Parser S E α} {qi : PSem E α}
    {sep : Option (Parser S E β)} {mi ms : Bool → Bool} (hi : UpP e item Ki) (hri : PRef e item qi) (hmi : MQ mi qi)
    (hs : ∀ s, sep = some s → UpP e s Ks ∧ ∃ qs, PRef e s qs ∧ MQ ms qs)
    (hp : cfg.maximum = none → mi false = false ∨ (sep.isSome ∧ ms false = false)) {en : Bool} {m0 : SavedState} :
    ∀ (fuel : Nat) (out : List α) (r : Option (List E)) (c : Cursor), c.WF e →
      AtMost e (repeatLoop cfg item sep en m0 fuel out r) c ((cfg.bound L out.length c.pos + 1) * (Ki + Ks + 4))
  | 0, _, _, _, _ => .oof
  | fuel + 1, out, r, c, hw => by
    have hitem : (!cfg.allowTrailing && cfg.atMax out.length) = false → ∀ (before : Option SavedState)
        (r : Option (List E)) (c2 : Cursor), c2.WF e → c.pos ≤ c2.pos →
        (cfg.maximum = none → cfg.minimum ≤ out.length → out ≠ [] → mi false = false ∨ c.pos < c2.pos) →
        AtMost e (repeatItem cfg item en m0 (repeatLoop cfg item sep en m0 fuel) out r before) c2
          (Ki + (2 + cfg.bound L out.length c.pos * (Ki + Ks + 4))) := by
      intro hmax1 before r c2 hw2 h4 h6
      unfold repeatItem
      split
      · refine AtMost.le ((dropOpt_up c2 hw2).bind (K' := 0) fun _ c3 _ => ?_) (by omega)
        exact finishRec_up c3 (Prog.run_wf _ hw2 ‹_›)
      · rename_i hmax2
        have hmax : cfg.atMax out.length = false := by
          cases ha : cfg.allowTrailing <;> cases hb : cfg.atMax out.length <;> simp [ha, hb] at hmax1 hmax2 ⊢
        refine (hi _ c2 hw2).bind fun x c3 hr3 => ?_
        have hw3 := Prog.run_wf _ hw2 hr3
        have hq := hri.of_run hw2 hr3
        have hlt : (∀ y es, x ≠ .failed y es) → cfg.bound L (out.length + 1) c3.pos < cfg.bound L out.length c.pos := by
          intro hx
          have hst := (hmi _ _ _ _ hq).1
          refine RepCfg.bound_lt hmax (by omega) (hL.pos_le hw3) fun hmx hmin hne => ?_
          rcases h6 hmx hmin (by intro h0; rw [h0] at hne; exact hne rfl) with h7 | h7
          · have h8 : (en && decide (out.length < cfg.minimum)) = false := by
              simp only [Bool.and_eq_false_iff, decide_eq_false_iff_not]; right; omega
            rw [h8] at hq
            have := hmi.lt hq hx h7
            omega
          · omega
        have hag : (∀ y es, x ≠ .failed y es) → ∀ o r', AtMost e
            ((dropOpt before).bind fun _ => repeatLoop cfg item sep en m0 fuel (out ++ [o]) r') c3
            (2 + cfg.bound L out.length c.pos * (Ki + Ks + 4)) := by
          intro hx o r'
          refine AtMost.le ((dropOpt_up c3 hw3).bind (K' := cfg.bound L out.length c.pos * (Ki + Ks + 4))
            fun _ c4 hr4 => ?_) (by omega)
          refine (repeatLoop_up hL hi hri hmi hs hp fuel (out ++ [o]) r' c4 (Prog.run_wf _ hw3 hr4)).le ?_
          rw [dropOpt_run hr4, List.length_append, List.length_singleton]
          exact Nat.mul_le_mul_right _ (hlt hx)
        cases x with
        | success y => exact hag (by simp) _ _
        | recovered y es => exact hag (by simp) _ _
        | failed y es =>
          refine AtMost.le (K := 2) ?_ (by omega)
          show AtMost e (if cfg.minimum ≤ out.length then _ else _) c3 2
          split
          · cases before with
            | none => exact .ret
            | some m =>
              cases cfg.allowTrailing
              · exact Up.op (K := 1) (fun _ => Up.op (K := 0) fun _ => .ret) c3 hw3
              · exact AtMost.le (Up.op (K := 0) (fun _ => .ret) c3 hw3) (by omega)
          · refine Up.op (K := 1) (fun _ => ?_) c3 hw3
            exact dropOpt_up.bind' (K' := 0) (fun _ => .ret) (by omega)
    have hfin : ∀ K', K' ≤ Ks + Ki + 4 → K' + cfg.bound L out.length c.pos * (Ki + Ks + 4) ≤
        (cfg.bound L out.length c.pos + 1) * (Ki + Ks + 4) := by
      intro K' h; rw [Nat.add_mul]; omega
    rw [repeatLoop]
    split
    · exact finishRec_up c hw
    · rename_i hmax
      replace hmax : (!cfg.allowTrailing && cfg.atMax out.length) = false := by simpa using hmax
      cases sep with
      | none =>
        refine AtMost.le (hitem hmax none r c hw (Nat.le_refl _) fun hmx _ _ => .inl ?_) ?_
        · rcases hp hmx with h | h
          · exact h
          · cases h.1
        · rw [← Nat.add_assoc]; exact hfin _ (by omega)
      | some s =>
        obtain ⟨h1, qs, h2, h3⟩ := hs s rfl
        cases hsep : (!out.isEmpty || cfg.allowLeading) with
        | false =>
          refine AtMost.le (hitem hmax none r c hw (Nat.le_refl _) fun _ _ hne => ?_) ?_
          · cases out with
            | nil => exact (hne rfl).elim
            | cons a out => simp at hsep
          · rw [← Nat.add_assoc]; exact hfin _ (by omega)
        | true =>
          simp only
          prog
          refine AtMost.le (K := 1 + (Ks + (Ki + (2 + cfg.bound L out.length c.pos * (Ki + Ks + 4))))) ?_ ?_
          · refine AtMost.op fun b c1 hc1 => ?_
            have hw1 := hw.step _ hc1
            have hpos : c1.pos = c.pos := by cases hc1; rfl
            refine (h1 _ c1 hw1).bind fun x c2 hr2 => ?_
            have hw2 := Prog.run_wf _ hw1 hr2
            have hq := h2.of_run hw1 hr2
            have hle := (h3 _ _ _ _ hq).1
            have hprog : (∀ y es, x ≠ .failed y es) → cfg.maximum = none → cfg.minimum ≤ out.length → out ≠ [] →
                mi false = false ∨ c.pos < c2.pos := by
              intro hx hmx hmin _
              rcases hp hmx with h | h
              · exact .inl h
              · right
                have h8 : (en && decide (out.length < cfg.minimum) && !out.isEmpty) = false := by
                  have : decide (out.length < cfg.minimum) = false := by
                    simp only [decide_eq_false_iff_not]; omega
                  rw [this]; simp
                rw [h8] at hq
                have := h3.lt hq hx h.2
                omega
            cases x with
            | success y => exact hitem hmax _ _ c2 hw2 (by omega) (hprog (by simp))
            | recovered y es => exact hitem hmax _ _ c2 hw2 (by omega) (hprog (by simp))
            | failed y es =>
              show AtMost e (if out.isEmpty then _ else _) c2 _
              split
              · rename_i hemp
                refine hitem hmax _ _ c2 hw2 (by omega) fun _ _ hne => ?_
                exact (hne (by simpa using hemp)).elim
              · refine AtMost.le (K := 2) ?_ (by omega)
                split
                · exact AtMost.le (Up.op (K := 0) (fun _ => .ret) c2 hw2) (by omega)
                · exact Up.op (K := 1) (fun _ => Up.op (K := 0) fun _ => .ret) c2 hw2
          · have := hfin (1 + Ks + Ki + 2) (by omega)
            omega

theorem repeatP_up {cfg : RepCfg} {L Ki Ks n : Nat} (hL : Length e L) {item : Parser S E α} {qi : PSem E α}
    {sep : Option (Parser S E β)} {mi ms : Bool → Bool} (hi : UpP e item Ki) (hri : PRef e item qi) (hmi : MQ mi qi)
    (hs : ∀ s, sep = some s → UpP e s Ks ∧ ∃ qs, PRef e s qs ∧ MQ ms qs)
    (hp : cfg.maximum = none → mi false = false ∨ (sep.isSome ∧ ms false = false)) :
    UpP e (repeatP n cfg item sep) ((cfg.bound L 0 0 + 1) * (Ki + Ks + 4) + 2) := fun en => by
  refine Up.withSave fun m c hw => ?_
  refine (repeatLoop_up hL hi hri hmi hs hp n [] none c hw).le (Nat.mul_le_mul_right _ (Nat.succ_le_succ ?_))
  unfold RepCfg.bound
  cases cfg.maximum with
  | none => simp only [List.length_nil]; omega
  | some M => simp

/-! ## Recovery -/

/-- Whatever parser it is given that makes at most `Kp` calls, the strategy makes at most `K` calls. -/
def UpS (e : Env S) (s : Strat S E α) (Kp K : Nat) : Prop :=
  ∀ p qp m, UpP e p Kp → PRef e p qp → MQ m qp → ∀ c st fa es, SPre e c st fa → AtMost e (s p st fa es) c K

theorem UpS.orElse {s act : Strat S E α} {q : SSem E α} {Kp K K' : Nat} (h : UpS e s Kp K) (hr : SRef e s q)
    (ha : UpS e act Kp K') : UpS e (s.orElse act) Kp (K + K') := by
  intro p qp m hp hq hm c st fa es hc
  refine (h p qp m hp hq hm c st fa es hc).bind fun r c' hrun => ?_
  obtain ⟨o, fa', es'⟩ := r
  cases o with
  | some o => exact .ret
  | none =>
    have h1 := hr p qp hq c st fa es hc
    unfold Ref at h1
    rw [hrun] at h1
    cases hq' : q qp st.index fa.index es c.pos with
    | ok g =>
      rw [hq'] at h1
      exact ha p qp m hp hq hm c' st fa' es' (SPost.pre hc h1)
    | panic m => rw [hq'] at h1; exact h1.elim
    | oof => rw [hq'] at h1; exact h1.elim
    | stuck => rw [hq'] at h1; exact h1.elim

/-- An action that makes at most `K` calls whatever the state is. -/
theorem UpS.of {act : Strat S E α} {Kp K : Nat} (h : ∀ p st fa es, Up e (act p st fa es) K) : UpS e act Kp K :=
  fun p _ _ _ _ _ c st fa es hc => h p st fa es c hc.wf

theorem tokenIs_up {p : S.I → Bool} {b : Bool} : Up e (tokenIs p b) 1 := by
  unfold tokenIs; prog
  exact Up.op (K := 0) fun _ => .ret

theorem tokenIs_run {p : S.I → Bool} {c c' : Cursor} {b x : Bool}
    (hr : (tokenIs p b).run (Cursor.step e) c = .ok (x, c')) : c'.pos = c.pos ∧ (e.source c.pos = none → x = b) := by
  unfold tokenIs at hr
  cases hr
  exact ⟨rfl, fun h => by show (match e.source c.pos with | some t => p t | none => b) = b; rw [h]⟩

theorem findLoop_up {L : Nat} (hL : Length e L) {p : S.I → Bool} : ∀ (n : Nat) (c : Cursor), c.WF e →
    AtMost e (findLoop p n) c (2 * (L - c.pos) + 1)
  | 0, _, _ => .oof
  | n + 1, c, hw => by
    unfold findLoop
    by_cases hc : c.pos = L
    · refine AtMost.le ((tokenIs_up c hw).bind (K' := 0) fun x c' hr => ?_) (by omega)
      have := (tokenIs_run hr).2 (by rw [hc]; exact hL.stop)
      subst this
      exact .ret
    · have := hL.pos_le hw
      refine AtMost.le ((tokenIs_up c hw).bind (K' := 1 + (2 * (L - (c.pos + 1)) + 1)) fun x c' hr => ?_) (by omega)
      have hw' := Prog.run_wf _ hw hr
      have hpos := (tokenIs_run hr).1
      cases x with
      | true => exact .ret
      | false =>
        refine AtMost.op fun b c2 hs => ?_
        have hw2 := hw'.step _ hs
        refine (findLoop_up hL n c2 hw2).le ?_
        simp only [Cursor.step, hpos, hL.all c.pos (by omega), if_true] at hs
        cases hs
        show 2 * (L - (c.pos + 1)) + 1 ≤ _
        omega

theorem scanLoop_up {L : Nat} (hL : Length e L) {sc : Scanner S E} : ∀ (n : Nat) (st : sc.σ) (es : List E) (c : Cursor),
    c.WF e → AtMost e (scanLoop sc n st es) c (3 * (L - c.pos) + 2)
  | 0, _, _, _, _ => .oof
  | n + 1, st, es, c, hw => by
    unfold scanLoop; prog
    by_cases hc : c.pos = L
    · refine AtMost.le (AtMost.op (K := 1) fun t c' hs => ?_) (by omega)
      have hw' := hw.step _ hs
      simp only [Cursor.step, hc, hL.stop] at hs
      cases hs
      exact Up.op (K := 0) (fun _ => .ret) _ hw'
    · have := hL.pos_le hw
      refine AtMost.le (K := 1 + (1 + (1 + (3 * (L - (c.pos + 1)) + 2)))) ?_ (by omega)
      refine AtMost.op fun t c' hs => ?_
      have hw' := hw.step _ hs
      have hpos : c'.pos = c.pos := by cases hs; rfl
      cases t with
      | none => exact AtMost.le (Up.op (K := 0) (fun _ => .ret) _ hw') (by omega)
      | some t =>
        refine AtMost.op fun sp c2 hs2 => ?_
        have hw2 := hw'.step _ hs2
        have hpos2 : c2.pos = c.pos := by cases hs2; exact hpos
        split
        · exact .panic
        · exact .ret
        · refine AtMost.op fun b c3 hs3 => ?_
          have hw3 := hw2.step _ hs3
          refine (scanLoop_up hL n _ _ c3 hw3).le ?_
          simp only [Cursor.step, hpos2, hL.all c.pos (by omega), if_true] at hs3
          cases hs3
          show 3 * (L - (c.pos + 1)) + 2 ≤ _
          omega

theorem runIn_up {p : Parser S E α} {K : Nat} (h : UpP e p K) {exact silent : Bool} {fa : SavedState} {es : List E} :
    Up e (runIn p exact silent fa es) (K + 2) := by
  unfold runIn
  refine Up.bind (h _) fun x => ?_
  cases x with
  | success o => exact .ret
  | recovered o es => exact .ret
  | failed i es => exact Up.op (K := 1) fun _ => Up.op (K := 0) fun _ => .ret

end

end PPC
