import Verif.SemMemory2
import Verif.SemCost3

/-!
# Recursion and streaming

Helper lemmas for C53: saved states owned by recursive parsers, and the buffer while streaming.
-/

namespace PPC

variable {S : Sig} {N : Names S} {e : Env S} {al : Alloc}

/-! ## Recursion -/

mutual

theorem G.saves_le (r : Nat) : ∀ {ε : ErrTy S} {α : Type} (g : G S N ε α), g.saves r ≤ g.saves 0 + r
  | _, _, .empty => by simp only [G.saves]; omega
  | _, _, .none _ => by simp only [G.saves]; omega
  | _, _, .eof => by simp only [G.saves]; omega
  | _, _, .just _ => by simp only [G.saves]; omega
  | _, _, .filter _ => by simp only [G.saves]; omega
  | _, _, .filterMap _ => by simp only [G.saves]; omega
  | _, _, .seq _ _ => by simp only [G.saves]; omega
  | _, _, .oneOf _ => by simp only [G.saves]; omega
  | _, _, .noneOf _ => by simp only [G.saves]; omega
  | _, _, .boxed g => by simp only [G.saves]; exact G.saves_le r g
  | _, _, .withError g => by simp only [G.saves]; exact G.saves_le r g
  | _, _, .to g _ => by simp only [G.saves]; exact G.saves_le r g
  | _, _, .some g => by simp only [G.saves]; exact G.saves_le r g
  | _, _, .map _ g => by simp only [G.saves]; exact G.saves_le r g
  | _, _, .mapWithSpan _ g => by have := G.saves_le r g; simp only [G.saves]; omega
  | _, _, .mapErr _ g => by simp only [G.saves]; exact G.saves_le r g
  | _, _, .mapErrWithSpan _ g => by have := G.saves_le r g; simp only [G.saves]; omega
  | _, _, .tryMap _ g => by have := G.saves_le r g; simp only [G.saves]; omega
  | _, _, .then_ a b => by have := G.saves_le r a; have := G.saves_le r b; simp only [G.saves]; omega
  | _, _, .thenIgnore a b => by have := G.saves_le r a; have := G.saves_le r b; simp only [G.saves]; omega
  | _, _, .ignoreThen a b => by have := G.saves_le r a; have := G.saves_le r b; simp only [G.saves]; omega
  | _, _, .delimitedBy l m x => by
    have := G.saves_le r l; have := G.saves_le r m; have := G.saves_le r x; simp only [G.saves]; omega
  | _, _, .paddedBy p m => by have := G.saves_le r p; have := G.saves_le r m; simp only [G.saves]; omega
  | _, _, .chain gs => by have := GL.saves_le r gs; simp only [G.saves]; omega
  | _, _, .or a b => by have := G.saves_le r a; have := G.saves_le r b; simp only [G.saves]; omega
  | _, _, .orNot g => by simp only [G.saves]; exact G.saves_le r g
  | _, _, .alters gs => by have := GL.saves_le r gs; simp only [G.saves]; omega
  | _, _, .repeated _ g => by have := G.saves_le r g; simp only [G.saves]; omega
  | _, _, .separatedBy _ g s => by have := G.saves_le r g; have := G.saves_le r s; simp only [G.saves]; omega
  | _, _, .toRecover g st => by
    have h1 := G.saves_le r g
    have h2 := CS.saves_le (r := r) st h1
    simp only [G.saves]; omega
  | _, _, .call _ => by simp only [G.saves]; omega

theorem GL.saves_le (r : Nat) : ∀ {ε : ErrTy S} {α : Type} (gs : GL S N ε α), gs.saves r ≤ gs.saves 0 + r
  | _, _, .nil => by simp only [GL.saves]; omega
  | _, _, .cons g gs => by have := G.saves_le r g; have := GL.saves_le r gs; simp only [GL.saves]; omega

theorem IS.saves_le {r d d' : Nat} : ∀ {ε : ErrTy S} {α : Type} (s : IS S N ε α), d ≤ d' + r → s.saves r d ≤ s.saves 0 d' + r
  | _, _, .attemptTo, _ => by simp only [IS.saves]; omega
  | _, _, .skipIf s _, h => by simp only [IS.saves]; exact IS.saves_le s h
  | _, _, .pushError s _, h => by simp only [IS.saves]; exact IS.saves_le s h
  | _, _, .pushErrorHere s _, h => by simp only [IS.saves]; exact IS.saves_le s h
  | _, _, .pushErrorUpToHere s _, h => by simp only [IS.saves]; exact IS.saves_le s h
  | _, _, .pushErrorForToken s _, h => by simp only [IS.saves]; exact IS.saves_le s h
  | _, _, .updateErrors s _, h => by simp only [IS.saves]; exact IS.saves_le s h
  | _, _, .updateErrorsHere s _, h => by simp only [IS.saves]; exact IS.saves_le s h
  | _, _, .updateErrorsUpToHere s _, h => by simp only [IS.saves]; exact IS.saves_le s h
  | _, _, .updateErrorsForToken s _, h => by simp only [IS.saves]; exact IS.saves_le s h
  | _, _, .restart s, h => by simp only [IS.saves]; exact IS.saves_le s h
  | _, _, .seekToFailed s, h => by simp only [IS.saves]; exact IS.saves_le s h
  | _, _, .skip s, h => by simp only [IS.saves]; exact IS.saves_le s h
  | _, _, .boxed s, h => by simp only [IS.saves]; exact IS.saves_le s h
  | _, _, .find s _, h => by simp only [IS.saves]; exact IS.saves_le s h
  | _, _, .scan s _, h => by simp only [IS.saves]; exact IS.saves_le s h
  | _, _, .maybe s t, h => by have := IS.saves_le s h; have := IS.saves_le t h; simp only [IS.saves]; omega
  | _, _, .whileNot s _ t, h => by have := IS.saves_le s h; have := IS.saves_le t h; simp only [IS.saves]; omega
  | _, _, .retry s _ _, h => by have := IS.saves_le s h; simp only [IS.saves]; omega
  | _, _, .tryToParse s g _ _, h => by have := IS.saves_le s h; have := G.saves_le r g; simp only [IS.saves]; omega

theorem CS.saves_le {r d d' : Nat} : ∀ {ε : ErrTy S} {α : Type} (s : CS S N ε α), d ≤ d' + r → s.saves r d ≤ s.saves 0 d' + r
  | _, _, .ret s _, h => by simp only [CS.saves]; exact IS.saves_le s h
  | _, _, .retWith s _, h => by simp only [CS.saves]; exact IS.saves_le s h
  | _, _, .retWithSpan s _, h => by simp only [CS.saves]; exact IS.saves_le s h
  | _, _, .orFail s, h => by simp only [CS.saves]; exact IS.saves_le s h

end

theorem callRec_bal {D : Defs S N} {F : N.K → Prop} {b : Nat}
    (hD : ∀ k (g : G S N (N.err k) (N.out k)), F k → D k = Option.some g → g.All (callsL F) ∧ g.saves 0 ≤ b) : ∀ (n : Nat) (k : N.K), F k →
      BalP (callRec D n k) (b * n)
  | 0, k, _ => fun _ => .oof
  | n + 1, k, hk => fun en => by
    show Bal 0 _ (match D k with | some g => g.denote (callRec D n) n en | none => .panic "recursive parser is not defined")
    cases hg : D k with
    | none => exact .panic
    | some g =>
      obtain ⟨h1, h2⟩ := hD k g hk hg
      refine (G.bal (n := n) (callRec_bal hD n) g h1 en).le ?_
      have := g.saves_le (b * n)
      rw [Nat.mul_succ]
      omega

theorem G.prog_bal {D : Defs S N} {F : N.K → Prop} {b : Nat}
    (hD : ∀ k (g : G S N (N.err k) (N.out k)), F k → D k = Option.some g → g.All (callsL F) ∧ g.saves 0 ≤ b) {ε : ErrTy S} {α : Type} (g : G S N ε α)
    (hg : g.All (callsL F)) (n : Nat) : BalP (g.prog D n) (g.saves 0 + b * n) := fun en =>
  (G.bal (callRec_bal hD n) g hg en).le (g.saves_le _)

/-! ## Looking ahead -/

/-- A cursor and the saved states of its client are at `i` or later. -/
def From (i : Nat) (c : Cursor) : Prop := i ≤ c.pos ∧ ∀ m, c.live m = true → i ≤ m.index

theorem Cursor.advanceBy_pos : ∀ {k : Nat} {c : Cursor}, c.pos ≤ (Cursor.advanceBy e k c).2.pos
  | 0, _ => Nat.le_refl _
  | k + 1, c => by
    unfold Cursor.advanceBy
    split
    · exact Nat.le_trans (Nat.le_succ c.pos) (Cursor.advanceBy_pos (c := { c.look with pos := c.pos + 1 }))
    · exact Nat.le_refl _

theorem From.step {i : Nat} {c c' : Cursor} (h : From i c) {o : Op S} {r : o.Resp}
    (hs : Cursor.step e o c = .ok (r, c')) : From i c' := by
  have hsave : ∀ j, i ≤ j → From i (c.saveIdx j).2 := by
    intro j hj
    refine ⟨h.1, fun m hm => ?_⟩
    simp only [Cursor.saveIdx, Bool.or_eq_true, decide_eq_true_eq] at hm
    rcases hm with rfl | hm
    · exact hj
    · exact h.2 m hm
  cases o with
  | save => cases hs; exact hsave _ h.1
  | saveAt j =>
    simp only [Cursor.step] at hs
    split at hs
    · cases hs
    · split at hs
      · cases hs; exact hsave _ (by have := h.1; omega)
      · cases hs
  | drop m =>
    simp only [Cursor.step] at hs
    split at hs
    · cases hs
      refine ⟨h.1, fun x hx => h.2 x ?_⟩
      simp only [Bool.and_eq_true] at hx
      exact hx.2
    · cases hs
  | restore m =>
    simp only [Cursor.step] at hs
    split at hs
    · rename_i hm; cases hs; exact ⟨h.2 m hm, h.2⟩
    · cases hs
  | token => cases hs; exact h
  | tokenAt m =>
    simp only [Cursor.step] at hs
    split at hs
    · split at hs
      · cases hs; exact h
      · split at hs
        · cases hs; exact h
        · cases hs
    · cases hs
  | index => cases hs; exact h
  | location => cases hs; exact h
  | locationAt m =>
    simp only [Cursor.step] at hs
    split at hs
    · split at hs
      · cases hs; exact h
      · cases hs
    · cases hs
  | span => cases hs; exact h
  | spanningBackTo m =>
    simp only [Cursor.step] at hs
    split at hs
    · split at hs
      · cases hs; exact h
      · cases hs
    · cases hs
  | advance =>
    simp only [Cursor.step] at hs
    split at hs
    · cases hs; exact ⟨Nat.le_succ_of_le h.1, h.2⟩
    · cases hs; exact h
  | advanceTo j =>
    simp only [Cursor.step] at hs
    split at hs
    · cases hs
    · split at hs
      · cases hs
      · have : c' = (Cursor.advanceBy e (j - c.pos) c).2 := by rw [Out.ok.inj hs]
        subst this
        exact ⟨Nat.le_trans h.1 Cursor.advanceBy_pos, by rw [Cursor.advanceBy_live]; exact h.2⟩

/-- While a client does not look `W` or more tokens ahead of where it started, its saved states are at most `W` tokens
before the cursor. -/
theorem ReachW.through {α : Type} {W st : Nat} {s : Stream S} {c : Cursor} (p : Prog S α) (h : ReachW al e W s)
    (hsim : Sim e st s c) (hns : p.run (Cursor.step e) c ≠ .stuck) (hno : ∀ m, s.live m = false)
    (hq : p.Through (fun s' => s'.pulled ≤ s.index + W) s) : p.Through (ReachW al e W) s := by
  refine (Sim.through (I := fun s' c' => ReachW al e W s' ∧ From s.index c') ?_ p hsim hns hq ⟨h, ?_⟩).imp ?_
  · intro o s1 s2 c1 c2 r st1 st2 h1 h2 hl hs hc hQ hI
    have hF := hI.2.step hc
    refine ⟨.step o hI.1 hl hs fun m hm => ?_, hF⟩
    rw [h2.live] at hm
    have := hF.2 m hm
    have := h2.wf.posHi
    have := h2.pos; have := h2.pulled
    omega
  · exact ⟨Nat.le_of_eq hsim.pos, fun m hm => by rw [← hsim.live, hno] at hm; cases hm⟩
  · rintro s' ⟨_, _, _, h2, _⟩
    exact h2

/-- A client that makes no illegal calls, and returns with the saved states owned that were owned before. -/
def Tidy {α : Type} (e : Env S) (p : Prog S α) : Prop :=
  ∀ c : Cursor, c.WF e → p.run (Cursor.step e) c ≠ .stuck ∧
    ∀ x c', p.run (Cursor.step e) c = .ok (x, c') → c'.live = c.live

theorem Tidy.live {α : Type} {p : Prog S α} (h : Tidy e p) {s s' : Stream S} {x : α} (hr : Reach al e s)
    (hs : p.run Stream.step s = .ok (x, s')) : s'.live = s.live := by
  obtain ⟨st, c, hsim⟩ := hr.sim
  have h1 := hsim.run p
  rw [hs] at h1
  cases hc : p.run (Cursor.step e) c with
  | ok y =>
    rw [hc] at h1
    obtain ⟨st', s'', h2, h3⟩ := h1
    cases h2
    rw [h3.live, hsim.live]
    exact (h c hsim.wf).2 _ _ hc
  | panic m => rw [hc] at h1; cases h1
  | oof => rw [hc] at h1; cases h1
  | stuck => exact ((h c hsim.wf).1 hc).elim

theorem Tidy.bind {α β : Type} {p : Prog S α} {f : α → Prog S β} (h : Tidy e p) (h' : ∀ x, Tidy e (f x)) :
    Tidy e (p.bind f) := by
  intro c hw
  rw [Prog.run_bind]
  obtain ⟨h1, h2⟩ := h c hw
  cases hc : p.run (Cursor.step e) c with
  | ok y =>
    obtain ⟨g1, g2⟩ := h' y.1 y.2 (Prog.run_wf _ hw hc)
    exact ⟨g1, fun x c' hr => (g2 x c' hr).trans (h2 _ _ hc)⟩
  | panic m => exact ⟨by rintro ⟨⟩, by rintro _ _ ⟨⟩⟩
  | oof => exact ⟨by rintro ⟨⟩, by rintro _ _ ⟨⟩⟩
  | stuck => exact (h1 hc).elim

theorem Tidy.ret {α : Type} {a : α} : Tidy e (.ret a : Prog S α) := fun _ _ => ⟨by rintro ⟨⟩, by rintro _ _ ⟨⟩; rfl⟩

theorem Tidy.collect_tidy {α : Type} {next : Prog S α} (ht : Tidy e next) : ∀ {k : Nat}, Tidy e (collect next k)
  | 0 => .ret
  | _ + 1 => ht.bind fun _ => ht.collect_tidy.bind fun _ => .ret

theorem Tidy.collect {α : Type} {W : Nat} {next : Prog S α} (ht : Tidy e next) : ∀ {k : Nat} {s : Stream S},
    ReachW al e W s → (∀ m, s.live m = false) → LooksAhead W next k s → (collect next k).Through (ReachW al e W) s
  | 0, _, h, _, _ => h
  | k + 1, s, h, hno, hl => by
    obtain ⟨st, c, hsim⟩ := h.reach.sim
    have h1 := ReachW.through next h hsim (ht c hsim.wf).1 hno hl.1
    refine Prog.Through.bind h1 fun x s' hr => ?_
    have h2 := h1.last hr
    have hno' : ∀ m, s'.live m = false := by rw [ht.live h.reach hr]; exact hno
    refine Prog.Through.bind (ht.collect h2 hno' (hl.2 x s' hr)) fun xs s'' hr' => ?_
    exact (ht.collect h2 hno' (hl.2 x s' hr)).last hr'

theorem Tidy.prog {D : Defs S N} {n : Nat} {ε : ErrTy S} {α : Type} {g : G S N ε α} {en : Bool} :
    Tidy e (g.prog D n en) := by
  intro c hw
  have h := G.prog_ref (e := e) D n g en c hw
  refine ⟨h.not_stuck, fun x c' hr => ?_⟩
  unfold Ref at h
  rw [hr] at h
  cases hq : g.sem e D n en c.pos with
  | ok y => rw [hq] at h; exact h.1.live
  | panic m => rw [hq] at h; exact h.elim
  | oof => rw [hq] at h; exact h.elim
  | stuck => rw [hq] at h; exact h.elim

theorem Tidy.streamNext {D : Defs S N} {n : Nat} {ε : ErrTy S} {α : Type} {g : G S N ε α} :
    Tidy e (streamNext (g.prog D n)) := by
  refine Tidy.bind (p := Prog.eof) (fun c _ => ⟨by rintro ⟨⟩, by rintro _ _ ⟨⟩; rfl⟩) fun b => ?_
  cases b
  · exact Tidy.prog.bind fun _ => .ret
  · exact .ret

theorem Tidy.tailNext : Tidy e (tailNext : Prog S (Option S.I)) := by
  refine Tidy.bind (p := Prog.token) (fun c _ => ⟨by rintro ⟨⟩, by rintro _ _ ⟨⟩; rfl⟩) fun t => ?_
  refine Tidy.bind (p := Prog.advance) (fun c _ => ?_) fun _ => .ret
  simp only [Prog.advance, Prog.run, Cursor.step]
  by_cases h : (e.source c.pos).isSome = true
  · rw [if_pos h]; exact ⟨by rintro ⟨⟩, by rintro _ _ ⟨⟩; rfl⟩
  · rw [if_neg h]; exact ⟨by rintro ⟨⟩, by rintro _ _ ⟨⟩; rfl⟩

theorem collect_bal {α : Type} {next : Prog S α} {d : Nat} (h : Bal 0 d next) : ∀ {k : Nat}, Bal 0 d (collect next k)
  | 0 => .ret
  | _ + 1 => Bal.bind h fun _ => Bal.bind (collect_bal h) fun _ => .ret

theorem streamNext_bal {E α : Type} {p : Parser S E α} {d : Nat} (h : BalP p d) : Bal 0 d (streamNext p) := by
  refine Bal.bind (Bal.op (fun _ => rfl) fun _ => .ret) fun b => ?_
  cases b
  · exact Bal.bind (h true) fun _ => .ret
  · exact .ret

theorem tailNext_bal : Bal 0 0 (tailNext : Prog S (Option S.I)) :=
  Bal.op (fun _ => rfl) fun _ => Bal.op (fun _ => rfl) fun _ => .ret

/-- The saved states owned while a client runs that starts with none. -/
theorem Bal.through {α : Type} {p : Prog S α} {d : Nat} (h : Bal 0 d p) (ht : Tidy e p) {s : Stream S}
    (hr : Reach al e s) (hno : ∀ m, s.live m = false) : p.Through (Stream.OwnedAtMost d) s := by
  obtain ⟨st, c, hsim⟩ := hr.sim
  refine Prog.Owns.through p hsim (ht c hsim.wf).1 (h 0 d (by omega)) (Nat.zero_le _) fun l _ hl => ?_
  cases l with
  | nil => exact Nat.le_refl _
  | cons m l =>
    have := hl m (by simp)
    rw [← hsim.live, hno] at this
    cases this

/-- Nothing is saved by a client that takes tokens one after the other. -/
theorem tailNext_through {W : Nat} {s : Stream S} (h : ReachW al e W s) (hno : ∀ m, s.live m = false) {k : Nat} :
    (collect (tailNext : Prog S (Option S.I)) k).Through (ReachW al e W) s := by
  obtain ⟨st, c, hsim⟩ := h.reach.sim
  refine (Sim.through (I := fun s' _ => ReachW al e W s') ?_ _ hsim (Tidy.tailNext.collect_tidy c hsim.wf).1
    ((collect_bal tailNext_bal).through Tidy.tailNext.collect_tidy h.reach hno) h).imp ?_
  · intro o s1 s2 c1 c2 r st1 st2 h1 h2 hl hs hc hQ hI
    refine .step o hI hl hs fun m hm => ?_
    have := hQ [m] (by simp) (by simpa using hm)
    simp at this
  · rintro s' ⟨_, _, _, h2⟩
    exact h2

theorem streamThenTail_bal {E α : Type} {p : Parser S E α} {d k m : Nat} (h : BalP p d) :
    Bal 0 d (streamThenTail p k m) :=
  Bal.bind (collect_bal (streamNext_bal h)) fun _ => Bal.bind ((collect_bal tailNext_bal).le (Nat.zero_le _)) fun _ => .ret

theorem Tidy.streamThenTail {D : Defs S N} {n : Nat} {ε : ErrTy S} {α : Type} {g : G S N ε α} {k m : Nat} :
    Tidy e (streamThenTail (g.prog D n) k m) :=
  Tidy.streamNext.collect_tidy.bind fun _ => Tidy.tailNext.collect_tidy.bind fun _ => .ret

/-- The look-back window while streaming. -/
theorem streamThenTail_through {D : Defs S N} {n : Nat} {ε : ErrTy S} {α : Type} {g : G S N ε α} {k m W : Nat}
    {s : Stream S} (h : ReachW al e W s) (hno : ∀ m, s.live m = false)
    (hl : LooksAhead W (streamNext (g.prog D n)) k s) :
    (streamThenTail (g.prog D n) k m).Through (ReachW al e W) s := by
  have h1 := Tidy.streamNext.collect h hno hl
  refine Prog.Through.bind h1 fun xs s' hr => ?_
  have h2 := h1.last hr
  have hno' : ∀ m, s'.live m = false := by rw [Tidy.streamNext.collect_tidy.live h.reach hr]; exact hno
  have h3 := tailNext_through h2 hno' (k := m)
  exact Prog.Through.bind h3 fun ys s'' hr' => h3.last hr'

theorem MarkOk.new {M : Nat} (h : al.mcap0 ≤ M) : MarkOk al M (Stream.newWithLocation al e.source e.start : Stream S) where
  nodup := by simp [Stream.newWithLocation]
  fresh := by simp [Stream.newWithLocation]
  len := by simp [Stream.newWithLocation]
  cap := h
  al := rfl

end PPC
