import Verif.SpecCost
import Verif.ParserBase
import Verif.SemShift

/-!
# The number of calls of a parser: lemmas
-/

namespace PPC

variable {S : Sig} {N : Names S} {e : Env S}

namespace Prog

variable {α β σ : Type} {step : (o : Op S) → σ → Out (o.Resp × σ)}

/-- The calls of what follows. -/
def after (step : (o : Op S) → σ → Out (o.Resp × σ)) (k : α → Prog S β) : Out (α × σ) → Nat
  | .ok x => (k x.1).calls step x.2
  | _ => 0

theorem calls_bind (p : Prog S α) (k : α → Prog S β) (s : σ) :
    (p.bind k).calls step s = p.calls step s + after step k (p.run step s) := by
  induction p generalizing s with
  | ret a => simp [bind, calls, run, after]
  | panic m => simp [bind, calls, run, after]
  | oof => simp [bind, calls, run, after]
  | op o f ih =>
    simp only [bind, calls, run]
    cases h : step o s with
    | ok x =>
      show 1 + ((f x.1).bind k).calls step x.2 = 1 + (f x.1).calls step x.2 + after step k ((f x.1).run step x.2)
      rw [ih, Nat.add_assoc]
    | panic m => rfl
    | oof => rfl
    | stuck => rfl

theorem calls_le_bind (p : Prog S α) (k : α → Prog S β) (s : σ) :
    p.calls step s ≤ (p.bind k).calls step s := by
  rw [calls_bind]; omega

end Prog

/-- On the stream, a client makes as many calls as on the ideal cursor. -/
theorem Sim.calls {α : Type} (p : Prog S α) : ∀ {st : Nat} {s : Stream S} {c : Cursor}, Sim e st s c →
    p.run (Cursor.step e) c ≠ .stuck → p.calls Stream.step s = p.calls (Cursor.step e) c := by
  induction p with
  | ret a => intros; rfl
  | panic m => intros; rfl
  | oof => intros; rfl
  | op o k ih =>
    intro st s c h hr
    have h1 := h.step o
    simp only [Prog.calls]
    simp only [Prog.run] at hr
    cases hc : Cursor.step e o c with
    | ok x =>
      rw [hc] at h1 hr
      obtain ⟨st', s', h2, h3⟩ := h1
      rw [h2]
      show 1 + _ = 1 + _
      rw [ih _ h3 hr]
    | panic m => rw [hc] at h1; rw [show Stream.step o s = .panic m from h1]
    | oof => rw [hc] at h1; rw [show Stream.step o s = .oof from h1]
    | stuck => rw [hc] at hr; exact (hr rfl).elim

theorem Ref.not_stuck {α γ : Type} {p : Prog S α} {c : Cursor} {o : Out γ} {Q : α → Cursor → γ → Prop}
    (h : Ref e p c o Q) : p.run (Cursor.step e) c ≠ .stuck := by
  intro h'
  unfold Ref at h
  rw [h'] at h
  exact h

/-- Running a parser on the stream takes as many calls as on the cursor. -/
theorem G.calls_stream (D : Defs S N) (n : Nat) {ε : ErrTy S} {α : Type} (g : G S N ε α) (en : Bool)
    {st : Nat} {s : Stream S} {c : Cursor} (h : Sim e st s c) :
    (g.prog D n en).calls Stream.step s = (g.prog D n en).calls (Cursor.step e) c :=
  h.calls _ (G.prog_ref (e := e) D n g en c h.wf).not_stuck

/-! ## Lower bounds -/

section

variable {α β γ E : Type}

/-- Started at position `i`, the parser makes at least `K` calls. -/
def Low (e : Env S) (p : Parser S E α) (en : Bool) (i K : Nat) : Prop :=
  ∀ c : Cursor, c.WF e → c.pos = i → K ≤ (p en).calls (Cursor.step e) c

theorem Low.bind {p : Parser S E α} {en : Bool} {i K : Nat} (h : Low e p en i K) {k : Res α E → Prog S (Res β E)} :
    Low e (fun en => (p en).bind k) en i K := fun c hw hi =>
  Nat.le_trans (h c hw hi) (Prog.calls_le_bind _ _ _)

/-- What follows a parser that returns. -/
theorem Low.bind_run {p : Parser S E α} {q : PSem E α} (hp : PRef e p q) {en : Bool} {i j K K' : Nat} {r : Res α E}
    (h : Low e p en i K) (hq : q en i = .ok (r, j)) {k : Res α E → Prog S β} {c : Cursor} (hw : c.WF e)
    (hi : c.pos = i) (hk : ∀ c', c'.WF e → c'.pos = j → K' ≤ (k r).calls (Cursor.step e) c') :
    K + K' ≤ ((p en).bind k).calls (Cursor.step e) c := by
  rw [Prog.calls_bind]
  have h1 := hp en c hw
  rw [hi, hq] at h1
  unfold Ref at h1
  cases hr : (p en).run (Cursor.step e) c with
  | ok x =>
    obtain ⟨r', c'⟩ := x
    rw [hr] at h1
    obtain ⟨h2, h3, -⟩ := h1
    cases h3
    exact Nat.add_le_add (h c hw hi) (hk c' h2.wf rfl)
  | panic m => rw [hr] at h1; exact h1.elim
  | oof => rw [hr] at h1; exact h1.elim
  | stuck => rw [hr] at h1; exact h1.elim

theorem calls_withSave {body : SavedState → Prog S α} {c : Cursor} :
    1 + (body (c.mk' c.pos)).calls (Cursor.step e) (c.saveIdx c.pos).2 ≤
      (Prog.withSave body).calls (Cursor.step e) c := by
  unfold Prog.withSave Prog.save
  simp only [Prog.bind_eq, Prog.op_bind, Prog.ret_bind]
  rw [Prog.calls]
  show _ ≤ 1 + _
  exact Nat.add_le_add_left (Prog.calls_le_bind _ _ _) 1

theorem Low.withSave {body : Bool → SavedState → Prog S (Res α E)} {en : Bool} {i K : Nat}
    (h : ∀ m (c : Cursor), c.WF e → c.pos = i → K ≤ (body en m).calls (Cursor.step e) c) :
    Low e (fun en => Prog.withSave (body en)) en i (1 + K) := fun c hw hi =>
  Nat.le_trans (Nat.add_le_add_left (h _ _ (hw.saveIdxWF hw.posLe) hi) 1) calls_withSave

theorem Low.mono {p : Parser S E α} {en : Bool} {i K K' : Nat} (h : Low e p en i K) (hk : K' ≤ K) :
    Low e p en i K' := fun c hw hi => Nat.le_trans hk (h c hw hi)

theorem Low.concat2 {f : α × β → γ} {pa : Parser S E α} {pb : Parser S E β} {en : Bool} {i K : Nat}
    (h : Low e pa en i K) : Low e (concat2 f pa pb) en i (1 + K) :=
  Low.withSave (body := fun en _ => (pa en).bind _) fun _ _ hw hi =>
    Nat.le_trans (h _ hw hi) (Prog.calls_le_bind _ _ _)

theorem Low.concat2_right {f : α × β → γ} {pa : Parser S E α} {qa : PSem E α} {pb : Parser S E β} {en : Bool}
    {i j K K' : Nat} {x : α} (hp : PRef e pa qa) (h : Low e pa en i K) (hq : qa en i = .ok (.success x, j))
    (h' : Low e pb en j K') : Low e (PPC.concat2 f pa pb) en i (K + K') := by
  refine Low.mono (Low.withSave (K := K + K') (body := fun en _ => (pa en).bind _) fun m c hw hi => ?_) (by omega)
  refine Low.bind_run hp h hq hw hi fun c' hw' hj => ?_
  exact Nat.le_trans (h' c' hw' hj) (Prog.calls_le_bind _ _ _)

theorem Low.or_left {ε : ErrTy S} {pa pb : Parser S ε.E α} {en : Bool} {i K : Nat} (h : Low e pa false i K) :
    Low e (pOr ε pa pb) en i K := fun c hw hi => by
  refine Nat.le_trans (Nat.le_trans (h c hw hi) ?_) (Prog.calls_le_bind (altFirst [pa, pb] []) _ _)
  exact Prog.calls_le_bind _ _ _

theorem Low.or_right {ε : ErrTy S} {pa pb : Parser S ε.E α} {qa : PSem ε.E α} {en : Bool} {i j K K' x : Nat}
    {es : List ε.E} (hp : PRef e pa qa) (h : Low e pa false i K) (hq : qa false i = .ok (.failed x es, j))
    (h' : Low e pb false j K') : Low e (pOr ε pa pb) en i (K + K') := fun c hw hi => by
  refine Nat.le_trans ?_ (Prog.calls_le_bind (altFirst [pa, pb] []) _ _)
  refine Low.bind_run hp h hq hw hi fun c' hw' hj => ?_
  exact Nat.le_trans (h' c' hw' hj) (Prog.calls_le_bind _ _ _)

theorem Low.repeated {p : Parser S E α} {en : Bool} {i K fuel : Nat} {cfg : RepCfg}
    (hm : cfg.atMax 0 = false) (h : Low e p (en && decide (0 < cfg.minimum)) i K) :
    Low e (pRepeated (fuel + 1) cfg p) en i K := by
  refine Low.mono (Low.withSave (K := K)
    (body := fun en initial => repeatLoop cfg p (none : Option (Parser S E α)) en initial (fuel + 1) [] none)
      fun m c hw hi => ?_) (by omega)
  rw [repeatLoop]
  simp only [List.length_nil, hm, Bool.and_false, Bool.false_eq_true, if_false]
  unfold repeatItem
  simp only [List.length_nil, hm, Bool.and_false, Bool.false_eq_true, if_false]
  exact Nat.le_trans (h c hw hi) (Prog.calls_le_bind _ _ _)

end

end PPC
