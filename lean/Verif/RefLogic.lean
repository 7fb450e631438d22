import Verif.Sem
import Verif.CursorLemmas

/-!
# A small program logic: a client program run on the cursor computes a function
-/

namespace PPC

variable {S : Sig} {e : Env S}

/-- Running `p` from `c` has the same outcome as `o`, values related by `Q`. -/
def Ref {α γ : Type} (e : Env S) (p : Prog S α) (c : Cursor) (o : Out γ)
    (Q : α → Cursor → γ → Prop) : Prop :=
  match p.run (Cursor.step e) c, o with
  | .ok (a, c'), .ok g => Q a c' g
  | .panic m, .panic m' => m = m'
  | .oof, .oof => True
  | _, _ => False

/-- Normalise a program to its first call. -/
macro "prog" : tactic => `(tactic| try simp only [Prog.bind_eq, Prog.pure_eq, Prog.ret_bind,
  Prog.op_bind, Prog.panic_bind, Prog.oof_bind, Prog.save, Prog.saveAt, Prog.drop, Prog.restore,
  Prog.token, Prog.index, Prog.location, Prog.span, Prog.spanningBackTo, Prog.advance, Prog.eof])

namespace Ref

variable {α β γ δ : Type} {c : Cursor}

theorem ret {a : α} {g : γ} {Q : α → Cursor → γ → Prop} (h : Q a c g) :
    Ref e (.ret a) c (.ok g) Q := h

theorem panic {m : String} {Q : α → Cursor → γ → Prop} :
    Ref e (.panic m : Prog S α) c (.panic m) Q := rfl

theorem oof {Q : α → Cursor → γ → Prop} :
    Ref e (.oof : Prog S α) c (.oof) Q := trivial

theorem op {o : Op S} {k : o.Resp → Prog S α} {r : o.Resp} {c' : Cursor} {out : Out γ}
    {Q : α → Cursor → γ → Prop} (hs : Cursor.step e o c = .ok (r, c'))
    (h : Ref e (k r) c' out Q) : Ref e (.op o k) c out Q := by
  simpa [Ref, Prog.run, hs] using h

theorem op_panic {o : Op S} {k : o.Resp → Prog S α} {m : String}
    {Q : α → Cursor → γ → Prop} (hs : Cursor.step e o c = .panic m) :
    Ref e (.op o k) c (.panic m) Q := by
  simp [Ref, Prog.run, hs]

theorem mono {p : Prog S α} {o : Out γ} {Q R : α → Cursor → γ → Prop} (h : Ref e p c o Q)
    (hQ : ∀ a c' g, Q a c' g → R a c' g) : Ref e p c o R := by
  unfold Ref at *
  split at h
  · rename_i h1; exact hQ _ _ _ h
  · exact h
  · trivial
  · exact h.elim

theorem bind {p : Prog S α} {k : α → Prog S β} {o : Out γ} {f : γ → Out δ}
    {Q : α → Cursor → γ → Prop} {R : β → Cursor → δ → Prop} (h : Ref e p c o Q)
    (hk : ∀ a c' g, Q a c' g → Ref e (k a) c' (f g) R) : Ref e (p.bind k) c (o >>= f) R := by
  unfold Ref at h ⊢
  rw [Prog.run_bind]
  split at h
  · rename_i h1; rw [h1]; exact hk _ _ _ h
  · rename_i h1; rw [h1]; exact h
  · rename_i h1; rw [h1]; trivial
  · exact h.elim

/-- Run a program whose result is simply passed on by the function. -/
theorem bindL {p : Prog S α} {k : α → Prog S β} {o : Out γ}
    {Q : α → Cursor → γ → Prop} {R : β → Cursor → γ → Prop} (h : Ref e p c o Q)
    (hk : ∀ a c' g, Q a c' g → Ref e (k a) c' (.ok g) R) : Ref e (p.bind k) c o R := by
  have := bind (f := Out.ok) h hk
  have h2 : (o >>= Out.ok) = o := by cases o <;> rfl
  rwa [h2] at this

/-- Run a program that computes a value the function does not bind. -/
theorem bindP {p : Prog S α} {k : α → Prog S β} {v : γ} {out : Out δ}
    {Q : α → Cursor → γ → Prop} {R : β → Cursor → δ → Prop} (h : Ref e p c (.ok v) Q)
    (hk : ∀ a c', Q a c' v → Ref e (k a) c' out R) : Ref e (p.bind k) c out R := by
  unfold Ref at h ⊢
  rw [Prog.run_bind]
  split at h
  · rename_i h1 h2; rw [h1]; cases h2; exact hk _ _ h
  · rename_i h1 h2; cases h2
  · rename_i h1 h2; cases h2
  · exact h.elim

theorem bindR {p : Prog S α} {o : Out γ} {f : γ → Out δ}
    {Q : α → Cursor → γ → Prop} {R : α → Cursor → δ → Prop} (h : Ref e p c o Q)
    (hk : ∀ a c' g, Q a c' g → Ref e (.ret a) c' (f g) R) : Ref e p c (o >>= f) R := by
  have := bind (k := Prog.ret) h hk
  rwa [Prog.bind_ret] at this

end Ref

/-- `c'` is reached from `c` by a computation that gave back all its saved states
and did not move backwards. -/
structure Ext (e : Env S) (c c' : Cursor) : Prop where
  wf : c'.WF e
  pos : c.pos ≤ c'.pos
  hi : c.hi ≤ c'.hi
  ids : c.nextId ≤ c'.nextId
  live : c'.live = c.live

namespace Ext

variable {c c' c'' : Cursor}

theorem refl (h : c.WF e) : Ext e c c := ⟨h, Nat.le_refl _, Nat.le_refl _, Nat.le_refl _, rfl⟩

theorem trans (h1 : Ext e c c') (h2 : Ext e c' c'') : Ext e c c'' :=
  ⟨h2.wf, Nat.le_trans h1.pos h2.pos, Nat.le_trans h1.hi h2.hi, Nat.le_trans h1.ids h2.ids,
    h2.live.trans h1.live⟩

theorem limit_mono' (_ : c'.WF e) (hhi : c.hi ≤ c'.hi) : c.limit e ≤ c'.limit e := by
  by_cases h : c.hi = c'.hi
  · rw [Cursor.limit_congr e h.symm]; exact Nat.le_refl _
  · have := Cursor.limit_le_hi e c
    have := Cursor.hi_le_limit e c'
    omega

theorem limit (h : Ext e c c') : c.limit e ≤ c'.limit e := limit_mono' h.wf h.hi

theorem look (h : c.WF e) : Ext e c c.look :=
  ⟨h.lookWF, Nat.le_refl _, by rw [Cursor.look_hi]; omega, Nat.le_refl _, rfl⟩

theorem advance (h : c.WF e) (hs : (e.source c.pos).isSome = true) :
    Ext e c { c.look with pos := c.pos + 1 } :=
  ⟨h.advanceWF hs, by simp, by show c.hi ≤ c.look.hi; rw [Cursor.look_hi]; omega,
    Nat.le_refl _, rfl⟩

theorem setPos (h : Ext e c c') {p : Nat} (hp : c.pos ≤ p) (hl : p ≤ c'.limit e) :
    Ext e c { c' with pos := p } :=
  ⟨h.wf.setPos hl, hp, h.hi, h.ids, h.live⟩

end Ext

/-- The saved state created by `save` at position `i`. -/
def Cursor.mk' (c : Cursor) (i : Nat) : SavedState := ⟨c.nextId, i⟩

theorem Cursor.saveIdx_eq (c : Cursor) (i : Nat) :
    c.saveIdx i = (c.mk' i, (c.saveIdx i).2) := rfl

theorem Cursor.WF.fresh {c : Cursor} (h : c.WF e) (i : Nat) : c.live (c.mk' i) = false := by
  cases hl : c.live (c.mk' i)
  · rfl
  · have := (h.liveOk _ hl).2
    simp [Cursor.mk'] at this

@[simp] theorem Cursor.saveIdx_pos (c : Cursor) (i : Nat) : (c.saveIdx i).2.pos = c.pos := rfl
@[simp] theorem Cursor.saveIdx_hi (c : Cursor) (i : Nat) : (c.saveIdx i).2.hi = c.hi := rfl
@[simp] theorem Cursor.saveIdx_nextId (c : Cursor) (i : Nat) :
    (c.saveIdx i).2.nextId = c.nextId + 1 := rfl
theorem Cursor.saveIdx_live (c : Cursor) (i : Nat) (x : SavedState) :
    (c.saveIdx i).2.live x = (decide (x = c.mk' i) || c.live x) := rfl
@[simp] theorem Cursor.saveIdx_live_self (c : Cursor) (i : Nat) :
    (c.saveIdx i).2.live (c.mk' i) = true := by simp [Cursor.saveIdx_live]
@[simp] theorem Cursor.mk'_index (c : Cursor) (i : Nat) : (c.mk' i).index = i := rfl
@[simp] theorem Cursor.mk'_id (c : Cursor) (i : Nat) : (c.mk' i).id = c.nextId := rfl

namespace Ref

variable {α β γ δ : Type} {c : Cursor} {Q : α → Cursor → γ → Prop} {out : Out γ}

theorem save {k : SavedState → Prog S α}
    (h : Ref e (k (c.mk' c.pos)) (c.saveIdx c.pos).2 out Q) : Ref e (.op .save k) c out Q :=
  op (o := .save) rfl h

theorem saveAt {k : SavedState → Prog S α} {x : Nat} {f : Nat → Out γ} (hx : x ≤ c.limit e)
    (h : c.pos ≤ x → Ref e (k (c.mk' x)) (c.saveIdx x).2 (f x) Q) :
    Ref e (.op (.saveAt x) k) c (saveAtSem x c.pos >>= f) Q := by
  unfold saveAtSem
  split
  · rename_i h1
    exact op_panic (o := .saveAt x) (by simp [Cursor.step, h1])
  · rename_i h1
    have h2 : c.pos ≤ x := by omega
    exact op (o := .saveAt x) (r := c.mk' x) (c' := (c.saveIdx x).2)
      (by simp only [Cursor.step, h1, hx, if_false, if_true]; rfl) (h h2)

theorem drop {k : Unit → Prog S α} {m : SavedState} (hm : c.live m = true)
    (h : Ref e (k ()) { c with live := fun x => x ≠ m && c.live x } out Q) :
    Ref e (.op (.drop m) k) c out Q :=
  op (o := .drop m) (by simp [Cursor.step, hm]) h

theorem restore {k : Unit → Prog S α} {m : SavedState} (hm : c.live m = true)
    (h : Ref e (k ()) { c with pos := m.index } out Q) :
    Ref e (.op (.restore m) k) c out Q :=
  op (o := .restore m) (by simp [Cursor.step, hm]) h

theorem token {k : Option S.I → Prog S α} (h : Ref e (k (e.source c.pos)) c.look out Q) :
    Ref e (.op .token k) c out Q :=
  op (o := .token) rfl h

theorem index {k : Nat → Prog S α} (h : Ref e (k c.pos) c out Q) :
    Ref e (.op .index k) c out Q :=
  op (o := .index) rfl h

theorem location {k : S.Loc → Prog S α} (h : Ref e (k (e.locationAt c.pos)) c out Q) :
    Ref e (.op .location k) c out Q :=
  op (o := .location) rfl h

theorem span {k : S.Span → Prog S α} (h : Ref e (k (e.here c.pos)) c.look out Q) :
    Ref e (.op .span k) c out Q :=
  op (o := .span) rfl h

theorem advance_some {k : Bool → Prog S α} (hs : (e.source c.pos).isSome = true)
    (h : Ref e (k true) { c.look with pos := c.pos + 1 } out Q) :
    Ref e (.op .advance k) c out Q :=
  op (o := .advance) (by simp [Cursor.step, hs]) h

theorem advance_none {k : Bool → Prog S α} (hs : (e.source c.pos).isSome = false)
    (h : Ref e (k false) c.look out Q) : Ref e (.op .advance k) c out Q :=
  op (o := .advance) (by simp [Cursor.step, hs]) h

theorem spanningBackTo {k : S.Span → Prog S α} {m : SavedState} (hwf : c.WF e)
    (hm : c.live m = true) (hle : m.index ≤ c.pos)
    (h : Ref e (k (e.spanOf m.index c.pos)) c out Q) :
    Ref e (.op (.spanningBackTo m) k) c out Q := by
  have := hwf.posHi
  exact op (o := .spanningBackTo m)
    (by
      have h2 : m.index = c.pos ∨ m.index < c.hi := by omega
      simp [Cursor.step, hm, h2]) h

/-- `withSave`: the body runs with one more saved state, at the current position. -/
theorem withSave {body : SavedState → Prog S α} {R : α → Nat → Nat → γ → Prop} (hwf : c.WF e)
    (h : Ref e (body (c.mk' c.pos)) (c.saveIdx c.pos).2 out
      (fun a c' g => Ext e (c.saveIdx c.pos).2 c' ∧ R a c'.pos (c'.limit e) g)) :
    Ref e (Prog.withSave body) c out
      (fun a c' g => Ext e c c' ∧ R a c'.pos (c'.limit e) g) := by
  unfold Prog.withSave Prog.save
  simp only [Prog.bind_eq, Prog.op_bind, Prog.ret_bind]
  apply Ref.save
  apply bindL h
  rintro a c' g ⟨hx, hR⟩
  unfold Prog.drop
  simp only [Prog.op_bind, Prog.ret_bind]
  have hl : c'.live (c.mk' c.pos) = true := by rw [hx.live]; simp
  apply Ref.drop hl
  refine Ref.ret ⟨⟨hx.wf.dropWF _, hx.pos, hx.hi, ?_, ?_⟩, hR⟩
  · have := hx.ids; simp at this; show c.nextId ≤ c'.nextId; omega
  · funext x
    show (decide (x ≠ c.mk' c.pos) && c'.live x) = c.live x
    rw [hx.live, Cursor.saveIdx_live]
    by_cases h1 : x = c.mk' c.pos
    · subst h1; simp [hwf.fresh]
    · simp [h1]

end Ref

end PPC
