import Verif.SemRefine3
import Verif.Reach
import Verif.Api

/-!
# From running parsers to the positional semantics

Bridge lemmas: what running a parser of the crate (`G.prog`) on a reachable stream does
is what the positional semantics (`G.sem`) says. The property files state theorems about
running parsers and use these lemmas to prove them on the positional semantics.
-/

namespace PPC

variable {S : Sig} {N : Names S} {e : Env S} {al : Alloc}

/-- A position that exists: all tokens before it do. -/
def Valid (e : Env S) (i : Nat) : Prop := ∀ j, j < i → (e.source j).isSome = true

theorem Valid.zero : Valid e 0 := fun j hj => by omega

theorem Valid.mono {i j : Nat} (h : Valid e j) (hij : i ≤ j) : Valid e i :=
  fun k hk => h k (by omega)

theorem Valid.succ {i : Nat} (h : Valid e i) (hs : (e.source i).isSome = true) : Valid e (i + 1) := by
  intro k hk
  by_cases hk' : k = i
  · subst hk'; exact hs
  · exact h k (by omega)

theorem Valid.next {i : Nat} (h : Valid e i) : Valid e (e.next i) := by
  unfold Env.next
  split
  · rename_i hs; exact h.succ hs
  · exact h

theorem Cursor.WF.valid {c : Cursor} (h : c.WF e) {i : Nat} (hi : i ≤ c.limit e) : Valid e i :=
  fun j hj => h.some_of_lt (by omega)

theorem Reach.valid {s : Stream S} (h : Reach al e s) : Valid e s.index := by
  obtain ⟨st, c, hs⟩ := h.sim
  rw [hs.pos]
  exact hs.wf.valid hs.wf.posLe

theorem Reach.index_le {s : Stream S} (h : Reach al e s) : s.index ≤ s.tokensRead := by
  obtain ⟨st, c, hs⟩ := h.sim
  rw [hs.pos, hs.tokensRead]
  exact hs.wf.posLe

/-- A cursor at a valid position. -/
def Cursor.atPos (i : Nat) : Cursor := ⟨i, i, 0, fun _ => false⟩

theorem Cursor.atPos_wf {i : Nat} (h : Valid e i) : (Cursor.atPos i).WF e where
  good := fun j hj => h j (by simp only [Cursor.atPos] at hj; omega)
  posLe := by
    have hn : ((Cursor.atPos i).sawEof e) = false := by
      simp only [Cursor.sawEof, Cursor.atPos]
      by_cases h0 : i = 0
      · simp [h0]
      · have := h (i - 1) (by omega)
        cases hh : e.source (i - 1) <;> simp_all
    simp only [Cursor.limit, hn]
    simp [Cursor.atPos]
  liveOk := fun m hm => by simp [Cursor.atPos] at hm

/-- Positions in the semantics stay valid and never move backwards. -/
theorem G.sem_valid (D : Defs S N) (n : Nat) {ε : ErrTy S} {α : Type} (g : G S N ε α) (en : Bool)
    {i : Nat} (h : Valid e i) {r : Res α ε.E} {j : Nat} (hr : g.sem e D n en i = .ok (r, j)) :
    i ≤ j ∧ Valid e j ∧ ∀ x es, r = .failed x es → i ≤ x ∧ Valid e x := by
  have h2 := G.prog_ref (e := e) D n g en (Cursor.atPos i) (Cursor.atPos_wf h)
  have hp : (Cursor.atPos i).pos = i := rfl
  rw [hp, hr] at h2
  unfold Ref at h2
  split at h2
  · rename_i a c' gg hp' hq
    cases hq
    obtain ⟨hx, hv, hf⟩ := h2
    have hv' := Prod.mk.inj hv
    obtain ⟨h3, h4⟩ := hv'
    subst h3
    subst h4
    refine ⟨hx.pos, hx.wf.valid hx.wf.posLe, fun x es hres => ?_⟩
    obtain ⟨f1, f2⟩ := hf x es hres
    exact ⟨f1, hx.wf.valid f2⟩
  · rename_i hq; cases hq
  · rename_i hq; cases hq
  · exact h2.elim

/-- The semantics never leaves the territory of the specification. -/
theorem G.sem_not_stuck (D : Defs S N) (n : Nat) {ε : ErrTy S} {α : Type} (g : G S N ε α) (en : Bool)
    {i : Nat} (h : Valid e i) : g.sem e D n en i ≠ .stuck := by
  intro hr
  have h2 := G.prog_ref (e := e) D n g en (Cursor.atPos i) (Cursor.atPos_wf h)
  have hp : (Cursor.atPos i).pos = i := rfl
  rw [hp, hr] at h2
  unfold Ref at h2
  split at h2
  · rename_i hq; cases hq
  · rename_i hq; cases hq
  · rename_i hq; cases hq
  · exact h2

section

variable (D : Defs S N) (n : Nat) {ε : ErrTy S} {α : Type} (g : G S N ε α) (en : Bool)
  {s s' : Stream S} {r : Res α ε.E}

/-- A parser that returns on a reachable stream returns what the semantics says, leaves
a reachable stream, and owns no saved state afterwards. -/
theorem G.run_sem (h : Reach al e s) (hr : (g.prog D n en).run Stream.step s = .ok (r, s')) :
    g.sem e D n en s.index = .ok (r, s'.index) ∧ Reach al e s' ∧ s'.live = s.live ∧
      s.index ≤ s'.index ∧ s.pulled ≤ s'.pulled ∧
      ∀ x es, r = .failed x es → s.index ≤ x ∧ x ≤ s'.tokensRead := by
  obtain ⟨st, c, hs⟩ := h.sim
  have h1 := hs.run (g.prog D n en)
  have h2 := G.prog_ref (e := e) D n g en c hs.wf
  have h3 : ∀ x c', (g.prog D n en).run (Cursor.step e) c = .ok (x, c') → Reach al e s' := by
    intro x c' hc
    obtain ⟨st', s'', h4, h5, h6⟩ := Reach.run (g.prog D n en) h hs hc
    rw [hr] at h4; cases h4; exact h6
  unfold Ref at h2
  rw [hs.pos]
  split at h2
  · rename_i a c' gg hp' hq
    obtain ⟨hx, hv, hf⟩ := h2
    have h4 := h3 _ _ hp'
    rw [hp'] at h1
    obtain ⟨st', s'', h5, h6⟩ := h1
    rw [hr] at h5
    cases h5
    rw [hq, hv]
    refine ⟨by rw [h6.pos], h4, by rw [h6.live, hs.live, hx.live], by rw [h6.pos]; exact hx.pos,
      by rw [h6.pulled, hs.pulled]; exact hx.hi, fun x es he => ?_⟩
    rw [h6.tokensRead]
    exact hf x es he
  · rename_i hp' _; rw [hp'] at h1; rw [h1] at hr; cases hr
  · rename_i hp' _; rw [hp'] at h1; rw [h1] at hr; cases hr
  · exact h2.elim

/-- What the semantics says is what happens. -/
theorem G.sem_run (h : Reach al e s) {j : Nat} (hr : g.sem e D n en s.index = .ok (r, j)) :
    ∃ s', (g.prog D n en).run Stream.step s = .ok (r, s') ∧ s'.index = j := by
  obtain ⟨st, c, hs⟩ := h.sim
  have h1 := G.run_stream D n g en hs
  rw [hs.pos] at hr
  rw [hr] at h1
  obtain ⟨_, s', c', h2, h3, h4, _⟩ := h1
  exact ⟨s', h2, by rw [h3.pos, h4]⟩

theorem G.run_panic (h : Reach al e s) (m : String) :
    (g.prog D n en).run Stream.step s = .panic m ↔ g.sem e D n en s.index = .panic m := by
  obtain ⟨st, c, hs⟩ := h.sim
  have h1 := G.run_stream D n g en hs
  rw [hs.pos]
  cases hq : g.sem e D n en c.pos with
  | ok x =>
    rw [hq] at h1
    obtain ⟨_, s', c', h2, _⟩ := h1
    rw [h2]
    constructor <;> (intro h; cases h)
  | panic m' =>
    rw [hq] at h1
    have h2 : _ = _ := h1
    rw [h2]
    simp
  | oof => rw [hq] at h1; rw [show _ = _ from h1]; constructor <;> (intro h; cases h)
  | stuck => rw [hq] at h1; exact h1.elim

theorem G.run_oof (h : Reach al e s) :
    (g.prog D n en).run Stream.step s = .oof ↔ g.sem e D n en s.index = .oof := by
  obtain ⟨st, c, hs⟩ := h.sim
  have h1 := G.run_stream D n g en hs
  rw [hs.pos]
  cases hq : g.sem e D n en c.pos with
  | ok x =>
    rw [hq] at h1
    obtain ⟨_, s', c', h2, _⟩ := h1
    rw [h2]
    constructor <;> (intro h; cases h)
  | panic m' =>
    rw [hq] at h1
    rw [show _ = _ from h1]; constructor <;> (intro h; cases h)
  | oof => rw [hq] at h1; have h2 : _ = _ := h1; rw [h2]; simp
  | stuck => rw [hq] at h1; exact h1.elim

/-- `parse_with_recovery` computes the semantics from position 0, for every allocator. -/
theorem parseWithRecovery_sem (al : Alloc) :
    parseWithRecovery (g.prog D n) al e.source e.start = (g.sem e D n true 0).map Prod.fst := by
  have h : Reach al e (Stream.newWithLocation al e.source e.start) := .new
  have hi : (Stream.newWithLocation al e.source e.start : Stream S).index = 0 := rfl
  unfold parseWithRecovery
  cases hq : g.sem e D n true 0 with
  | ok x =>
    obtain ⟨s', h1, _⟩ := G.sem_run D n g true h (r := x.1) (j := x.2) (by rw [hi, hq])
    rw [h1]; rfl
  | panic m => rw [(G.run_panic D n g true h m).2 (by rw [hi, hq])]; rfl
  | oof => rw [(G.run_oof D n g true h).2 (by rw [hi, hq])]; rfl
  | stuck => exact (G.sem_not_stuck D n g true Valid.zero hq).elim

end

/-- Inversion of a sequencing that returns. -/
theorem Out.bind_eq_ok {α β : Type} {x : Out α} {f : α → Out β} {b : β} :
    (x >>= f) = .ok b ↔ ∃ a, x = .ok a ∧ f a = .ok b := by
  cases x with
  | ok a => simp
  | panic m => simp
  | oof => simp
  | stuck => simp

theorem Out.bind_eq_panic {α β : Type} {x : Out α} {f : α → Out β} {m : String} :
    (x >>= f) = .panic m ↔ x = .panic m ∨ ∃ a, x = .ok a ∧ f a = .panic m := by
  cases x with
  | ok a => simp
  | panic m => simp
  | oof => simp
  | stuck => simp

end PPC
