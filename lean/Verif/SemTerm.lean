import Verif.SemEmpty
import Verif.PropsChoice

/-!
# Termination: lemmas

A parse converges if for all sufficiently large fuel it has the same outcome, other than running
out of fuel. Under the conditions of `SpecTerm`, parses of finite inputs converge.
-/

namespace PPC

variable {S : Sig} {N : Names S}

/-! ## Convergence -/

/-- From some fuel on the outcome is the same, and it is not that the fuel ran out. -/
def Cv {α : Type} (X : Nat → Out α) : Prop := ∃ v, v ≠ .oof ∧ ∃ n, ∀ m, n ≤ m → X m = v

theorem Cv.const {α : Type} {v : Out α} (h : v ≠ .oof) : Cv fun _ => v := ⟨v, h, 0, fun _ _ => rfl⟩

theorem Cv.ok {α : Type} (a : α) : Cv fun _ => Out.ok a := .const (by simp)

theorem Cv.congr {α : Type} {X Y : Nat → Out α} (h : Cv X) (n : Nat) (hn : ∀ m, n ≤ m → Y m = X m) : Cv Y := by
  obtain ⟨v, hv, n', h'⟩ := h
  exact ⟨v, hv, max n n', fun m hm => by rw [hn m (by omega), h' m (by omega)]⟩

/-- With one less fuel. -/
theorem Cv.pred {α : Type} {X Y : Nat → Out α} (h : Cv X) (hn : ∀ m, Y (m + 1) = X m) : Cv Y := by
  obtain ⟨v, hv, n', h'⟩ := h
  refine ⟨v, hv, n' + 1, fun m hm => ?_⟩
  obtain ⟨m, rfl⟩ : ∃ k, m = k + 1 := ⟨m - 1, by omega⟩
  rw [hn, h' m (by omega)]

theorem Cv.bind {α β : Type} {X : Nat → Out α} {F : α → Nat → Out β} (h : Cv X)
    (hF : ∀ a m, X m = .ok a → Cv (F a)) : Cv fun m => X m >>= fun a => F a m := by
  obtain ⟨v, hv, n, h'⟩ := h
  cases v with
  | ok a =>
    obtain ⟨w, hw, n2, h2⟩ := hF a n (h' n (Nat.le_refl _))
    refine ⟨w, hw, max n n2, fun m hm => ?_⟩
    show X m >>= (fun a => F a m) = w
    rw [h' m (by omega)]
    exact h2 m (by omega)
  | panic s => exact ⟨.panic s, by simp, n, fun m hm => by
      show X m >>= (fun a => F a m) = _
      rw [h' m hm]; rfl⟩
  | stuck => exact ⟨.stuck, by simp, n, fun m hm => by
      show X m >>= (fun a => F a m) = _
      rw [h' m hm]; rfl⟩
  | oof => exact (hv rfl).elim

/-! ## Steps within the input -/

/-- The length of the input. -/
structure Length (e : Env S) (L : Nat) : Prop where
  all : ∀ i, i < L → (e.source i).isSome
  stop : e.source L = none

theorem Length.le {e : Env S} {L i : Nat} (h : Length e L) : Valid e i ↔ i ≤ L := by
  constructor
  · intro hv
    refine Nat.le_of_not_lt fun h1 => ?_
    have := hv L h1
    rw [h.stop] at this
    cases this
  · intro h1 j hj
    exact h.all j (by omega)

theorem Length.exists {e : Env S} : ∀ {L : Nat}, e.source L = none → ∃ L', L' ≤ L ∧ Length e L'
  | L, h => by
    by_cases hv : ∀ i, i < L → (e.source i).isSome
    · exact ⟨L, Nat.le_refl _, hv, h⟩
    · simp only [Classical.not_forall] at hv
      obtain ⟨i, hi, hn⟩ := hv
      have hn' : e.source i = none := by
        cases he : e.source i with
        | none => rfl
        | some t => rw [he] at hn; exact (hn rfl).elim
      obtain ⟨L', h1, h2⟩ := Length.exists hn'
      exact ⟨L', by omega, h2⟩
termination_by L => L

theorem Length.next {e : Env S} {L i : Nat} (h : Length e L) (hi : i ≤ L) :
    e.next i ≤ L ∧ (i < L → i < e.next i) := by
  unfold Env.next
  split
  · rename_i hs
    have : i ≠ L := by
      intro h1
      rw [h1, h.stop] at hs
      cases hs
    omega
  · rename_i hs
    exact ⟨hi, fun h1 => (hs (h.all i h1)).elim⟩

/-- Positions do not decrease and stay within the input. -/
def Steps {E α : Type} (L : Nat) (q : PSem E α) : Prop :=
  ∀ en i r j, q en i = .ok (r, j) → i ≤ j ∧ (i ≤ L → j ≤ L ∧ ∀ x es, r = .failed x es → x ≤ L)

/-- Meanings of the recursive parsers that are those of programs, and consume tokens as `ν` says. -/
structure Good (e : Env S) (ν : Bool → N.K → Bool) (ρ : QEnv S N) : Prop where
  mq : ∀ k, MQ (fun en => ν en k) (ρ k)
  ref : ∃ c : REnv S N, EnvRef e c ρ

theorem Good.callSem {e : Env S} {D : Defs S N} {ν : Bool → N.K → Bool} (hν : Nullable D ν) (n : Nat) :
    Good e ν (callSem e D n) := ⟨callSem_mq hν n, _, callRec_ref D n⟩

theorem G.den_valid {e : Env S} {ν : Bool → N.K → Bool} {ρ : QEnv S N} (hρ : Good e ν ρ) (n : Nat) {ε : ErrTy S}
    {α : Type} (g : G S N ε α) (en : Bool) {i : Nat} (h : Valid e i) {r : Res α ε.E} {j : Nat}
    (hr : g.den e ρ n en i = .ok (r, j)) : i ≤ j ∧ Valid e j ∧ ∀ x es, r = .failed x es → i ≤ x ∧ Valid e x := by
  obtain ⟨c, hc⟩ := hρ.ref
  have h2 := G.ref hc n g en (Cursor.atPos i) (Cursor.atPos_wf h)
  have hp : (Cursor.atPos i).pos = i := rfl
  rw [hp, hr] at h2
  unfold Ref at h2
  split at h2
  · rename_i a c' gg hp' hq
    cases hq
    obtain ⟨hx, hv, hf⟩ := h2
    have hv' := Prod.mk.inj hv
    obtain ⟨h3, h4⟩ := hv'
    subst h3
    subst h4
    refine ⟨hx.pos, hx.wf.valid hx.wf.posLe, fun x es hres => ?_⟩
    obtain ⟨f1, f2⟩ := hf x es hres
    exact ⟨f1, hx.wf.valid f2⟩
  · rename_i hq; cases hq
  · rename_i hq; cases hq
  · exact h2.elim

theorem G.den_steps {e : Env S} {L : Nat} (hL : Length e L) {ν : Bool → N.K → Bool} {ρ : QEnv S N} (hρ : Good e ν ρ)
    (n : Nat) {ε : ErrTy S} {α : Type} (g : G S N ε α) : Steps L (g.den e ρ n) := by
  intro en i r j h
  refine ⟨(G.mq hρ.mq n g en i r j h).1, fun hi => ?_⟩
  have h1 := G.den_valid hρ n g en (hL.le.2 hi) h
  exact ⟨hL.le.1 h1.2.1, fun x es hr => hL.le.1 (h1.2.2 x es hr).2⟩

/-- Strategies stay within the input. -/
def SSteps {E α : Type} (L : Nat) (s : SSem E α) : Prop :=
  ∀ q, Steps L q → ∀ st fa es i o fa' es' j, st ≤ L → fa ≤ L → i ≤ L →
    s q st fa es i = .ok ((o, fa', es'), j) → j ≤ L ∧ fa' ≤ L

theorem ss_orElse {E α : Type} {L : Nat} {s t : SSem E α} (hs : SSteps L s) (ht : SSteps L t) :
    SSteps L (s.orElse t) := by
  intro q hq st fa es i o fa' es' j h1 h2 h3 h
  simp only [SSem.orElse, Out.bind_eq_ok] at h
  obtain ⟨⟨⟨o1, fa1, es1⟩, j1⟩, h4, h5⟩ := h
  have h6 := hs q hq st fa es i o1 fa1 es1 j1 h1 h2 h3 h4
  cases o1 with
  | some o1 => cases h5; exact h6
  | none => exact ht q hq st fa1 es1 j1 o fa' es' j h1 h6.2 h6.1 h5

theorem ss_giveUp {E α : Type} {L : Nat} {s : SSem E α} (hs : SSteps L s) {p : Nat → Nat → Nat → Nat}
    {f : List E → Nat → Nat → List E} (hp : ∀ st fa i, st ≤ L → fa ≤ L → i ≤ L → p st fa i ≤ L) :
    SSteps L (s.orElse fun _ st fa es i => giveUp (α := α) fa (f es st i) (p st fa i)) := by
  refine ss_orElse hs ?_
  intro q hq st fa es i o fa' es' j h1 h2 h3 h
  cases h
  exact ⟨hp _ _ _ h1 h2 h3, h2⟩

theorem ss_runIn {E α : Type} {L : Nat} {q : PSem E α} (hq : Steps L q) {exact silent : Bool} {fa : Nat}
    {es : List E} {i : Nat} {o : Option α} {fa' : Nat} {es' : List E} {j : Nat} (h2 : fa ≤ L) (h3 : i ≤ L)
    (h : runInSem q exact silent fa es i = .ok ((o, fa', es'), j)) : j ≤ L ∧ fa' ≤ L := by
  simp only [runInSem, Out.bind_eq_ok] at h
  obtain ⟨⟨r, k⟩, h4, h5⟩ := h
  have h6 := (hq _ _ _ _ h4).2 h3
  cases r with
  | success x => cases h5; exact ⟨h6.1, h2⟩
  | recovered x es2 =>
    have h7 := Prod.mk.inj (Out.ok.inj h5)
    have h8 := Prod.mk.inj (Prod.mk.inj h7.1).2
    exact ⟨by omega, by omega⟩
  | failed x es2 =>
    simp only [Out.bind_eq_ok] at h5
    obtain ⟨y, h7, h8⟩ := h5
    obtain ⟨rfl, -⟩ := saveAt_eq h7
    have h10 := Prod.mk.inj (Out.ok.inj h8)
    have h11 := Prod.mk.inj (Prod.mk.inj h10.1).2
    have := h6.2 _ _ rfl
    exact ⟨by omega, by omega⟩

theorem findSem_steps {e : Env S} {L : Nat} (hL : Length e L) {p : S.I → Bool} : ∀ (n i j : Nat), i ≤ L →
    findSem e p n i = .ok j → j ≤ L
  | 0, _, _, _, h => by cases h
  | n + 1, i, j, hi, h => by
    rw [findSem] at h
    split at h
    · cases h; exact hi
    · exact findSem_steps hL n _ j (hL.next hi).1 h

theorem scanSem_steps {e : Env S} {L : Nat} (hL : Length e L) {E : Type} {sc : Scanner S E} :
    ∀ (n : Nat) (st : sc.σ) (es : List E) (i : Nat) (es' : List E) (j : Nat), i ≤ L →
    scanSem e sc n st es i = .ok (es', j) → j ≤ L
  | 0, _, _, _, _, _, _, h => by cases h
  | n + 1, st, es, i, es', j, hi, h => by
    rw [scanSem] at h
    split at h
    · rename_i t ht
      have : i ≠ L := by
        intro h1; rw [h1, hL.stop] at ht; cases ht
      split at h
      · cases h
      · cases h; exact hi
      · exact scanSem_steps hL n _ _ _ _ _ (by omega) h
    · cases h; exact hi

theorem ss_whileNot {e : Env S} {L : Nat} (hL : Length e L) {E α : Type} {p : S.I → Bool} {t : SSem E α}
    (ht : SSteps L t) {q : PSem E α} (hq : Steps L q) {st : Nat} (hst : st ≤ L) :
    ∀ (n fa : Nat) (es : List E) (i : Nat) (o : Option α) (fa' : Nat) (es' : List E) (j : Nat),
    fa ≤ L → i ≤ L → whileNotSem e p t q st n fa es i = .ok ((o, fa', es'), j) → j ≤ L ∧ fa' ≤ L
  | 0, _, _, _, _, _, _, _, _, _, h => by cases h
  | n + 1, fa, es, i, o, fa', es', j, h2, h3, h => by
    rw [whileNotSem] at h
    split at h
    · cases h; exact ⟨h3, h2⟩
    · simp only [Out.bind_eq_ok] at h
      obtain ⟨⟨⟨o1, fa1, es1⟩, j1⟩, h4, h5⟩ := h
      have h6 := ht q hq st fa es i o1 fa1 es1 j1 hst h2 h3 h4
      cases o1 with
      | some o1 => cases h5; exact h6
      | none => exact ss_whileNot hL ht hq hst n _ _ _ _ _ _ _ h6.2 (hL.next h6.1).1 h5

theorem IS.ssteps {e : Env S} {L : Nat} (hL : Length e L) {ν : Bool → N.K → Bool} {ρ : QEnv S N}
    (hρ : Good e ν ρ) (n : Nat) : ∀ {ε : ErrTy S} {α : Type} (s : IS S N ε α),
    SSteps L (s.den e ρ n)
  | _, _, .attemptTo => by
    rw [IS.den]
    intro q hq st fa es i o fa' es' j h1 h2 h3 h
    cases h; exact ⟨h3, h2⟩
  | _, _, .restart s => by
    simp only [IS.den]
    exact ss_giveUp (IS.ssteps hL hρ n s) (f := fun es _ _ => es) (p := fun st _ _ => st) (by intros; assumption)
  | _, _, .seekToFailed s => by
    simp only [IS.den]
    exact ss_giveUp (IS.ssteps hL hρ n s) (f := fun es _ _ => es) (p := fun _ fa _ => fa) (by intros; assumption)
  | _, _, .skip s => by
    simp only [IS.den]
    exact ss_giveUp (IS.ssteps hL hρ n s) (f := fun es _ _ => es) (p := fun _ _ i => e.next i)
      (fun st fa i _ _ h => (hL.next h).1)
  | _, _, .skipIf s p => by
    simp only [IS.den]
    refine ss_giveUp (IS.ssteps hL hρ n s) (f := fun es _ _ => es)
      (p := fun _ _ i => if e.tokIs p false i then i + 1 else i) (fun st fa i _ _ h => ?_)
    split
    · rename_i ht
      have : i ≠ L := by
        intro h1; rw [h1, Env.tokIs, hL.stop] at ht; cases ht
      omega
    · exact h
  | _, _, .find s p => by
    simp only [IS.den]
    refine ss_orElse (IS.ssteps hL hρ n s) ?_
    intro q hq st fa es i o fa' es' j h1 h2 h3 h
    simp only [Out.bind_eq_ok] at h
    obtain ⟨k, h4, h5⟩ := h
    cases h5
    exact ⟨findSem_steps hL _ _ _ h3 h4, h2⟩
  | _, _, .scan s sc => by
    simp only [IS.den]
    refine ss_orElse (IS.ssteps hL hρ n s) ?_
    intro q hq st fa es i o fa' es' j h1 h2 h3 h
    simp only [Out.bind_eq_ok] at h
    obtain ⟨⟨es1, k⟩, h4, h5⟩ := h
    cases h5
    exact ⟨scanSem_steps hL _ _ _ _ _ _ h3 h4, h2⟩
  | _, _, .maybe s t => by
    simp only [IS.den]
    refine ss_orElse (IS.ssteps hL hρ n s) ?_
    intro q hq st fa es i o fa' es' j h1 h2 h3 h
    simp only [Out.bind_eq_ok] at h
    obtain ⟨⟨⟨o1, fa1, es1⟩, k⟩, h4, h5⟩ := h
    have h6 := IS.ssteps hL hρ n t q hq st fa es i o1 fa1 es1 k h1 h2 h3 h4
    have h7 := Prod.mk.inj (Out.ok.inj h5)
    have h8 := Prod.mk.inj (Prod.mk.inj h7.1).2
    refine ⟨?_, by omega⟩
    rw [← h7.2]
    split <;> omega
  | _, _, .whileNot s p t => by
    simp only [IS.den]
    refine ss_orElse (IS.ssteps hL hρ n s) ?_
    intro q hq st fa es i o fa' es' j h1 h2 h3 h
    exact ss_whileNot hL (IS.ssteps hL hρ n t) hq h1 _ _ _ _ _ _ _ _ h2 h3 h
  | _, _, .retry s exact silent => by
    simp only [IS.den]
    refine ss_orElse (IS.ssteps hL hρ n s) ?_
    intro q hq st fa es i o fa' es' j h1 h2 h3 h
    exact ss_runIn hq h2 h3 h
  | _, _, .tryToParse s g exact silent => by
    simp only [IS.den]
    refine ss_orElse (IS.ssteps hL hρ n s) ?_
    intro q hq st fa es i o fa' es' j h1 h2 h3 h
    exact ss_runIn (G.den_steps hL hρ n g) h2 h3 h
  | _, _, .pushError s f => by
    simp only [IS.den]
    exact ss_giveUp (IS.ssteps hL hρ n s) (f := fun es _ _ => es ++ [f ()]) (p := fun _ _ i => i)
      (by intros; assumption)
  | _, _, .pushErrorHere s f => by
    simp only [IS.den]
    exact ss_giveUp (IS.ssteps hL hρ n s) (f := fun es _ i => es ++ [f (e.locationAt i)]) (p := fun _ _ i => i)
      (by intros; assumption)
  | _, _, .pushErrorUpToHere s f => by
    simp only [IS.den]
    exact ss_giveUp (IS.ssteps hL hρ n s) (f := fun es st i => es ++ [f (e.spanOf st i)])
      (p := fun _ _ i => i) (by intros; assumption)
  | _, _, .pushErrorForToken s f => by
    simp only [IS.den]
    exact ss_giveUp (IS.ssteps hL hρ n s) (f := fun es _ i => es ++ [f (e.source i) (e.here i)])
      (p := fun _ _ i => i) (by intros; assumption)
  | _, _, .updateErrors s f => by
    simp only [IS.den]
    exact ss_giveUp (IS.ssteps hL hρ n s) (f := fun es _ _ => f es) (p := fun _ _ i => i)
      (by intros; assumption)
  | _, _, .updateErrorsHere s f => by
    simp only [IS.den]
    exact ss_giveUp (IS.ssteps hL hρ n s) (f := fun es _ i => f es (e.locationAt i)) (p := fun _ _ i => i)
      (by intros; assumption)
  | _, _, .updateErrorsUpToHere s f => by
    simp only [IS.den]
    exact ss_giveUp (IS.ssteps hL hρ n s) (f := fun es st i => f es (e.spanOf st i)) (p := fun _ _ i => i)
      (by intros; assumption)
  | _, _, .updateErrorsForToken s f => by
    simp only [IS.den]
    exact ss_giveUp (IS.ssteps hL hρ n s) (f := fun es _ i => f es (e.source i) (e.here i))
      (p := fun _ _ i => i) (by intros; assumption)
  | _, _, .boxed s => by simp only [IS.den]; exact IS.ssteps hL hρ n s

/-! ## Combinators -/

/-- A parser for each fuel. -/
abbrev Fam (E α : Type) : Type := Nat → PSem E α

/-- Converges from position `i` on, within the input. -/
def Ready {E α : Type} (L : Nat) (en : Bool) (i : Nat) (Q : Fam E α) : Prop :=
  ∀ i', i ≤ i' → i' ≤ L → Cv fun m => Q m en i'

theorem Ready.later {E α : Type} {L : Nat} {en : Bool} {i i' : Nat} {Q : Fam E α} (h : Ready L en i Q)
    (hi : i ≤ i') : Ready L en i' Q := fun k h1 h2 => h k (by omega) h2

theorem cv_finish {E α : Type} {en : Bool} {o : α} {r : Option (List E)} {j : Nat} :
    Cv fun _ => finishSem en o r j := by
  refine Cv.const ?_
  unfold finishSem
  split
  · split <;> simp
  · simp

theorem cv_concatLast {E β γ : Type} {en : Bool} {start : Nat} {f : β → γ} {Q : Fam E β}
    {r : Option (List E)} {i : Nat} (h : Cv fun m => Q m en i) :
    Cv fun m => concatLastSem en start f (Q m) r i := by
  refine Cv.bind h fun a m _ => ?_
  obtain ⟨r', j⟩ := a
  cases r' with
  | success y => exact cv_finish
  | recovered y es => exact cv_finish
  | failed y es => exact Cv.ok _

theorem cv_concatMid {E β γ δ : Type} {en : Bool} {start : Nat} {f : β × γ → δ} {Q : Fam E β} {R : Fam E γ}
    {r : Option (List E)} {i : Nat} (h : Cv fun m => Q m en i)
    (h2 : ∀ m x j, Q m en i = .ok (x, j) → (∀ y es, x ≠ .failed y es) → Cv fun m => R m en j) :
    Cv fun m => concatMidSem en start f (Q m) (R m) r i := by
  refine Cv.bind h fun a m hm => ?_
  obtain ⟨r', j⟩ := a
  cases r' with
  | success y => exact cv_concatLast (h2 _ _ _ hm (by simp))
  | recovered y es => exact cv_concatLast (h2 _ _ _ hm (by simp))
  | failed y es => exact Cv.ok _

theorem cv_concat2 {E α β γ : Type} {en : Bool} {f : α × β → γ} {Q : Fam E α} {R : Fam E β}
    {i : Nat} (h : Cv fun m => Q m en i)
    (h2 : ∀ m x j, Q m en i = .ok (x, j) → (∀ y es, x ≠ .failed y es) → Cv fun m => R m en j) :
    Cv fun m => qConcat2 f (Q m) (R m) en i := by
  refine Cv.bind h fun a m hm => ?_
  obtain ⟨r', j⟩ := a
  cases r' with
  | success y => exact cv_concatLast (h2 _ _ _ hm (by simp))
  | recovered y es => exact cv_concatLast (h2 _ _ _ hm (by simp))
  | failed y es => exact Cv.ok _

theorem cv_concat3 {E α β γ δ : Type} {en : Bool} {f : α × β × γ → δ} {Q : Fam E α} {R : Fam E β}
    {T : Fam E γ} {i : Nat} (h : Cv fun m => Q m en i)
    (h2 : ∀ m x j, Q m en i = .ok (x, j) → (∀ y es, x ≠ .failed y es) → (Cv fun m => R m en j) ∧
      ∀ m x' k, R m en j = .ok (x', k) → (∀ y es, x' ≠ .failed y es) → Cv fun m => T m en k) :
    Cv fun m => qConcat3 f (Q m) (R m) (T m) en i := by
  refine Cv.bind h fun a m hm => ?_
  obtain ⟨r', j⟩ := a
  cases r' with
  | success y => exact cv_concatMid (h2 _ _ _ hm (by simp)).1 (h2 _ _ _ hm (by simp)).2
  | recovered y es => exact cv_concatMid (h2 _ _ _ hm (by simp)).1 (h2 _ _ _ hm (by simp)).2
  | failed y es => exact Cv.ok _

/-- Each of the parsers converges where it starts. -/
def SeqReady {E α : Type} (en : Bool) : List (Fam E α) → Nat → Prop
  | [], _ => True
  | Q :: Qs, i => (Cv fun m => Q m en i) ∧
      ∀ m x j, Q m en i = .ok (x, j) → (∀ y es, x ≠ .failed y es) → SeqReady en Qs j

theorem cv_concatRest {E α : Type} {en : Bool} {start : Nat} : ∀ (Qs : List (Fam E α)) (out : List α)
    (r : Option (List E)) (i : Nat), SeqReady en Qs i →
    Cv fun m => concatRestSem en start (Qs.map fun Q => Q m) out r i
  | [], _, _, _, _ => by
    simp only [List.map_nil, concatRestSem]; exact cv_finish
  | Q :: Qs, out, r, i, h => by
    simp only [List.map_cons, concatRestSem]
    refine Cv.bind h.1 fun a m hm => ?_
    obtain ⟨r', j⟩ := a
    cases r' with
    | success y => exact cv_concatRest Qs _ _ _ (h.2 _ _ _ hm (by simp))
    | recovered y es => exact cv_concatRest Qs _ _ _ (h.2 _ _ _ hm (by simp))
    | failed y es => exact Cv.ok _

theorem cv_concat {E α : Type} {en : Bool} (Qs : List (Fam E α)) (i : Nat) (h : SeqReady en Qs i) :
    Cv fun m => qConcat (Qs.map fun Q => Q m) en i := by
  cases Qs with
  | nil => simp only [List.map_nil, qConcat]; exact Cv.ok _
  | cons Q Qs =>
    simp only [List.map_cons, qConcat]
    refine Cv.bind h.1 fun a m hm => ?_
    obtain ⟨r', j⟩ := a
    cases r' with
    | success y => exact cv_concatRest Qs _ _ _ (h.2 _ _ _ hm (by simp))
    | recovered y es => exact cv_concatRest Qs _ _ _ (h.2 _ _ _ hm (by simp))
    | failed y es => exact Cv.ok _

/-! ## Choice -/

/-- A failed alternative, for each fuel. -/
def atFuel {E α : Type} (m : Nat) (f : Nat × List E × Fam E α) : FailSem E α := (f.1, f.2.1, f.2.2 m)

/-- The first pass ends with an outcome, or with a list of failures. -/
theorem cv_altFirst {E α : Type} {L i0 : Nat} : ∀ (Qs : List (Fam E α)) (fails : List (Nat × List E × Fam E α))
    (i : Nat), i0 ≤ i → i ≤ L → (∀ Q ∈ Qs, (∀ m, Steps L (Q m)) ∧ Ready L false i0 Q) →
    (∃ v, v ≠ .oof ∧ (∀ fs j, v ≠ .ok (.inr fs, j)) ∧
      ∃ n, ∀ m, n ≤ m → altFirstSem (Qs.map fun Q => Q m) (fails.map (atFuel m)) i = v) ∨
    ∃ (fs : List (Nat × List E × Fam E α)) (j : Nat), i0 ≤ j ∧ j ≤ L ∧ (∀ f ∈ fs, f ∈ fails ∨ f.2.2 ∈ Qs) ∧
      ∃ n, ∀ m, n ≤ m → altFirstSem (Qs.map fun Q => Q m) (fails.map (atFuel m)) i
        = .ok (.inr (fs.map (atFuel m)), j)
  | [], fails, i, h1, h2, _ => by
    exact .inr ⟨fails, i, h1, h2, fun f hf => .inl hf, 0, fun m _ => rfl⟩
  | Q :: Qs, fails, i, h1, h2, hQ => by
    obtain ⟨v, hv, n, hn⟩ := (hQ Q (by simp)).2 i h1 h2
    cases v with
    | oof => exact (hv rfl).elim
    | panic s =>
      refine .inl ⟨(.panic s), by simp, by simp, n, fun m hm => ?_⟩
      simp only [List.map_cons, altFirstSem, hn m hm]; rfl
    | stuck =>
      refine .inl ⟨.stuck, by simp, by simp, n, fun m hm => ?_⟩
      simp only [List.map_cons, altFirstSem, hn m hm]; rfl
    | ok a =>
      obtain ⟨r, k⟩ := a
      have hst := (hQ Q (by simp)).1 n _ _ _ _ (hn n (Nat.le_refl _))
      cases r with
      | success o =>
        refine .inl ⟨(.ok (.inl o, k)), by simp, by simp, n, fun m hm => ?_⟩
        simp only [List.map_cons, altFirstSem, hn m hm]; rfl
      | recovered o es =>
        refine .inl ⟨(.panic "internal error: entered unreachable code: parser recovered from an error with recovery disabled"),
          by simp, by simp, n, fun m hm => ?_⟩
        simp only [List.map_cons, altFirstSem, hn m hm]; rfl
      | failed x es =>
        have hstep : ∀ m, n ≤ m → altFirstSem ((Q :: Qs).map fun Q => Q m) (fails.map (atFuel m)) i =
            altFirstSem (Qs.map fun Q => Q m) ((fails ++ [(x, es, Q)]).map (atFuel m)) k := by
          intro m hm
          simp only [List.map_cons, altFirstSem, hn m hm, List.map_append, List.map_nil]
          rfl
        rcases cv_altFirst (L := L) (i0 := i0) Qs (fails ++ [(x, es, Q)]) k (by omega) (hst.2 h2).1
            (fun Q' h' => hQ Q' (by simp [h'])) with ⟨v, h3, h4, n', h5⟩ | ⟨fs, j, h3, h4, h5, n', h6⟩
        · exact .inl ⟨v, h3, h4, max n n', fun m hm => by rw [hstep m (by omega), h5 m (by omega)]⟩
        · refine .inr ⟨fs, j, h3, h4, fun f hf => ?_, max n n', fun m hm => by
            rw [hstep m (by omega), h6 m (by omega)]⟩
          rcases h5 f hf with h7 | h7
          · rcases List.mem_append.1 h7 with h8 | h8
            · exact .inl h8
            · rw [List.mem_singleton.1 h8]; exact .inr (by simp)
          · exact .inr (by simp [h7])

theorem cv_altRecover {E α : Type} {L i0 : Nat} : ∀ (fs : List (Nat × List E × Fam E α)) (i : Nat),
    i0 ≤ i → i ≤ L → (∀ f ∈ fs, (∀ m, Steps L (f.2.2 m)) ∧ Ready L true i0 f.2.2) →
    Cv fun m => altRecoverSem (fs.map (atFuel m)) i
  | [], i, _, _, _ => by simp only [List.map_nil, altRecoverSem]; exact Cv.ok _
  | f :: fs, i, h1, h2, hf => by
    simp only [List.map_cons, atFuel, altRecoverSem]
    refine Cv.bind ((hf f (by simp)).2 i h1 h2) fun a m hm => ?_
    obtain ⟨r, k⟩ := a
    have hst := (hf f (by simp)).1 m _ _ _ _ hm
    cases r with
    | success o => exact Cv.const (by simp)
    | recovered o es => exact Cv.ok _
    | failed x es => exact cv_altRecover fs k (by omega) (hst.2 h2).1 (fun f' h' => hf f' (by simp [h']))

theorem altCombine_ne_oof {α : Type} {ε : ErrTy S} {fails : List (Nat × List ε.E)} {i : Nat} :
    altCombineSem (α := α) ε fails i ≠ .oof := by
  unfold altCombineSem
  simp only
  repeat' split
  all_goals simp

theorem cv_alternate {α : Type} {ε : ErrTy S} {L i : Nat} {en : Bool} (Qs : List (Fam ε.E α)) (hi : i ≤ L)
    (h1 : ∀ Q ∈ Qs, (∀ m, Steps L (Q m)) ∧ Ready L false i Q)
    (h2 : en = true → ∀ Q ∈ Qs, Ready L true i Q) :
    Cv fun m => qAlternate ε (Qs.map fun Q => Q m) en i := by
  rcases cv_altFirst (L := L) Qs [] i (Nat.le_refl _) hi h1 with
    ⟨v, h3, h4, n, h5⟩ | ⟨fs, j, h3, h4, h5, n, h6⟩
  · cases v with
    | oof => exact (h3 rfl).elim
    | panic s =>
      refine ⟨.panic s, by simp, n, fun m hm => ?_⟩
      have h7 := h5 m hm
      simp only [List.map_nil] at h7
      simp only [qAlternate, h7]; rfl
    | stuck =>
      refine ⟨.stuck, by simp, n, fun m hm => ?_⟩
      have h7 := h5 m hm
      simp only [List.map_nil] at h7
      simp only [qAlternate, h7]; rfl
    | ok a =>
      obtain ⟨x, j⟩ := a
      cases x with
      | inr fs => exact (h4 _ _ rfl).elim
      | inl o =>
        refine ⟨.ok (.success o, j), by simp, n, fun m hm => ?_⟩
        have h7 := h5 m hm
        simp only [List.map_nil] at h7
        simp only [qAlternate, h7]; rfl
  · have h7 : ∀ m, n ≤ m → qAlternate ε (Qs.map fun Q => Q m) en i =
        (if fs.isEmpty then .panic "cannot have zero alternatives for alternate()"
        else if en then altRecoverSem ((sortDesc fs).map (atFuel m)) j >>= fun a =>
          match a with
          | (some r, k) => .ok (r, k)
          | (none, k) => altCombineSem ε ((sortDesc fs).map fun f => (f.1, f.2.1)) k
        else altCombineSem ε ((sortDesc fs).map fun f => (f.1, f.2.1)) j) := by
      intro m hm
      have h8 := h6 m hm
      simp only [List.map_nil] at h8
      have h9 : sortDesc (fs.map (atFuel m)) = (sortDesc fs).map (atFuel m) :=
        sortDesc_map (atFuel m) (fun _ => rfl) fs
      have h10 : ((sortDesc fs).map (atFuel m)).map (fun f => (f.1, f.2.1)) =
          (sortDesc fs).map fun f => (f.1, f.2.1) := by
        rw [List.map_map]; rfl
      unfold qAlternate
      rw [h8]
      show (if (fs.map (atFuel m)).isEmpty = true then _ else _) = _
      rw [h9, h10, List.isEmpty_map]
      rfl
    refine Cv.congr ?_ n h7
    by_cases he : fs.isEmpty = true
    · simp only [he, if_true]; exact Cv.const (by simp)
    · simp only [he, Bool.false_eq_true, if_false]
      by_cases hen : en = true
      · simp only [hen, if_true]
        refine Cv.bind (cv_altRecover (L := L) (i0 := i) _ j h3 h4 fun f hf => ?_) fun a m _ => ?_
        · rcases h5 f (mem_sortDesc.1 hf) with h8 | h8
          · cases h8
          · exact ⟨(h1 _ h8).1, h2 hen _ h8⟩
        · obtain ⟨x, k⟩ := a
          cases x with
          | some r => exact Cv.ok _
          | none => exact Cv.const altCombine_ne_oof
      · simp only [hen, Bool.false_eq_true, if_false]
        exact Cv.const altCombine_ne_oof

/-! ## Repetition -/

/-- How many more iterations there can be. -/
def RepCfg.bound (cfg : RepCfg) (L len cur : Nat) : Nat :=
  match cfg.maximum with
  | some M => M - len
  | none => (cfg.minimum - len) + (L - cur) + (if len = 0 then 1 else 0)

theorem RepCfg.bound_lt {cfg : RepCfg} {L len cur cur' : Nat} (hmax : cfg.atMax len = false)
    (hc : cur ≤ cur') (hL : cur' ≤ L)
    (hp : cfg.maximum = none → cfg.minimum ≤ len → len ≠ 0 → cur < cur') :
    cfg.bound L (len + 1) cur' < cfg.bound L len cur := by
  unfold RepCfg.atMax at hmax
  unfold RepCfg.bound
  cases hm : cfg.maximum with
  | some M =>
    rw [hm] at hmax
    simp only [decide_eq_false_iff_not] at hmax
    simp only
    omega
  | none =>
    have := hp hm
    simp only
    split <;> split <;> omega

theorem cv_repItem {E α : Type} {cfg : RepCfg} {I : Fam E α} {en : Bool} {start : Nat}
    {A : Nat → List α → Option (List E) → Nat → Out (Res (List α) E × Nat)} {out : List α}
    {r : Option (List E)} {before : Option Nat} {i : Nat}
    (hI : Cv fun m => I m (en && decide (out.length < cfg.minimum)) i)
    (hA : (cfg.allowTrailing && cfg.atMax out.length) = false → ∀ m x j o r',
      I m (en && decide (out.length < cfg.minimum)) i = .ok (x, j) → (∀ y es, x ≠ .failed y es) →
      Cv fun m => A m (out ++ [o]) r' j) :
    Cv fun m => repItemSem cfg (I m) en start (A m) out r before i := by
  unfold repItemSem
  by_cases ht : (cfg.allowTrailing && cfg.atMax out.length) = true
  · simp only [ht, if_true]; exact cv_finish
  · simp only [ht, Bool.false_eq_true, if_false]
    refine Cv.bind hI fun a m hm => ?_
    obtain ⟨x, j⟩ := a
    cases x with
    | success y => exact hA (by simpa using ht) _ _ _ _ _ hm (by simp)
    | recovered y es => exact hA (by simpa using ht) _ _ _ _ _ hm (by simp)
    | failed y es =>
      by_cases hmin : cfg.minimum ≤ out.length
      · simp only [hmin, if_true]; exact Cv.ok _
      · simp only [hmin, if_false]; exact Cv.ok _

theorem cv_repLoop {E α β : Type} {cfg : RepCfg} {L start : Nat} {en : Bool} {I : Fam E α}
    {Sp : Option (Fam E β)} {mi ms : Bool → Bool} (hIs : ∀ m, Steps L (I m)) (hIm : ∀ m, MQ mi (I m))
    (hSs : ∀ Q, Sp = some Q → ∀ m, Steps L (Q m) ∧ MQ ms (Q m))
    (hIr : Ready L en start I) (hIf : Ready L false start I)
    (hSr : ∀ Q, Sp = some Q → ∀ b i', (b = en ∨ b = false) → start ≤ i' → i' ≤ L →
      (start < i' ∨ cfg.allowLeading = true ∨ mi en = true ∨ mi false = true) → Cv fun m => Q m b i')
    (hp : cfg.maximum = none → mi false = false ∨ (Sp.isSome ∧ ms false = false)) :
    ∀ (d : Nat) (c : Nat) (out : List α) (r : Option (List E)) (i : Nat),
    cfg.bound L out.length i ≤ d → start ≤ i → i ≤ L →
    (out ≠ [] → start < i ∨ cfg.allowLeading = true ∨ mi en = true ∨ mi false = true) →
    Cv fun m => repLoopSem cfg (I m) (Sp.map fun Q => Q m) en start (m - c) out r i := by
  intro d
  induction d using Nat.strongRecOn with
  | ind d ih =>
  intro c out r i hd h1 h2 h3
  have hflag : ∀ b : Bool, (en && b) = en ∨ (en && b) = false := by
    intro b; cases b <;> simp
  have hIcv : ∀ b i', start ≤ i' → i' ≤ L → Cv fun m => I m (en && b) i' := by
    intro b i' h4 h5
    rcases hflag b with h | h <;> rw [h]
    · exact hIr i' h4 h5
    · exact hIf i' h4 h5
  -- what happens after the separator
  have hitem : (!cfg.allowTrailing && cfg.atMax out.length) = false → ∀ (k : Nat) (before : Option Nat)
      (r : Option (List E)), i ≤ k → k ≤ L →
      (cfg.maximum = none → cfg.minimum ≤ out.length → out ≠ [] → mi false = false ∨ i < k) →
      Cv fun m => repItemSem cfg (I m) en start
        (repLoopSem cfg (I m) (Sp.map fun Q => Q m) en start (m - (c + 1))) out r before k := by
    intro hmax1 k before r h4 h5 h6
    refine cv_repItem (hIcv _ _ (by omega) h5) fun hmax2 m x j o r' hm hx => ?_
    have hmax : cfg.atMax out.length = false := by
      cases ha : cfg.allowTrailing <;> cases hb : cfg.atMax out.length <;> simp [ha, hb] at hmax1 hmax2 ⊢
    have hst := hIs m _ _ _ _ hm
    have hlen : (out ++ [o]).length = out.length + 1 := by simp
    have hlt : cfg.bound L (out ++ [o]).length j < cfg.bound L out.length i := by
      rw [hlen]
      refine RepCfg.bound_lt hmax (by omega) (hst.2 h5).1 fun hmx hmin hne => ?_
      rcases h6 hmx hmin (by intro h0; rw [h0] at hne; exact hne rfl) with h7 | h7
      · have h8 : (en && decide (out.length < cfg.minimum)) = false := by
          simp only [Bool.and_eq_false_iff, decide_eq_false_iff_not]; right; omega
        rw [h8] at hm
        have := (hIm m).lt hm hx h7
        omega
      · omega
    refine ih _ (Nat.lt_of_lt_of_le hlt hd) (c + 1) _ _ j (Nat.le_refl _) (by omega) (hst.2 h5).1 fun _ => ?_
    by_cases hlt' : start < j
    · exact .inl hlt'
    · right; right
      have hkj : ¬ k < j := by omega
      rcases hflag (decide (out.length < cfg.minimum)) with h | h
      · left
        cases hme : mi en with
        | true => rfl
        | false => rw [h] at hm; exact (hkj ((hIm m).lt hm hx hme)).elim
      · right
        cases hme : mi false with
        | true => rfl
        | false => rw [h] at hm; exact (hkj ((hIm m).lt hm hx hme)).elim
  refine Cv.congr (X := fun m => repLoopSem cfg (I m) (Sp.map fun Q => Q m) en start (m - (c + 1) + 1) out r i)
    ?_ (c + 1) (fun m hm => by rw [show m - c = m - (c + 1) + 1 by omega])
  simp only [repLoopSem]
  by_cases hmax : (!cfg.allowTrailing && cfg.atMax out.length) = true
  · simp only [hmax, if_true]; exact cv_finish
  · simp only [hmax, Bool.false_eq_true, if_false]
    replace hmax : (!cfg.allowTrailing && cfg.atMax out.length) = false := by simpa using hmax
    cases Sp with
    | none =>
      simp only [Option.map_none]
      refine hitem hmax i none r (Nat.le_refl _) h2 fun hmx _ _ => .inl ?_
      rcases hp hmx with h | h
      · exact h
      · cases h.1
    | some Q =>
      simp only [Option.map_some]
      by_cases hsep : (!out.isEmpty || cfg.allowLeading) = true
      · simp only [hsep]
        have hcond : start < i ∨ cfg.allowLeading = true ∨ mi en = true ∨ mi false = true := by
          cases out with
          | nil => right; left; simpa using hsep
          | cons a out => exact h3 (by simp)
        refine Cv.bind (hSr Q rfl _ i ?_ h1 h2 hcond) fun a m hm => ?_
        · rw [Bool.and_assoc]; exact hflag _
        · obtain ⟨x, k⟩ := a
          have hst := (hSs Q rfl m).1 _ _ _ _ hm
          have hprog : (∀ y es, x ≠ .failed y es) → cfg.maximum = none → cfg.minimum ≤ out.length → out ≠ [] →
              mi false = false ∨ i < k := by
            intro hx hmx hmin _
            rcases hp hmx with h | h
            · exact .inl h
            · right
              have h8 : (en && decide (out.length < cfg.minimum) && !out.isEmpty) = false := by
                have : decide (out.length < cfg.minimum) = false := by
                  simp only [decide_eq_false_iff_not]; omega
                rw [this]; simp
              rw [h8] at hm
              exact (hSs Q rfl m).2.lt hm hx h.2
          cases x with
          | success y => exact hitem hmax k _ _ hst.1 (hst.2 h2).1 (hprog (by simp))
          | recovered y es => exact hitem hmax k _ _ hst.1 (hst.2 h2).1 (hprog (by simp))
          | failed y es =>
            simp only
            by_cases hemp : out.isEmpty = true
            · simp only [hemp, if_true]
              refine hitem hmax k _ _ hst.1 (hst.2 h2).1 fun _ _ hne => ?_
              exact (hne (by simpa using hemp)).elim
            · simp only [hemp, Bool.false_eq_true, if_false]
              refine Cv.const ?_
              split <;> simp
      · replace hsep : (!out.isEmpty || cfg.allowLeading) = false := by simpa using hsep
        simp only [hsep]
        refine hitem hmax i none r (Nat.le_refl _) h2 fun _ _ hne => ?_
        cases out with
        | nil => exact (hne rfl).elim
        | cons a out => simp at hsep

/-! ## Recovery -/

theorem cv_find {e : Env S} {L : Nat} (hL : Length e L) {p : S.I → Bool} : ∀ (d c i : Nat), L - i ≤ d → i ≤ L →
    Cv fun m => findSem e p (m - c) i := by
  intro d
  induction d with
  | zero =>
    intro c i h1 h2
    have : i = L := by omega
    subst this
    refine ⟨.ok i, by simp, c + 1, fun m hm => ?_⟩
    show findSem e p (m - c) i = _
    rw [show m - c = m - c - 1 + 1 by omega, findSem]
    simp [Env.tokIs, hL.stop]
  | succ d ih =>
    intro c i h1 h2
    refine Cv.congr (X := fun m => findSem e p (m - (c + 1) + 1) i) ?_ (c + 1)
      (fun m hm => by rw [show m - c = m - (c + 1) + 1 by omega])
    simp only [findSem]
    by_cases hp : e.tokIs p true i = true
    · simp only [hp, if_true]; exact Cv.ok _
    · simp only [hp, Bool.false_eq_true, if_false]
      have h3 := hL.next h2
      have : i ≠ L := by
        intro h; rw [h, Env.tokIs, hL.stop] at hp; exact hp rfl
      have := h3.2 (by omega)
      exact ih (c + 1) _ (by omega) h3.1

theorem cv_scan {e : Env S} {L : Nat} (hL : Length e L) {E : Type} {sc : Scanner S E} : ∀ (d c : Nat)
    (st : sc.σ) (es : List E) (i : Nat), L - i ≤ d → i ≤ L → Cv fun m => scanSem e sc (m - c) st es i := by
  intro d
  induction d with
  | zero =>
    intro c st es i h1 h2
    have : i = L := by omega
    subst this
    refine ⟨.ok (sc.eof (e.locationAt i) st es, i), by simp, c + 1, fun m hm => ?_⟩
    show scanSem e sc (m - c) st es i = _
    rw [show m - c = m - c - 1 + 1 by omega, scanSem, hL.stop]
  | succ d ih =>
    intro c st es i h1 h2
    refine Cv.congr (X := fun m => scanSem e sc (m - (c + 1) + 1) st es i) ?_ (c + 1)
      (fun m hm => by rw [show m - c = m - (c + 1) + 1 by omega])
    simp only [scanSem]
    cases ht : e.source i with
    | none => exact Cv.ok _
    | some t =>
      have : i ≠ L := by
        intro h; rw [h, hL.stop] at ht; cases ht
      simp only
      cases hs : sc.scan t (e.here i) st es with
      | error s => exact Cv.const (by simp)
      | ok x =>
        obtain ⟨b, st', es'⟩ := x
        cases b with
        | true => exact Cv.ok _
        | false => exact ih (c + 1) st' es' (i + 1) (by omega) (by omega)

theorem cv_orElse {E α : Type} {L : Nat} {s t : Nat → SSem E α} {Q : Fam E α} {st fa : Nat} {es : List E}
    {i : Nat} (hs : Cv fun m => s m (Q m) st fa es i)
    (hb : ∀ m o fa' es' j, s m (Q m) st fa es i = .ok ((o, fa', es'), j) →
      st ≤ j ∧ st ≤ fa' ∧ j ≤ L ∧ fa' ≤ L)
    (ht : ∀ fa' es' j, st ≤ j → st ≤ fa' → j ≤ L → fa' ≤ L → Cv fun m => t m (Q m) st fa' es' j) :
    Cv fun m => (s m).orElse (t m) (Q m) st fa es i := by
  refine Cv.bind hs fun a m hm => ?_
  obtain ⟨⟨o, fa', es'⟩, j⟩ := a
  have := hb m o fa' es' j hm
  cases o with
  | some o => exact Cv.ok _
  | none => exact ht fa' es' j this.1 this.2.1 this.2.2.1 this.2.2.2

theorem cv_runIn {E α : Type} {Q : Fam E α} {exact silent : Bool} {fa : Nat} {es : List E} {i : Nat}
    (h : Cv fun m => Q m (!exact) i) : Cv fun m => runInSem (Q m) exact silent fa es i := by
  refine Cv.bind h fun a m _ => ?_
  obtain ⟨r, j⟩ := a
  cases r with
  | success o => exact Cv.ok _
  | recovered o es' => exact Cv.ok _
  | failed x es' =>
    simp only
    refine Cv.const ?_
    unfold saveAtSem
    split
    · simp
    · show giveUp _ _ _ ≠ _
      simp [giveUp]

theorem cv_whileNot {e : Env S} {L : Nat} (hL : Length e L) {E α : Type} {p : S.I → Bool}
    {t : Nat → SSem E α} {Q : Fam E α} {st : Nat}
    (ht : ∀ fa es i, st ≤ i → st ≤ fa → i ≤ L → fa ≤ L → Cv fun m => t m (Q m) st fa es i)
    (hb : ∀ m fa es i o fa' es' j, st ≤ i → st ≤ fa → i ≤ L → fa ≤ L →
      t m (Q m) st fa es i = .ok ((o, fa', es'), j) →
      st ≤ j ∧ st ≤ fa' ∧ j ≤ L ∧ fa' ≤ L ∧ (o = none → i ≤ j)) :
    ∀ (d c fa : Nat) (es : List E) (i : Nat), L - i ≤ d → st ≤ i → st ≤ fa → i ≤ L → fa ≤ L →
    Cv fun m => whileNotSem e p (t m) (Q m) st (m - c) fa es i := by
  intro d
  induction d using Nat.strongRecOn with
  | ind d ih =>
  intro c fa es i hd h1 h2 h3 h4
  refine Cv.congr (X := fun m => whileNotSem e p (t m) (Q m) st (m - (c + 1) + 1) fa es i) ?_ (c + 1)
    (fun m hm => by rw [show m - c = m - (c + 1) + 1 by omega])
  simp only [whileNotSem]
  by_cases hp : e.tokIs p true i = true
  · simp only [hp, if_true]; exact Cv.ok _
  · simp only [hp, Bool.false_eq_true, if_false]
    have hne : i ≠ L := by
      intro h; rw [h, Env.tokIs, hL.stop] at hp; exact hp rfl
    refine Cv.bind (ht fa es i h1 h2 h3 h4) fun a m hm => ?_
    obtain ⟨⟨o, fa', es'⟩, j⟩ := a
    have hbm := hb m fa es i o fa' es' j h1 h2 h3 h4 hm
    cases o with
    | some o => exact Cv.ok _
    | none =>
      have h5 := hbm.2.2.2.2 rfl
      have h6 := hL.next hbm.2.2.1
      have h7 : i < e.next j := by
        rcases Nat.lt_or_ge j L with h8 | h8
        · have := h6.2 h8; omega
        · have := e.le_next j; omega
      have h8 := e.le_next j
      exact ih (L - e.next j) (by omega) (c + 1) fa' es' _ (Nat.le_refl _) (by omega) hbm.2.1 h6.1 hbm.2.2.2.1

theorem cv_toRecover {E α : Type} {Q : Fam E α} {s : Nat → SSem E α} {en : Bool} {i : Nat}
    (hQ : Cv fun m => Q m en i)
    (hs : en = true → ∀ m x es j, Q m en i = .ok (.failed x es, j) → j ≤ x →
      Cv fun m => s m (Q m) j x es j) :
    Cv fun m => qToRecover (Q m) (s m) en i := by
  refine Cv.bind hQ fun a m hm => ?_
  obtain ⟨r, j⟩ := a
  cases r with
  | success o => exact Cv.ok _
  | recovered o es => exact Cv.ok _
  | failed x es =>
    simp only
    cases en with
    | false => simp only [Bool.not_false, if_true]; exact Cv.ok _
    | true =>
      simp only [Bool.not_true, Bool.false_eq_true, if_false]
      unfold saveAtSem
      split
      · exact Cv.const (by simp)
      · rename_i hlt
        refine Cv.bind (X := fun m => s m (Q m) j x es j) (hs rfl m x es j hm (by omega)) fun a m _ => ?_
        obtain ⟨⟨o, fa', es'⟩, k⟩ := a
        cases o with
        | some o => exact Cv.ok _
        | none => exact Cv.ok _

/-! ## Grammars -/

section

variable {e : Env S} {D : Defs S N} {ν : Bool → N.K → Bool} {L : Nat} {C : Nat → QEnv S N}

/-- The calls `P` converge at position `i`. -/
def NowC (C : Nat → QEnv S N) (i : Nat) (P : Bool → N.K → Prop) : Prop :=
  ∀ b k, P b k → Cv fun m => C m k b i

/-- All calls converge at the positions after `i`. -/
def LaterC (C : Nat → QEnv S N) (L i : Nat) : Prop :=
  ∀ b k i', i < i' → i' ≤ L → Cv fun m => C m k b i'

theorem LaterC.mono {i j : Nat} (h : LaterC C L i) (hij : i ≤ j) : LaterC C L j :=
  fun b k i' h1 h2 => h b k i' (by omega) h2

theorem LaterC.now {i j : Nat} (h : LaterC C L i) (hij : i < j) (hj : j ≤ L) (P : Bool → N.K → Prop) :
    NowC C j P := fun b k _ => h b k j hij hj

/-- The parser converges wherever the calls it may make before consuming a token do. -/
def GCv (e : Env S) (C : Nat → QEnv S N) (ν : Bool → N.K → Bool) (L : Nat) {ε : ErrTy S} {α : Type}
    (g : G S N ε α) : Prop :=
  ∀ en i, i ≤ L → LaterC C L i → NowC C i (fun b k => g.MayCall ν b k en) →
    Cv fun m => g.den e (C m) m en i

theorem GCv.ready {ε : ErrTy S} {α : Type} {g : G S N ε α} (h : GCv e C ν L g) {en : Bool} {i : Nat}
    (hl : LaterC C L i) (hn : NowC C i (fun b k => g.MayCall ν b k en)) :
    Ready L en i fun m => g.den e (C m) m := by
  intro i' h1 h2
  rcases Nat.lt_or_eq_of_le h1 with h3 | h3
  · exact h en i' h2 (hl.mono h1) (hl.now h3 h2 _)
  · subst h3; exact h en i h2 hl hn

/-- After a parser that did not fail. -/
theorem GCv.after {ε : ErrTy S} {α β : Type} {g : G S N ε α} (h : GCv e C ν L g) {E : Type} {en : Bool} {i j : Nat}
    {ma : Bool → Bool} {q : PSem E β} (hq : MQ ma q) (hs : Steps L q) (hi : i ≤ L) {x : Res β E}
    (hx : q en i = .ok (x, j)) (hf : ∀ y es, x ≠ .failed y es) (hl : LaterC C L i)
    (hn : ma en = true → NowC C i (fun b k => g.MayCall ν b k en)) :
    Cv fun m => g.den e (C m) m en j := by
  have h1 := hs _ _ _ _ hx
  rcases Nat.lt_or_eq_of_le h1.1 with h3 | h3
  · exact h en j (h1.2 hi).1 (hl.mono h1.1) (hl.now h3 (h1.2 hi).1 _)
  · subst h3
    refine h en i hi hl (hn ?_)
    cases hm : ma en with
    | true => rfl
    | false => have := hq.lt hx hf hm; omega

/-- The situation of a strategy for the parser `Q` that failed at `st`. -/
structure SCtx (e : Env S) (C : Nat → QEnv S N) (L : Nat) {E α : Type} (Q : Fam E α)
    (mc : Bool → N.K → Bool → Prop) (st : Nat) : Prop where
  steps : ∀ m, Steps L (Q m)
  mq : ∀ m, MQ (fun _ => true) (Q m)
  later : LaterC C L st
  le : st ≤ L
  ready : ∀ x, NowC C st (fun b k => mc b k x) → Ready L x st Q

/-- The strategy converges wherever the calls it may make before consuming a token do. -/
def ICv (e : Env S) (C : Nat → QEnv S N) (L : Nat) {ε : ErrTy S} {α : Type}
    (s : Nat → SSem ε.E α) (mcs : (Bool → N.K → Bool → Prop) → Bool → N.K → Prop) : Prop :=
  ∀ (Q : Fam ε.E α) (mc : Bool → N.K → Bool → Prop) (st : Nat), SCtx e C L Q mc st →
    NowC C st (mcs mc) → ∀ fa es i, st ≤ i → st ≤ fa → i ≤ L → fa ≤ L →
    Cv fun m => s m (Q m) st fa es i

variable (hL : Length e L) (hC : ∀ m, Good e ν (C m))

include hL hC

theorem IS.bounds {ε : ErrTy S} {α : Type} (s : IS S N ε α) {Q : Fam ε.E α}
    {mc : Bool → N.K → Bool → Prop} {st : Nat} (hc : SCtx e C L Q mc st) (m : Nat) {fa : Nat} {es : List ε.E}
    {i : Nat} (h1 : st ≤ i) (h2 : st ≤ fa) (h3 : i ≤ L) (h4 : fa ≤ L) {o : Option α} {fa' : Nat}
    {es' : List ε.E} {j : Nat}
    (h : s.den e (C m) m (Q m) st fa es i = .ok ((o, fa', es'), j)) :
    st ≤ j ∧ st ≤ fa' ∧ j ≤ L ∧ fa' ≤ L := by
  have h5 := IS.smq (hC m).mq m s (Q m) _ (hc.mq m) st fa es i o fa' es' j h1 h2 h
  have h6 := IS.ssteps hL (hC m) m s (Q m) (hc.steps m) st fa es i o fa' es' j hc.le h4 h3 h
  exact ⟨h5.1, h5.2.1, h6.1, h6.2⟩

/-- A strategy followed by another action. -/
theorem icv_else {ε : ErrTy S} {α : Type} {s : IS S N ε α}
    {mcs : (Bool → N.K → Bool → Prop) → Bool → N.K → Prop}
    (ih : ICv e C L (fun m => s.den e (C m) m) (fun mc b k => s.MayCall ν b k (mc b k)))
    (hm : ∀ mc b k, s.MayCall ν b k (mc b k) → mcs mc b k) {t : Nat → SSem ε.E α}
    (ht : ICv e C L t mcs) :
    ICv e C L (fun m => (s.den e (C m) m).orElse (t m)) mcs := by
  intro Q mc st hc hn fa es i h1 h2 h3 h4
  exact cv_orElse (L := L) (s := fun m => s.den e (C m) m) (t := t)
    (ih Q mc st hc (fun b k h => hn b k (hm mc b k h)) fa es i h1 h2 h3 h4)
    (fun m o fa' es' j h => IS.bounds hL hC s hc m h1 h2 h3 h4 h)
    (fun fa' es' j h5 h6 h7 h8 => ht Q mc st hc hn fa' es' j h5 h6 h7 h8)

omit hL hC in
theorem icv_const {ε : ErrTy S} {α : Type} {mcs : (Bool → N.K → Bool → Prop) → Bool → N.K → Prop}
    {f : Nat → Nat → List ε.E → Nat → ((Option α × Nat × List ε.E) × Nat)} :
    ICv e C L (fun _ _ st fa es i => .ok (f st fa es i)) mcs := by
  intro Q mc st hc hn fa es i h1 h2 h3 h4
  exact Cv.ok _

omit hL hC in
theorem cv_map {E α β : Type} {f : α → β} {Q : Fam E α} {en : Bool} {i : Nat} (h : Cv fun m => Q m en i) :
    Cv fun m => qMap f (Q m) en i := by
  refine Cv.bind h fun a m _ => ?_
  obtain ⟨r, j⟩ := a
  exact Cv.ok _

omit hL hC in
theorem cv_mapWithSpan {E α β : Type} {f : α → S.Span → β} {Q : Fam E α} {en : Bool} {i : Nat} (h : Cv fun m => Q m en i) :
    Cv fun m => qMapWithSpan e f (Q m) en i := by
  refine Cv.bind h fun a m _ => ?_
  obtain ⟨r, j⟩ := a
  exact Cv.ok _

omit hL hC in
theorem cv_mapErr {E X α : Type} {f : X → E} {Q : Fam X α} {en : Bool} {i : Nat} (h : Cv fun m => Q m en i) :
    Cv fun m => qMapErr f (Q m) en i := by
  refine Cv.bind h fun a m _ => ?_
  obtain ⟨r, j⟩ := a
  exact Cv.ok _

omit hL hC in
theorem cv_mapErrWithSpan {E X α : Type} {f : X → S.Span → E} {Q : Fam X α} {en : Bool} {i : Nat} (h : Cv fun m => Q m en i) :
    Cv fun m => qMapErrWithSpan e f (Q m) en i := by
  refine Cv.bind h fun a m _ => ?_
  obtain ⟨r, j⟩ := a
  exact Cv.ok _

omit hL hC in
theorem cv_tryMap {E α β : Type} {f : α → S.Span → TryMapResult β E} {Q : Fam E α} {en : Bool} {i : Nat}
    (h : Cv fun m => Q m en i) : Cv fun m => qTryMap e f (Q m) en i := by
  have h0 : ∀ j a, tryMapStep e f en i j a ≠ .oof := by
    intro j a
    unfold tryMapStep
    repeat' split
    all_goals simp
  refine Cv.bind h fun a m _ => ?_
  obtain ⟨r, j⟩ := a
  cases r with
  | success o => exact Cv.const (h0 _ _)
  | recovered o es => exact Cv.bind (Cv.const (h0 j o)) fun a m _ => Cv.ok _
  | failed x es => exact Cv.ok _

/-- The parsers of a list, for each fuel. -/
def GL.fams (e : Env S) (C : Nat → QEnv S N) : ∀ {ε : ErrTy S} {α : Type}, GL S N ε α → List (Fam ε.E α)
  | _, _, .nil => []
  | _, _, .cons g gs => (fun m => g.den e (C m) m) :: gs.fams e C

omit hL hC in
theorem GL.den_fams {m : Nat} : ∀ {ε : ErrTy S} {α : Type} (gs : GL S N ε α),
    gs.den e (C m) m = (gs.fams e C).map fun Q => Q m
  | _, _, .nil => by rw [GL.den, GL.fams]; rfl
  | _, _, .cons g gs => by rw [GL.den, GL.fams, List.map_cons, GL.den_fams gs]

set_option maxHeartbeats 4000000

mutual

theorem G.cv : ∀ {ε : ErrTy S} {α : Type} (g : G S N ε α), g.All (progressL S N ν) → GCv e C ν L g
  | _, _, .empty, _ => fun _ _ _ _ _ => by simp only [G.den]; exact Cv.ok _
  | _, _, .none _, _ => fun _ _ _ _ _ => by simp only [G.den]; exact Cv.ok _
  | _, _, .eof, _ => fun _ i _ _ _ => by
    simp only [G.den, qEnd]
    refine Cv.const ?_
    split <;> simp
  | _, _, .just t, _ => fun _ i _ _ _ => by
    simp only [G.den, qJust]
    refine Cv.const ?_
    split <;> simp
  | _, _, .filter p, _ => fun _ i _ _ _ => by
    simp only [G.den, qFilter]
    refine Cv.const ?_
    repeat' split
    all_goals simp
  | _, _, .filterMap f, _ => fun _ i _ _ _ => by
    simp only [G.den, qFilterMap]
    refine Cv.const ?_
    split <;> simp
  | _, _, .seq v items, _ => fun _ i _ _ _ => by
    simp only [G.den, qSeq]
    refine Cv.const ?_
    split <;> simp
  | _, _, .oneOf items, _ => fun _ i _ _ _ => by
    simp only [G.den, qOneOf]
    refine Cv.const ?_
    repeat' split
    all_goals simp
  | _, _, .noneOf items, _ => fun _ i _ _ _ => by
    simp only [G.den, qNoneOf]
    refine Cv.const ?_
    repeat' split
    all_goals simp
  | _, _, .boxed g, hg => fun en i h1 h2 h3 => by
    simp only [G.den, G.MayCall] at h3 ⊢
    exact G.cv g hg.2 en i h1 h2 h3
  | _, _, .withError g, hg => fun en i h1 h2 h3 => by
    simp only [G.den, G.MayCall] at h3 ⊢
    exact G.cv g hg.2 en i h1 h2 h3
  | _, _, .to g v, hg => fun en i h1 h2 h3 => by
    simp only [G.den, G.MayCall] at h3 ⊢
    exact cv_map (G.cv g hg.2 en i h1 h2 h3)
  | _, _, .some g, hg => fun en i h1 h2 h3 => by
    simp only [G.den, G.MayCall] at h3 ⊢
    exact cv_map (G.cv g hg.2 en i h1 h2 h3)
  | _, _, .map f g, hg => fun en i h1 h2 h3 => by
    simp only [G.den, G.MayCall] at h3 ⊢
    exact cv_map (G.cv g hg.2 en i h1 h2 h3)
  | _, _, .mapWithSpan f g, hg => fun en i h1 h2 h3 => by
    simp only [G.den, G.MayCall] at h3 ⊢
    exact cv_mapWithSpan (G.cv g hg.2 en i h1 h2 h3)
  | _, _, .mapErr f g, hg => fun en i h1 h2 h3 => by
    simp only [G.den, G.MayCall] at h3 ⊢
    exact cv_mapErr (G.cv g hg.2 en i h1 h2 h3)
  | _, _, .mapErrWithSpan f g, hg => fun en i h1 h2 h3 => by
    simp only [G.den, G.MayCall] at h3 ⊢
    exact cv_mapErrWithSpan (G.cv g hg.2 en i h1 h2 h3)
  | _, _, .tryMap f g, hg => fun en i h1 h2 h3 => by
    simp only [G.den, G.MayCall] at h3 ⊢
    exact cv_tryMap (G.cv g hg.2 en i h1 h2 h3)
  | _, _, .then_ a b, hg => fun en i h1 h2 h3 => by
    simp only [G.den, G.MayCall] at h3 ⊢
    exact cv_concat2 (G.cv a hg.2.1 en i h1 h2 fun b k h => h3 b k (.inl h)) fun m x j hx hf =>
      (G.cv b hg.2.2).after (G.mq (hC m).mq m a) (G.den_steps hL (hC m) m a) h1 hx hf h2
        fun hm b k h => h3 b k (.inr ⟨hm, h⟩)
  | _, _, .thenIgnore a b, hg => fun en i h1 h2 h3 => by
    simp only [G.den, G.MayCall] at h3 ⊢
    exact cv_concat2 (G.cv a hg.2.1 en i h1 h2 fun b k h => h3 b k (.inl h)) fun m x j hx hf =>
      (G.cv b hg.2.2).after (G.mq (hC m).mq m a) (G.den_steps hL (hC m) m a) h1 hx hf h2
        fun hm b k h => h3 b k (.inr ⟨hm, h⟩)
  | _, _, .ignoreThen a b, hg => fun en i h1 h2 h3 => by
    simp only [G.den, G.MayCall] at h3 ⊢
    exact cv_concat2 (G.cv a hg.2.1 en i h1 h2 fun b k h => h3 b k (.inl h)) fun m x j hx hf =>
      (G.cv b hg.2.2).after (G.mq (hC m).mq m a) (G.den_steps hL (hC m) m a) h1 hx hf h2
        fun hm b k h => h3 b k (.inr ⟨hm, h⟩)
  | _, _, .delimitedBy l g r, hg => fun en i h1 h2 h3 => by
    simp only [G.den, G.MayCall] at h3 ⊢
    refine cv_concat3 (G.cv l hg.2.1 en i h1 h2 fun b k h => h3 b k (.inl h)) fun m x j hx hf => ?_
    have hl := G.den_steps hL (hC m) m l _ _ _ _ hx
    refine ⟨(G.cv g hg.2.2.1).after (G.mq (hC m).mq m l) (G.den_steps hL (hC m) m l) h1 hx hf h2
      fun hm b k h => h3 b k (.inr ⟨hm, .inl h⟩), fun m' x' k hx' hf' => ?_⟩
    refine (G.cv r hg.2.2.2).after (G.mq (hC m').mq m' g) (G.den_steps hL (hC m') m' g) (hl.2 h1).1 hx' hf'
      (h2.mono hl.1) fun hm b k h => ?_
    rcases Nat.lt_or_eq_of_le hl.1 with h4 | h4
    · exact h2 b k j h4 (hl.2 h1).1
    · subst h4
      refine h3 b k (.inr ⟨?_, .inr ⟨hm, h⟩⟩)
      cases hml : l.mayEmpty ν en with
      | true => rfl
      | false => have := (G.mq (hC m).mq m l).lt hx hf hml; omega
  | _, _, .paddedBy p g, hg => fun en i h1 h2 h3 => by
    simp only [G.den, G.MayCall] at h3 ⊢
    have hp : NowC C i (fun b k => p.MayCall ν b k en) := fun b k h => h3 b k (.inl h)
    refine cv_concat3 (G.cv p hg.2.1 en i h1 h2 hp) fun m x j hx hf => ?_
    have hl := G.den_steps hL (hC m) m p _ _ _ _ hx
    refine ⟨(G.cv g hg.2.2).after (G.mq (hC m).mq m p) (G.den_steps hL (hC m) m p) h1 hx hf h2
      fun hm b k h => h3 b k (.inr ⟨hm, h⟩), fun m' x' k hx' hf' => ?_⟩
    have hk := G.den_steps hL (hC m') m' g _ _ _ _ hx'
    exact (G.cv p hg.2.1).ready h2 hp k (by omega) (hk.2 (hl.2 h1).1).1
  | _, _, .chain gs, hg => fun en i h1 h2 h3 => by
    simp only [G.den, G.MayCall, GL.den_fams] at h3 ⊢
    exact cv_concat _ _ (GL.cvSeq gs hg.2 en i h1 h2 h3)
  | ε, _, .or a b, hg => fun en i h1 h2 h3 => by
    simp only [G.den, G.MayCall] at h3 ⊢
    refine cv_alternate (L := L) [fun m => a.den e (C m) m, fun m => b.den e (C m) m] h1 ?_ ?_
    · intro Q hQ
      simp only [List.mem_cons, List.not_mem_nil, or_false] at hQ
      rcases hQ with rfl | rfl
      · exact ⟨fun m => G.den_steps hL (hC m) m a,
          (G.cv a hg.2.1).ready h2 fun b k h => h3 b k (.inl (.inl h))⟩
      · exact ⟨fun m => G.den_steps hL (hC m) m b,
          (G.cv b hg.2.2).ready h2 fun b k h => h3 b k (.inl (.inr h))⟩
    · intro hen Q hQ
      simp only [List.mem_cons, List.not_mem_nil, or_false] at hQ
      rcases hQ with rfl | rfl
      · exact (G.cv a hg.2.1).ready h2 fun b k h => h3 b k (.inr ⟨hen, .inl h⟩)
      · exact (G.cv b hg.2.2).ready h2 fun b k h => h3 b k (.inr ⟨hen, .inr h⟩)
  | ε, _, .orNot (α := β) g, hg => fun en i h1 h2 h3 => by
    simp only [G.den, G.MayCall] at h3 ⊢
    refine cv_alternate (L := L) [fun m => qMap Option.some (g.den e (C m) m),
      (fun _ => qNone : Fam ε.E (Option β))] h1 ?_ ?_
    · intro Q hQ
      simp only [List.mem_cons, List.not_mem_nil, or_false] at hQ
      rcases hQ with rfl | rfl
      · refine ⟨fun m => ?_, fun i' h4 h5 => cv_map ((G.cv g hg.2).ready h2
          (fun b k h => h3 b k (.inl h)) i' h4 h5)⟩
        have := G.den_steps hL (hC m) m (G.some g)
        rw [G.den] at this
        exact this
      · refine ⟨fun m en i r j h => ?_, fun i' _ _ => Cv.ok _⟩
        cases h
        exact ⟨Nat.le_refl _, fun h => ⟨h, fun x es h => by cases h⟩⟩
    · intro hen Q hQ
      simp only [List.mem_cons, List.not_mem_nil, or_false] at hQ
      rcases hQ with rfl | rfl
      · exact fun i' h4 h5 => cv_map ((G.cv g hg.2).ready h2 (fun b k h => h3 b k (.inr ⟨hen, h⟩)) i' h4 h5)
      · exact fun i' _ _ => Cv.ok _
  | ε, _, .alters gs, hg => fun en i h1 h2 h3 => by
    simp only [G.den, G.MayCall, GL.den_fams] at h3 ⊢
    exact cv_alternate (L := L) _ h1
      (fun Q hQ => ⟨(GL.cvAny gs hg.2 Q hQ).1,
        (GL.cvAny gs hg.2 Q hQ).2 false i h2 fun b k h => h3 b k (.inl h)⟩)
      (fun hen Q hQ => (GL.cvAny gs hg.2 Q hQ).2 true i h2 fun b k h => h3 b k (.inr ⟨hen, h⟩))
  | ε, _, .repeated (α := β) c g, hg => fun en i h1 h2 h3 => by
    simp only [G.den, G.MayCall, qRepeat] at h3 ⊢
    refine cv_repLoop (L := L) (I := fun m => g.den e (C m) m)
      (Sp := (Option.none : Option (Fam ε.E β))) (mi := fun en => g.mayEmpty ν en) (ms := fun _ => true)
      (fun m => G.den_steps hL (hC m) m g) (fun m => G.mq (hC m).mq m g) (fun Q h => by cases h)
      ((G.cv g hg.2).ready h2 fun b k h => h3 b k (.inl h))
      ((G.cv g hg.2).ready h2 fun b k h => h3 b k (.inr h)) (fun Q h => by cases h)
      (fun h => .inl (hg.1 h)) _ 0 [] Option.none i (Nat.le_refl _) (Nat.le_refl _) h1 (by simp)
  | _, _, .separatedBy c g sep, hg => fun en i h1 h2 h3 => by
    simp only [G.den, G.MayCall, qRepeat] at h3 ⊢
    refine cv_repLoop (L := L) (I := fun m => g.den e (C m) m)
      (Sp := Option.some fun m => sep.den e (C m) m) (mi := fun en => g.mayEmpty ν en)
      (ms := fun en => sep.mayEmpty ν en)
      (fun m => G.den_steps hL (hC m) m g) (fun m => G.mq (hC m).mq m g)
      (fun Q h => by cases h; exact fun m => ⟨G.den_steps hL (hC m) m sep, G.mq (hC m).mq m sep⟩)
      ((G.cv g hg.2.1).ready h2 fun b k h => h3 b k (.inl (.inl h)))
      ((G.cv g hg.2.1).ready h2 fun b k h => h3 b k (.inl (.inr h))) (fun Q h b i' hb h4 h5 h6 => ?_)
      (fun h => ?_) _ 0 [] Option.none i (Nat.le_refl _) (Nat.le_refl _) h1 (by simp)
    · cases h
      rcases Nat.lt_or_eq_of_le h4 with h7 | h7
      · exact G.cv sep hg.2.2 b i' h5 (h2.mono h4) (h2.now h7 h5 _)
      · subst h7
        refine G.cv sep hg.2.2 b i h5 h2 fun b' k h => h3 b' k (.inr ⟨?_, ?_⟩)
        · rcases h6 with h6 | h6
          · omega
          · exact h6
        · rcases hb with rfl | rfl
          · exact .inl h
          · exact .inr h
    · rcases hg.1 h with h7 | h7
      · exact .inl h7
      · exact .inr ⟨rfl, h7⟩
  | _, _, .toRecover g st, hg => fun en i h1 h2 h3 => by
    simp only [G.den, G.MayCall] at h3 ⊢
    refine cv_toRecover (Q := fun m => g.den e (C m) m) (s := fun m => st.den e (C m) m)
      (G.cv g hg.2.1 en i h1 h2 fun b k h => h3 b k (.inl h)) fun hen m x es j hx hjx => ?_
    have h4 := G.den_steps hL (hC m) m g _ _ _ _ hx
    have h5 := h4.2 h1
    have h6 : ∀ P : Bool → N.K → Prop, NowC C i P → NowC C j P := by
      intro P hP
      rcases Nat.lt_or_eq_of_le h4.1 with h7 | h7
      · exact h2.now h7 h5.1 P
      · rw [← h7]; exact hP
    refine CS.cv st hg.2.2 (fun m => g.den e (C m) m) (fun b k en' => g.MayCall ν b k en') j
      ⟨fun m => G.den_steps hL (hC m) m g, fun m => (G.mq (hC m).mq m g).mono (fun _ h => by cases h),
        h2.mono h4.1, h5.1, fun x hx => (G.cv g hg.2.1).ready (h2.mono h4.1) hx⟩
      (h6 _ fun b k h => h3 b k (.inr ⟨hen, h⟩)) x es j (Nat.le_refl _) hjx h5.1 (h5.2 _ _ rfl)
  | _, _, .call k, _ => fun en i h1 h2 h3 => by
    simp only [G.den, G.MayCall] at h3 ⊢
    exact h3 en k ⟨rfl, rfl⟩

theorem GL.cvSeq : ∀ {ε : ErrTy S} {α : Type} (gs : GL S N ε α), gs.All (progressL S N ν) →
    ∀ en i, i ≤ L → LaterC C L i → NowC C i (fun b k => gs.MayCallSeq ν b k en) →
      SeqReady en (gs.fams e C) i
  | _, _, .nil, _ => fun _ _ _ _ _ => by rw [GL.fams]; exact trivial
  | _, _, .cons g gs, hg => fun en i h1 h2 h3 => by
    simp only [GL.fams, GL.MayCallSeq] at h3 ⊢
    refine ⟨G.cv g hg.1 en i h1 h2 fun b k h => h3 b k (.inl h), fun m x j hx hf => ?_⟩
    have h4 := G.den_steps hL (hC m) m g _ _ _ _ hx
    refine GL.cvSeq gs hg.2 en j (h4.2 h1).1 (h2.mono h4.1) fun b k h => ?_
    rcases Nat.lt_or_eq_of_le h4.1 with h5 | h5
    · exact h2 b k j h5 (h4.2 h1).1
    · subst h5
      refine h3 b k (.inr ⟨?_, h⟩)
      cases hml : g.mayEmpty ν en with
      | true => rfl
      | false => have := (G.mq (hC m).mq m g).lt hx hf hml; omega

theorem GL.cvAny : ∀ {ε : ErrTy S} {α : Type} (gs : GL S N ε α), gs.All (progressL S N ν) →
    ∀ Q ∈ gs.fams e C, (∀ m, Steps L (Q m)) ∧ ∀ en i, LaterC C L i →
      NowC C i (fun b k => gs.MayCallAny ν b k en) → Ready L en i Q
  | _, _, .nil, _, Q, hQ => by rw [GL.fams] at hQ; cases hQ
  | _, _, .cons g gs, hg, Q, hQ => by
    rw [GL.fams] at hQ
    simp only [GL.MayCallAny]
    rcases List.mem_cons.1 hQ with h | h
    · subst h
      exact ⟨fun m => G.den_steps hL (hC m) m g, fun en i h2 h3 => (G.cv g hg.1).ready h2
        fun b k h => h3 b k (.inl h)⟩
    · have := GL.cvAny gs hg.2 Q h
      exact ⟨this.1, fun en i h2 h3 => this.2 en i h2 fun b k h => h3 b k (.inr h)⟩

theorem IS.cv : ∀ {ε : ErrTy S} {α : Type} (s : IS S N ε α), s.All (progressL S N ν) →
    ICv e C L (fun m => s.den e (C m) m) (fun mc b k => s.MayCall ν b k (mc b k))
  | _, _, .attemptTo, _ => by simp only [IS.den]; exact icv_const
  | _, _, .restart s, hs => by
    simp only [IS.den, IS.MayCall]; exact icv_else hL hC (IS.cv s hs.2) (fun _ _ _ h => h) icv_const
  | _, _, .seekToFailed s, hs => by
    simp only [IS.den, IS.MayCall]; exact icv_else hL hC (IS.cv s hs.2) (fun _ _ _ h => h) icv_const
  | _, _, .skip s, hs => by
    simp only [IS.den, IS.MayCall]; exact icv_else hL hC (IS.cv s hs.2) (fun _ _ _ h => h) icv_const
  | _, _, .skipIf s p, hs => by
    simp only [IS.den, IS.MayCall]; exact icv_else hL hC (IS.cv s hs.2) (fun _ _ _ h => h) icv_const
  | _, _, .find s p, hs => by
    simp only [IS.den, IS.MayCall]
    refine icv_else hL hC (IS.cv s hs.2) (fun _ _ _ h => h) ?_
    intro Q mc st hc hn fa es i h1 h2 h3 h4
    exact Cv.bind (cv_find hL _ 0 i (Nat.le_refl _) h3) fun a m _ => Cv.ok _
  | _, _, .scan s sc, hs => by
    simp only [IS.den, IS.MayCall]
    refine icv_else hL hC (IS.cv s hs.2) (fun _ _ _ h => h) ?_
    intro Q mc st hc hn fa es i h1 h2 h3 h4
    exact Cv.bind (cv_scan hL _ 0 _ _ i (Nat.le_refl _) h3) fun a m _ => Cv.ok _
  | _, _, .maybe s t, hs => by
    simp only [IS.den, IS.MayCall]
    refine icv_else hL hC (IS.cv s hs.2.1) (fun _ _ _ h => .inl h) ?_
    intro Q mc st hc hn fa es i h1 h2 h3 h4
    exact Cv.bind (IS.cv t hs.2.2 Q mc st hc (fun b k h => hn b k (.inr h)) fa es i h1 h2 h3 h4)
      fun a m _ => Cv.ok _
  | _, _, .whileNot s p t, hs => by
    simp only [IS.den, IS.MayCall]
    refine icv_else hL hC (IS.cv s hs.2.1) (fun _ _ _ h => .inl h) ?_
    intro Q mc st hc hn fa es i h1 h2 h3 h4
    refine cv_whileNot hL (t := fun m => t.den e (C m) m)
      (fun fa es i => IS.cv t hs.2.2 Q mc st hc (fun b k h => hn b k (.inr h)) fa es i)
      (fun m fa es i o fa' es' j h1 h2 h3 h4 h => ?_) _ 0 fa es i (Nat.le_refl _) h1 h2 h3 h4
    have h5 := IS.bounds hL hC t hc m h1 h2 h3 h4 h
    have h6 := IS.smq (hC m).mq m t (Q m) _ (hc.mq m) st fa es i o fa' es' j h1 h2 h
    exact ⟨h5.1, h5.2.1, h5.2.2.1, h5.2.2.2, h6.2.2.1 ⟨hs.2.2, hs.1⟩⟩
  | _, _, .retry s exact silent, hs => by
    simp only [IS.den, IS.MayCall]
    refine icv_else hL hC (IS.cv s hs.2) (fun _ _ _ h => .inl h) ?_
    intro Q mc st hc hn fa es i h1 h2 h3 h4
    exact cv_runIn (hc.ready (!exact) (fun b k h => hn b k (.inr h)) i h1 h3)
  | _, _, .tryToParse s g exact silent, hs => by
    simp only [IS.den, IS.MayCall]
    refine icv_else hL hC (IS.cv s hs.2.1) (fun _ _ _ h => .inl h) ?_
    intro Q mc st hc hn fa es i h1 h2 h3 h4
    exact cv_runIn ((G.cv g hs.2.2).ready hc.later (fun b k h => hn b k (.inr h)) i h1 h3)
  | _, _, .pushError s f, hs => by
    simp only [IS.den, IS.MayCall]; exact icv_else hL hC (IS.cv s hs.2) (fun _ _ _ h => h) icv_const
  | _, _, .pushErrorHere s f, hs => by
    simp only [IS.den, IS.MayCall]; exact icv_else hL hC (IS.cv s hs.2) (fun _ _ _ h => h) icv_const
  | _, _, .pushErrorUpToHere s f, hs => by
    simp only [IS.den, IS.MayCall]; exact icv_else hL hC (IS.cv s hs.2) (fun _ _ _ h => h) icv_const
  | _, _, .pushErrorForToken s f, hs => by
    simp only [IS.den, IS.MayCall]; exact icv_else hL hC (IS.cv s hs.2) (fun _ _ _ h => h) icv_const
  | _, _, .updateErrors s f, hs => by
    simp only [IS.den, IS.MayCall]; exact icv_else hL hC (IS.cv s hs.2) (fun _ _ _ h => h) icv_const
  | _, _, .updateErrorsHere s f, hs => by
    simp only [IS.den, IS.MayCall]; exact icv_else hL hC (IS.cv s hs.2) (fun _ _ _ h => h) icv_const
  | _, _, .updateErrorsUpToHere s f, hs => by
    simp only [IS.den, IS.MayCall]; exact icv_else hL hC (IS.cv s hs.2) (fun _ _ _ h => h) icv_const
  | _, _, .updateErrorsForToken s f, hs => by
    simp only [IS.den, IS.MayCall]; exact icv_else hL hC (IS.cv s hs.2) (fun _ _ _ h => h) icv_const
  | _, _, .boxed s, hs => by simp only [IS.den, IS.MayCall]; exact IS.cv s hs.2

theorem CS.cv : ∀ {ε : ErrTy S} {α : Type} (s : CS S N ε α), s.All (progressL S N ν) →
    ICv e C L (fun m => s.den e (C m) m) (fun mc b k => s.MayCall ν b k (mc b k))
  | _, _, .ret s o, hs => by
    simp only [CS.den, CS.MayCall]; exact icv_else hL hC (IS.cv s hs) (fun _ _ _ h => h) icv_const
  | _, _, .retWith s o, hs => by
    simp only [CS.den, CS.MayCall]; exact icv_else hL hC (IS.cv s hs) (fun _ _ _ h => h) icv_const
  | _, _, .retWithSpan s f, hs => by
    simp only [CS.den, CS.MayCall]; exact icv_else hL hC (IS.cv s hs) (fun _ _ _ h => h) icv_const
  | _, _, .orFail s, hs => by simp only [CS.den, CS.MayCall]; exact IS.cv s hs

end

omit hL hC in
/-- Without left recursion, all calls converge within the input. -/
theorem calls_cv (hL : Length e L) (hν : Nullable D ν) (hlr : NoLeftRecursion D ν) (hD : D.All (progressL S N ν)) : ∀ (d i : Nat), L - i ≤ d → i ≤ L →
    ∀ b k, Cv fun m => callSem e D m k b i := by
  intro d
  induction d using Nat.strongRecOn with
  | ind d ih =>
  intro i hd hi b k
  have hlater : LaterC (fun m => callSem e D m) L i := fun b k i' h1 h2 => ih (L - i') (by omega) i' (Nat.le_refl _) h2 b k
  have : ∀ x : Bool × N.K, Cv fun m => callSem e D m x.2 x.1 i := by
    intro x
    induction x using hlr.induction with
    | _ x ihx =>
    cases hk : D x.2 with
    | none =>
      refine ⟨.panic "recursive parser is not defined", by simp, 1, fun m hm => ?_⟩
      obtain ⟨m, rfl⟩ : ∃ k, m = k + 1 := ⟨m - 1, by omega⟩
      simp only [callSem, hk]
    | some g =>
      refine Cv.pred (X := fun m => g.den e (callSem e D m) m x.1 i) ?_ (fun m => by simp only [callSem, hk])
      exact G.cv hL (fun m => Good.callSem hν m) g (hD _ _ hk) x.1 i hi hlater fun b k h => ihx (b, k) ⟨g, hk, h⟩
  exact this (b, k)

omit hL hC in
/-- Parses of finite inputs converge. -/
theorem G.converges (hL : Length e L) (hν : Nullable D ν) (hlr : NoLeftRecursion D ν) (hD : D.All (progressL S N ν)) {ε : ErrTy S} {α : Type}
    {g : G S N ε α} (hg : g.All (progressL S N ν)) (en : Bool) {i : Nat} (hi : i ≤ L) :
    Cv fun m => g.sem e D m en i :=
  G.cv hL (fun m => Good.callSem hν m) g hg en i hi
    (fun b k i' _ h2 => calls_cv hL hν hlr hD _ i' (Nat.le_refl _) h2 b k)
    (fun b k _ => calls_cv hL hν hlr hD _ i (Nat.le_refl _) hi b k)

end

end PPC
