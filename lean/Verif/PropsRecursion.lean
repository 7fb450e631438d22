import Verif.SemShift
import Verif.PropsChoice
import Verif.Api

/-!
# Recursive parsers and the evaluation bound (C33), parsing from a position (C37)
-/

namespace PPC

variable {S : Sig} {N : Names S} {al : Alloc} {e : Env S} {D : Defs S N} {n m : Nat}
  {ε : ErrTy S} {α β : Type} {g : G S N ε α} {en : Bool} {r r' : Res α ε.E} {i j j' k : Nat} {msg msg' : String}

/-! ## Specification -/

/-- The parse returns (for some bound on the evaluation). -/
def Finishes (e : Env S) (D : Defs S N) (g : G S N ε α) (en : Bool) (i : Nat) (r : Res α ε.E)
    (j : Nat) : Prop := ∃ n, ParsesAt e D n g en i r j

/-- The parse panics (for some bound on the evaluation). -/
def Crashes (e : Env S) (D : Defs S N) (g : G S N ε α) (en : Bool) (i : Nat) (msg : String) : Prop :=
  ∃ n, PanicsAt e D n g en i msg

mutual

/-- The parser with every recursive parser in it replaced by its definition (those without
definition are left alone). -/
def G.unfoldRec (D : Defs S N) : {ε : ErrTy S} → {α : Type} → G S N ε α → G S N ε α
  | _, _, .empty => .empty
  | _, _, .none α => .none α
  | _, _, .eof => .eof
  | _, _, .just t => .just t
  | _, _, .filter p => .filter p
  | _, _, .filterMap f => .filterMap f
  | _, _, .seq v items => .seq v items
  | _, _, .oneOf items => .oneOf items
  | _, _, .noneOf items => .noneOf items
  | _, _, .boxed g => .boxed (g.unfoldRec D)
  | _, _, .withError g => .withError (g.unfoldRec D)
  | _, _, .to g v => .to (g.unfoldRec D) v
  | _, _, .some g => .some (g.unfoldRec D)
  | _, _, .map f g => .map f (g.unfoldRec D)
  | _, _, .mapWithSpan f g => .mapWithSpan f (g.unfoldRec D)
  | _, _, .mapErr f g => .mapErr f (g.unfoldRec D)
  | _, _, .mapErrWithSpan f g => .mapErrWithSpan f (g.unfoldRec D)
  | _, _, .tryMap f g => .tryMap f (g.unfoldRec D)
  | _, _, .then_ a b => .then_ (a.unfoldRec D) (b.unfoldRec D)
  | _, _, .thenIgnore a b => .thenIgnore (a.unfoldRec D) (b.unfoldRec D)
  | _, _, .ignoreThen a b => .ignoreThen (a.unfoldRec D) (b.unfoldRec D)
  | _, _, .delimitedBy l m r => .delimitedBy (l.unfoldRec D) (m.unfoldRec D) (r.unfoldRec D)
  | _, _, .paddedBy p m => .paddedBy (p.unfoldRec D) (m.unfoldRec D)
  | _, _, .chain gs => .chain (gs.unfoldRec D)
  | _, _, .or a b => .or (a.unfoldRec D) (b.unfoldRec D)
  | _, _, .orNot g => .orNot (g.unfoldRec D)
  | _, _, .alters gs => .alters (gs.unfoldRec D)
  | _, _, .repeated cfg item => .repeated cfg (item.unfoldRec D)
  | _, _, .separatedBy cfg item sep => .separatedBy cfg (item.unfoldRec D) (sep.unfoldRec D)
  | _, _, .toRecover g st => .toRecover (g.unfoldRec D) (st.unfoldRec D)
  | _, _, .call k =>
    match D k with
    | some g => g
    | none => .call k

/-- The same for lists of parsers. -/
def GL.unfoldRec (D : Defs S N) : {ε : ErrTy S} → {α : Type} → GL S N ε α → GL S N ε α
  | _, _, .nil => .nil
  | _, _, .cons g gs => .cons (g.unfoldRec D) (gs.unfoldRec D)

/-- The same for the parsers in recovery strategies. -/
def IS.unfoldRec (D : Defs S N) : {ε : ErrTy S} → {α : Type} → IS S N ε α → IS S N ε α
  | _, _, .attemptTo => .attemptTo
  | _, _, .restart s => .restart (s.unfoldRec D)
  | _, _, .seekToFailed s => .seekToFailed (s.unfoldRec D)
  | _, _, .skip s => .skip (s.unfoldRec D)
  | _, _, .skipIf s p => .skipIf (s.unfoldRec D) p
  | _, _, .find s p => .find (s.unfoldRec D) p
  | _, _, .scan s sc => .scan (s.unfoldRec D) sc
  | _, _, .maybe s t => .maybe (s.unfoldRec D) (t.unfoldRec D)
  | _, _, .whileNot s p t => .whileNot (s.unfoldRec D) p (t.unfoldRec D)
  | _, _, .retry s ex si => .retry (s.unfoldRec D) ex si
  | _, _, .tryToParse s g ex si => .tryToParse (s.unfoldRec D) (g.unfoldRec D) ex si
  | _, _, .pushError s f => .pushError (s.unfoldRec D) f
  | _, _, .pushErrorHere s f => .pushErrorHere (s.unfoldRec D) f
  | _, _, .pushErrorUpToHere s f => .pushErrorUpToHere (s.unfoldRec D) f
  | _, _, .pushErrorForToken s f => .pushErrorForToken (s.unfoldRec D) f
  | _, _, .updateErrors s f => .updateErrors (s.unfoldRec D) f
  | _, _, .updateErrorsHere s f => .updateErrorsHere (s.unfoldRec D) f
  | _, _, .updateErrorsUpToHere s f => .updateErrorsUpToHere (s.unfoldRec D) f
  | _, _, .updateErrorsForToken s f => .updateErrorsForToken (s.unfoldRec D) f
  | _, _, .boxed s => .boxed (s.unfoldRec D)

/-- The same for complete strategies. -/
def CS.unfoldRec (D : Defs S N) : {ε : ErrTy S} → {α : Type} → CS S N ε α → CS S N ε α
  | _, _, .ret s o => .ret (s.unfoldRec D) o
  | _, _, .retWith s o => .retWith (s.unfoldRec D) o
  | _, _, .retWithSpan s f => .retWithSpan (s.unfoldRec D) f
  | _, _, .orFail s => .orFail (s.unfoldRec D)

end

/-- The rest of an input from position `k` on: its tokens, and the tracker as it is there. -/
def Env.rest (e : Env S) (k : Nat) : Env S := ⟨fun i => e.source (k + i), e.trackerAt k⟩

/-- A result whose failure index is moved by `k`. -/
def Res.shift {E : Type} (k : Nat) : Res α E → Res α E
  | .success o => .success o
  | .recovered o es => .recovered o es
  | .failed x es => .failed (k + x) es

/-- A tracker whose locations and spans do not include the token index. -/
structure IndexFree (S : Sig) : Prop where
  location : ∀ (l : S.L) (i j : Nat), S.location l i = S.location l j
  span : ∀ (l l' : S.L) (a b a' b' : Nat), S.spanningTo l a l' b = S.spanningTo l a' l' b'

/-! ## Auxiliary lemmas -/

/-- The recursive parsers, one level unfolded. -/
def unfoldEnv (e : Env S) (D : Defs S N) (ρ : QEnv S N) (n : Nat) : QEnv S N := fun k =>
  match D k with
  | some g => g.den e ρ n
  | none => ρ k

mutual

theorem G.den_unfoldRec (D : Defs S N) (ρ : QEnv S N) (n : Nat) : ∀ {ε : ErrTy S} {α : Type}
    (g : G S N ε α), (g.unfoldRec D).den e ρ n = g.den e (unfoldEnv e D ρ n) n
  | _, _, .empty => by simp only [G.unfoldRec, G.den]
  | _, _, .none _ => by simp only [G.unfoldRec, G.den]
  | _, _, .eof => by simp only [G.unfoldRec, G.den]
  | _, _, .just _ => by simp only [G.unfoldRec, G.den]
  | _, _, .filter _ => by simp only [G.unfoldRec, G.den]
  | _, _, .filterMap _ => by simp only [G.unfoldRec, G.den]
  | _, _, .seq _ _ => by simp only [G.unfoldRec, G.den]
  | _, _, .oneOf _ => by simp only [G.unfoldRec, G.den]
  | _, _, .noneOf _ => by simp only [G.unfoldRec, G.den]
  | _, _, .boxed g => by simp only [G.unfoldRec, G.den, G.den_unfoldRec D ρ n g]
  | _, _, .withError g => by simp only [G.unfoldRec, G.den, G.den_unfoldRec D ρ n g]
  | _, _, .to g _ => by simp only [G.unfoldRec, G.den, G.den_unfoldRec D ρ n g]
  | _, _, .some g => by simp only [G.unfoldRec, G.den, G.den_unfoldRec D ρ n g]
  | _, _, .map _ g => by simp only [G.unfoldRec, G.den, G.den_unfoldRec D ρ n g]
  | _, _, .mapWithSpan _ g => by simp only [G.unfoldRec, G.den, G.den_unfoldRec D ρ n g]
  | _, _, .mapErr _ g => by simp only [G.unfoldRec, G.den, G.den_unfoldRec D ρ n g]
  | _, _, .mapErrWithSpan _ g => by simp only [G.unfoldRec, G.den, G.den_unfoldRec D ρ n g]
  | _, _, .tryMap _ g => by simp only [G.unfoldRec, G.den, G.den_unfoldRec D ρ n g]
  | _, _, .then_ a b => by
    simp only [G.unfoldRec, G.den, G.den_unfoldRec D ρ n a, G.den_unfoldRec D ρ n b]
  | _, _, .thenIgnore a b => by
    simp only [G.unfoldRec, G.den, G.den_unfoldRec D ρ n a, G.den_unfoldRec D ρ n b]
  | _, _, .ignoreThen a b => by
    simp only [G.unfoldRec, G.den, G.den_unfoldRec D ρ n a, G.den_unfoldRec D ρ n b]
  | _, _, .delimitedBy l m r => by
    simp only [G.unfoldRec, G.den, G.den_unfoldRec D ρ n l, G.den_unfoldRec D ρ n m,
      G.den_unfoldRec D ρ n r]
  | _, _, .paddedBy p m => by
    simp only [G.unfoldRec, G.den, G.den_unfoldRec D ρ n p, G.den_unfoldRec D ρ n m]
  | _, _, .chain gs => by simp only [G.unfoldRec, G.den, GL.den_unfoldRec D ρ n gs]
  | _, _, .or a b => by
    simp only [G.unfoldRec, G.den, G.den_unfoldRec D ρ n a, G.den_unfoldRec D ρ n b]
  | _, _, .orNot g => by simp only [G.unfoldRec, G.den, G.den_unfoldRec D ρ n g]
  | _, _, .alters gs => by simp only [G.unfoldRec, G.den, GL.den_unfoldRec D ρ n gs]
  | _, _, .repeated _ g => by simp only [G.unfoldRec, G.den, G.den_unfoldRec D ρ n g]
  | _, _, .separatedBy _ a b => by
    simp only [G.unfoldRec, G.den, G.den_unfoldRec D ρ n a, G.den_unfoldRec D ρ n b]
  | _, _, .toRecover g st => by
    simp only [G.unfoldRec, G.den, G.den_unfoldRec D ρ n g, CS.den_unfoldRec D ρ n st]
  | _, _, .call k => by
    simp only [G.unfoldRec, G.den, unfoldEnv]
    cases D k <;> simp only [G.den]

theorem GL.den_unfoldRec (D : Defs S N) (ρ : QEnv S N) (n : Nat) : ∀ {ε : ErrTy S} {α : Type}
    (g : GL S N ε α), (g.unfoldRec D).den e ρ n = g.den e (unfoldEnv e D ρ n) n
  | _, _, .nil => by simp only [GL.unfoldRec, GL.den]
  | _, _, .cons g gs => by
    simp only [GL.unfoldRec, GL.den, G.den_unfoldRec D ρ n g, GL.den_unfoldRec D ρ n gs]

theorem IS.den_unfoldRec (D : Defs S N) (ρ : QEnv S N) (n : Nat) : ∀ {ε : ErrTy S} {α : Type}
    (s : IS S N ε α), (s.unfoldRec D).den e ρ n = s.den e (unfoldEnv e D ρ n) n
  | _, _, .attemptTo => by simp only [IS.unfoldRec, IS.den]
  | _, _, .restart s => by simp only [IS.unfoldRec, IS.den, IS.den_unfoldRec D ρ n s]
  | _, _, .seekToFailed s => by simp only [IS.unfoldRec, IS.den, IS.den_unfoldRec D ρ n s]
  | _, _, .skip s => by simp only [IS.unfoldRec, IS.den, IS.den_unfoldRec D ρ n s]
  | _, _, .skipIf s _ => by simp only [IS.unfoldRec, IS.den, IS.den_unfoldRec D ρ n s]
  | _, _, .find s _ => by simp only [IS.unfoldRec, IS.den, IS.den_unfoldRec D ρ n s]
  | _, _, .scan s _ => by simp only [IS.unfoldRec, IS.den, IS.den_unfoldRec D ρ n s]
  | _, _, .maybe s t => by
    simp only [IS.unfoldRec, IS.den, IS.den_unfoldRec D ρ n s, IS.den_unfoldRec D ρ n t]
  | _, _, .whileNot s _ t => by
    simp only [IS.unfoldRec, IS.den, IS.den_unfoldRec D ρ n s, IS.den_unfoldRec D ρ n t]
  | _, _, .retry s _ _ => by simp only [IS.unfoldRec, IS.den, IS.den_unfoldRec D ρ n s]
  | _, _, .tryToParse s g _ _ => by
    simp only [IS.unfoldRec, IS.den, IS.den_unfoldRec D ρ n s, G.den_unfoldRec D ρ n g]
  | _, _, .pushError s _ => by simp only [IS.unfoldRec, IS.den, IS.den_unfoldRec D ρ n s]
  | _, _, .pushErrorHere s _ => by simp only [IS.unfoldRec, IS.den, IS.den_unfoldRec D ρ n s]
  | _, _, .pushErrorUpToHere s _ => by simp only [IS.unfoldRec, IS.den, IS.den_unfoldRec D ρ n s]
  | _, _, .pushErrorForToken s _ => by simp only [IS.unfoldRec, IS.den, IS.den_unfoldRec D ρ n s]
  | _, _, .updateErrors s _ => by simp only [IS.unfoldRec, IS.den, IS.den_unfoldRec D ρ n s]
  | _, _, .updateErrorsHere s _ => by simp only [IS.unfoldRec, IS.den, IS.den_unfoldRec D ρ n s]
  | _, _, .updateErrorsUpToHere s _ => by simp only [IS.unfoldRec, IS.den, IS.den_unfoldRec D ρ n s]
  | _, _, .updateErrorsForToken s _ => by simp only [IS.unfoldRec, IS.den, IS.den_unfoldRec D ρ n s]
  | _, _, .boxed s => by simp only [IS.unfoldRec, IS.den, IS.den_unfoldRec D ρ n s]

theorem CS.den_unfoldRec (D : Defs S N) (ρ : QEnv S N) (n : Nat) : ∀ {ε : ErrTy S} {α : Type}
    (s : CS S N ε α), (s.unfoldRec D).den e ρ n = s.den e (unfoldEnv e D ρ n) n
  | _, _, .ret s _ => by simp only [CS.unfoldRec, CS.den, IS.den_unfoldRec D ρ n s]
  | _, _, .retWith s _ => by simp only [CS.unfoldRec, CS.den, IS.den_unfoldRec D ρ n s]
  | _, _, .retWithSpan s _ => by simp only [CS.unfoldRec, CS.den, IS.den_unfoldRec D ρ n s]
  | _, _, .orFail s => by simp only [CS.unfoldRec, CS.den, IS.den_unfoldRec D ρ n s]

end

theorem callSem_undefined {k : N.K} (h : D k = none) (n : Nat) (en : Bool) (i : Nat) :
    callSem e D (n + 1) k en i = .panic "recursive parser is not defined" := by
  unfold callSem; rw [h]

theorem callSem_defined {k : N.K} {d : G S N (N.err k) (N.out k)} (h : D k = some d) (n : Nat) :
    callSem e D (n + 1) k = d.den e (callSem e D n) n := by
  funext en i
  conv => lhs; unfold callSem
  rw [h]

theorem OLe.refl0 {P : Prop} {E : Type} (a : Out (Res α E × Nat)) (h : a ≠ .stuck) : OLe P (RR 0) a a := by
  cases a with
  | ok x =>
    obtain ⟨r, j⟩ := x
    refine .ok ?_
    cases r with
    | success o => have := RR.success (E := E) (k := 0) o j; rwa [Nat.zero_add] at this
    | recovered o es => have := RR.recovered (E := E) (k := 0) o es j; rwa [Nat.zero_add] at this
    | failed x es =>
      have := RR.failed (α := α) (k := 0) x es j
      rwa [Nat.zero_add, Nat.zero_add] at this
  | panic m => exact .panic
  | oof => exact .oof2
  | stuck => exact .stuck

theorem callSem_mono {n n' : Nat} (hn : n ≤ n') (x : N.K) :
    PR True 0 (callSem e D n x) (callSem e D n' x) :=
  callSem_shift (IsRest.refl e) D (.inr ⟨trivial, hn⟩) x

theorem unfoldEnv_lower (n : Nat) (x : N.K) :
    PR True 0 (callSem e D n x) (unfoldEnv e D (callSem e D n) n x) := by
  unfold unfoldEnv
  cases hx : D x with
  | none => exact callSem_mono (Nat.le_refl n) x
  | some d =>
    have := callSem_mono (e := e) (D := D) (Nat.le_succ n) x
    rw [callSem_defined hx] at this
    exact this

theorem unfoldEnv_upper (n : Nat) (x : N.K) :
    PR True 0 (unfoldEnv e D (callSem e D n) n x) (callSem e D (n + 1) x) := by
  unfold unfoldEnv
  cases hx : D x with
  | none => exact callSem_mono (Nat.le_succ n) x
  | some d =>
    rw [callSem_defined hx]
    exact G.shift (IsRest.refl e) (.inl rfl) (callSem_mono (Nat.le_refl n)) d

theorem unfold_lower (g : G S N ε α) (en : Bool) (i : Nat) (h : g.sem e D n en i ≠ .oof) :
    (g.unfoldRec D).sem e D n en i = g.sem e D n en i := by
  have h1 := G.shift (P := True) (n := n) (n' := n) (IsRest.refl e) (.inl rfl) (unfoldEnv_lower (e := e) (D := D) n) g en i
  rw [Nat.zero_add] at h1
  unfold G.sem at h ⊢
  rw [G.den_unfoldRec]
  exact h1.eq_zero h

theorem unfold_upper (g : G S N ε α) (en : Bool) (i : Nat) (h : (g.unfoldRec D).sem e D n en i ≠ .oof) :
    g.sem e D (n + 1) en i = (g.unfoldRec D).sem e D n en i := by
  have h1 := G.shift (P := True) (IsRest.refl e) (n := n) (n' := n + 1) (.inr ⟨trivial, by omega⟩)
    (unfoldEnv_upper (e := e) (D := D) n) g en i
  rw [Nat.zero_add] at h1
  unfold G.sem at h ⊢
  rw [G.den_unfoldRec] at h ⊢
  exact h1.eq_zero h

/-! ## C33: recursion and the evaluation bound -/

/-- C33: a larger bound does not change the result of a parse that returned. -/
theorem C33_bound_irrelevant (hi : Valid e i) (hn : n ≤ m) (h : ParsesAt e D n g en i r j) :
    ParsesAt e D m g en i r j := by
  rw [parsesAt_iff hi] at h ⊢
  rw [G.sem_mono e D hn g en i (by rw [h]; simp), h]

/-- C33: a larger bound does not change a panic. -/
theorem C33_bound_irrelevant_panic (hi : Valid e i) (hn : n ≤ m) (h : PanicsAt e D n g en i msg) :
    PanicsAt e D m g en i msg := by
  rw [panicsAt_iff hi] at h ⊢
  rw [G.sem_mono e D hn g en i (by rw [h]; simp), h]

/-- C33: so a parse that returns has one result and one end position, whatever the bound. -/
theorem C33_unique (hi : Valid e i) (h : Finishes e D g en i r j) (h' : Finishes e D g en i r' j') :
    r = r' ∧ j = j' := by
  obtain ⟨n, h⟩ := h
  obtain ⟨m, h'⟩ := h'
  have h1 := C33_bound_irrelevant hi (Nat.le_max_left n m) h
  have h2 := C33_bound_irrelevant hi (Nat.le_max_right n m) h'
  rw [parsesAt_iff hi] at h1 h2
  rw [h1] at h2
  cases h2
  exact ⟨rfl, rfl⟩

/-- C33: and it does not panic with another bound. -/
theorem C33_returns_or_panics (hi : Valid e i) (h : Finishes e D g en i r j) :
    ¬Crashes e D g en i msg := by
  rintro ⟨m, h'⟩
  obtain ⟨n, h⟩ := h
  have h1 := C33_bound_irrelevant hi (Nat.le_max_left n m) h
  have h2 := C33_bound_irrelevant_panic hi (Nat.le_max_right n m) h'
  rw [parsesAt_iff hi] at h1
  rw [panicsAt_iff hi, h1] at h2
  cases h2

/-- C33: a recursive parser does what its definition does. -/
theorem C33_call {x : N.K} {d : G S N (N.err x) (N.out x)} (hd : D x = some d) (hi : Valid e i)
    {r : Res (N.out x) (N.err x).E} :
    Finishes e D (.call x) en i r j ↔ Finishes e D d en i r j := by
  have h0 : ∀ n, (G.call x : G S N _ _).sem e D (n + 1) en i = d.sem e D n en i := by
    intro n
    unfold G.sem
    simp only [G.den]
    rw [callSem_defined hd]
  constructor
  · rintro ⟨n, h⟩
    refine ⟨n, (parsesAt_iff hi).2 ?_⟩
    rw [← h0]
    exact (parsesAt_iff hi).1 (C33_bound_irrelevant hi (Nat.le_succ n) h)
  · rintro ⟨n, h⟩
    refine ⟨n + 1, (parsesAt_iff hi).2 ?_⟩
    rw [h0]
    exact (parsesAt_iff hi).1 h

/-- C33: also for panics. -/
theorem C33_call_panic {x : N.K} {d : G S N (N.err x) (N.out x)} (hd : D x = some d) (hi : Valid e i) :
    Crashes e D (.call x) en i msg ↔ Crashes e D d en i msg := by
  have h0 : ∀ n, (G.call x : G S N _ _).sem e D (n + 1) en i = d.sem e D n en i := by
    intro n
    unfold G.sem
    simp only [G.den]
    rw [callSem_defined hd]
  constructor
  · rintro ⟨n, h⟩
    refine ⟨n, (panicsAt_iff hi).2 ?_⟩
    rw [← h0]
    exact (panicsAt_iff hi).1 (C33_bound_irrelevant_panic hi (Nat.le_succ n) h)
  · rintro ⟨n, h⟩
    refine ⟨n + 1, (panicsAt_iff hi).2 ?_⟩
    rw [h0]
    exact (panicsAt_iff hi).1 h

/-- C33: replacing all recursive parsers occurring in a parser by their definitions does not
change what it returns. -/
theorem C33_unfold (hi : Valid e i) :
    Finishes e D (g.unfoldRec D) en i r j ↔ Finishes e D g en i r j := by
  constructor
  · rintro ⟨n, h⟩
    rw [parsesAt_iff hi] at h
    exact ⟨n + 1, (parsesAt_iff hi).2 (by rw [unfold_upper g en i (by rw [h]; simp), h])⟩
  · rintro ⟨n, h⟩
    rw [parsesAt_iff hi] at h
    exact ⟨n, (parsesAt_iff hi).2 (by rw [unfold_lower g en i (by rw [h]; simp), h])⟩

/-- C33: nor its panics. -/
theorem C33_unfold_panic (hi : Valid e i) :
    Crashes e D (g.unfoldRec D) en i msg ↔ Crashes e D g en i msg := by
  constructor
  · rintro ⟨n, h⟩
    rw [panicsAt_iff hi] at h
    exact ⟨n + 1, (panicsAt_iff hi).2 (by rw [unfold_upper g en i (by rw [h]; simp), h])⟩
  · rintro ⟨n, h⟩
    rw [panicsAt_iff hi] at h
    exact ⟨n, (panicsAt_iff hi).2 (by rw [unfold_lower g en i (by rw [h]; simp), h])⟩

/-- C33: using a recursive parser that was declared but not defined panics. -/
theorem C33_undefined_panics {x : N.K} (hd : D x = none) (hi : Valid e i) :
    Crashes e D (.call x) en i "recursive parser is not defined" := by
  refine ⟨1, (panicsAt_iff hi).2 ?_⟩
  unfold G.sem
  simp only [G.den]
  exact callSem_undefined hd 0 en i

/-- C33: defining a recursive parser once is fine, defining it again panics. -/
theorem C33_define_twice {γ : Type 1} (d d' : γ) :
    ((RecSlot.declare : RecSlot γ).define d).1 = none ∧
      ((RecSlot.declare : RecSlot γ).define d).2 = some d ∧
      (((RecSlot.declare : RecSlot γ).define d).2.define d').1 =
        some "multiple definitions for recursive parser" := ⟨rfl, rfl, rfl⟩

/-- The panic comes too late: the second definition has replaced the first one by then. -/
theorem C33_second_definition_stored {γ : Type 1} (d d' : γ) :
    (((RecSlot.declare : RecSlot γ).define d).2.define d').2 = some d' := rfl

/-- A concrete case: the recursive parser of nested brackets on `1 1 0 2 2` returns, and so does
its definition. -/
example : Finishes (exEnv [1, 1, 0, 2, 2]) exNested exNestedG true 0 (.success 2) 5 ∧
    Finishes (exEnv [1, 1, 0, 2, 2]) exNested (exNestedG.unfoldRec exNested) true 0 (.success 2) 5 ∧
    exNestedG.unfoldRec exNested ≠ exNestedG := by
  have h : Finishes (exEnv [1, 1, 0, 2, 2]) exNested exNestedG true 0 (.success 2) 5 :=
    ⟨20, exParsesAt (by decide +kernel)⟩
  exact ⟨h, (C33_unfold .zero).2 h, by simp [G.unfoldRec, exNested]⟩

/-! ## C37: parsing from a position -/

theorem Env.rest_trackerAt (e : Env S) (k i : Nat) : (e.rest k).trackerAt i = e.trackerAt (k + i) := by
  induction i with
  | zero => rfl
  | succ i ih =>
    show (match e.source (k + i) with
      | some t => S.advance ((e.rest k).trackerAt i) t
      | none => (e.rest k).trackerAt i) = e.trackerAt (k + i + 1)
    rw [ih]
    rfl

theorem Env.rest_isRest (hS : IndexFree S) (e : Env S) (k : Nat) : IsRest k (e.rest k) e where
  source i := rfl
  location i := by
    unfold Env.locationAt
    rw [Env.rest_trackerAt]
    exact hS.location _ _ _
  span i j := by
    unfold Env.spanOf
    rw [Env.rest_trackerAt, Env.rest_trackerAt]
    exact hS.span _ _ _ _ _ _

theorem Valid.rest (hi : Valid (e.rest k) i) (hk : Valid e k) : Valid e (k + i) := by
  intro a ha
  by_cases h : a < k
  · exact hk a h
  · have := hi (a - k) (by omega)
    simp only [Env.rest] at this
    rwa [show k + (a - k) = a by omega] at this

theorem RR.iff_shift {E : Type} {x y : Res α E × Nat} : RR k x y ↔ y = (x.1.shift k, k + x.2) := by
  constructor
  · intro h; cases h <;> rfl
  · rintro rfl
    obtain ⟨r, j⟩ := x
    cases r
    · exact .success _ _
    · exact .recovered _ _ _
    · exact .failed _ _ _

/-- C37: for a tracker that does not use the token index, what a parser does `i` tokens after
position `k` is what it does at position `i` of the rest of the input, started with the tracker
as it was at `k`; only the failure index is moved by `k`. -/
theorem C37_rest (hS : IndexFree S) (hk : Valid e k) (hi : Valid (e.rest k) i) :
    ParsesAt (e.rest k) D n g en i r j → ParsesAt e D n g en (k + i) (r.shift k) (k + j) := by
  rw [parsesAt_iff hi, parsesAt_iff (hi.rest hk)]
  intro h
  have h1 := G.sem_shift (P := False) (Env.rest_isRest hS e k) D (.inl rfl) g en i (n := n)
  rw [h] at h1
  generalize hb : g.sem e D n en (k + i) = b at h1
  cases h1 with
  | ok h2 => rw [RR.iff_shift.1 h2]

/-- C37, the other way round. -/
theorem C37_middle (hS : IndexFree S) (hk : Valid e k) (hi : Valid (e.rest k) i) :
    ParsesAt e D n g en (k + i) r j →
      ∃ r' j', r = r'.shift k ∧ j = k + j' ∧ ParsesAt (e.rest k) D n g en i r' j' := by
  rw [parsesAt_iff (hi.rest hk)]
  intro h
  have h1 := G.sem_shift (P := False) (Env.rest_isRest hS e k) D (.inl rfl) g en i (n := n)
  rw [h] at h1
  generalize hb : g.sem (e.rest k) D n en i = b at h1
  cases h1 with
  | @ok x _ h2 =>
    have h3 := RR.iff_shift.1 h2
    exact ⟨x.1, x.2, congrArg Prod.fst h3, congrArg Prod.snd h3, (parsesAt_iff hi).2 hb⟩
  | oof h => exact h.elim

/-- C37, for panics. -/
theorem C37_panic (hS : IndexFree S) (hk : Valid e k) (hi : Valid (e.rest k) i) :
    PanicsAt (e.rest k) D n g en i msg ↔ PanicsAt e D n g en (k + i) msg := by
  rw [panicsAt_iff hi, panicsAt_iff (hi.rest hk)]
  have h1 := G.sem_shift (P := False) (Env.rest_isRest hS e k) D (.inl rfl) g en i (n := n)
  generalize hb : g.sem (e.rest k) D n en i = b at h1
  generalize hc : g.sem e D n en (k + i) = c at h1
  cases h1 with
  | oof h => exact h.elim
  | ok => simp
  | _ => simp

/-- C37: in particular `parse_with_recovery` on the remaining tokens, started with the tracker
at `k`, gives the result of continuing at `k`. -/
theorem C37_parse_rest (hS : IndexFree S) (hk : Valid e k) (al : Alloc) :
    parseWithRecovery (g.prog D n) al (fun i => e.source (k + i)) (e.trackerAt k) = .ok r →
      ∃ j, ParsesAt e D n g true k (r.shift k) (k + j) := by
  intro h
  unfold parseWithRecovery at h
  rw [Out.bind_eq_ok] at h
  obtain ⟨⟨r', s'⟩, h1, h2⟩ := h
  cases h2
  have h3 := C41_one_run_is_all_runs (.new : Reach al (e.rest k) _) h1
  exact ⟨s'.index, C37_rest hS hk .zero h3⟩

/-- A tracker that counts lines (tokens equal to `0`) and does not use the token index. -/
@[reducible] def exLineSig : Sig where
  I := Nat
  L := Nat
  Loc := Nat
  Span := Nat × Nat
  advance l t := if t = 0 then l + 1 else l
  location l _ := l
  spanningTo l _ l' _ := (l, l')
  eqI a b := a == b
  eqLoc a b := a == b
  eqSpan a b := a == b

/-- No recursive parsers, over this signature. -/
@[reducible] def exLineNames : Names exLineSig := ⟨Empty, fun k => k.elim, fun k => k.elim⟩

/-- A concrete case: `any().then(just(1))` after the first three tokens of `5 0 6 7 0 1`: parsed
on its own, the rest `7 0 1` fails at index 1 in line 2, so it fails at index 4 in line 2. -/
example : ParsesAt (S := exLineSig) (N := exLineNames) ⟨fun i => [5, 0, 6, 7, 0, 1][i]?, (1 : Nat)⟩
    (fun k => k.elim) 20
    (.then_ (.filter fun _ => true) (.just (S := exLineSig) 1) :
      G exLineSig exLineNames (simpleErr exLineSig) (Nat × Nat)) true 3
    (.failed 4 [(simpleErr exLineSig).expectedFound [some 1] (some 0) (.span (2, 3))]) 3 := by
  have hS : IndexFree exLineSig := ⟨fun _ _ _ => rfl, fun _ _ _ _ _ _ => rfl⟩
  have hk : Valid (S := exLineSig) ⟨fun i => [5, 0, 6, 7, 0, 1][i]?, (1 : Nat)⟩ 3 := by
    intro a ha
    match a with
    | 0 | 1 | 2 => rfl
  refine C37_rest (r := .failed 1 _) (j := 0) (i := 0) hS hk .zero ?_
  exact (parsesAt_iff .zero).2 (by decide +kernel)

end PPC
