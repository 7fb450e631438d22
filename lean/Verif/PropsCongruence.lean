import Verif.SemReplace
import Verif.PropsLaws
import Verif.PropsTerm

/-!
# Replacing parsers by equivalent ones: C50

If `a ≃ b` (C43), `a` may be replaced by `b` anywhere inside another parser or inside the definition of
a recursive parser, and nobody can tell the difference.
-/

namespace PPC

variable {S : Sig} {N : Names S} {ε : ErrTy S} {α β γ : Type} {e : Env S}

/-! ## Specification -/

/-- `b` is `a`, with some parsers in it replaced by equivalent ones. -/
def G.Rewritten (a b : G S N ε α) : Prop := G.Replaced (fun _ _ x y => x ≃ y) a b

/-- The same recursive parsers are defined, and the definitions `D'` are the definitions `D` with some
parsers in them replaced by equivalent ones. -/
def Defs.Rewritten (D D' : Defs S N) : Prop :=
  ∀ k, (D k = none ∧ D' k = none) ∨ ∃ a b, D k = some a ∧ D' k = some b ∧ a.Rewritten b

/-! ## Auxiliary lemmas -/

theorem Equivalent.symm {a b : G S N ε α} (h : a ≃ b) : b ≃ a := fun e D en i hi =>
  ⟨fun r j => ((h e D en i hi).1 r j).symm, fun m => ((h e D en i hi).2 m).symm⟩

theorem G.Rewritten.symm {a b : G S N ε α} (h : a.Rewritten b) : b.Rewritten a :=
  G.Replaced.symm (fun h => h.symm) h

theorem Defs.Rewritten.symm {D D' : Defs S N} (h : D.Rewritten D') : D'.Rewritten D := fun k => by
  rcases h k with ⟨h1, h2⟩ | ⟨a, b, h1, h2, h3⟩
  · exact .inl ⟨h2, h1⟩
  · exact .inr ⟨b, a, h2, h1, h3.symm⟩

/-- Equivalent parsers have the same limit. -/
theorem Lim.equiv {D : Defs S N} {a b : G S N ε α} (h : a ≃ b) {en : Bool} {i : Nat} (hi : Valid e i)
    {x : Out (Res α ε.E × Nat)} (hx : Lim (RV e) x (fun m => a.sem e D m en i)) :
    Lim (RV e) x (fun m => b.sem e D m en i) := by
  cases hx with
  | oof => exact .oof
  | @ok v y _ m0 hv hX =>
    have hy : ∀ m, y m = v := by cases hv <;> intro m <;> rfl
    obtain ⟨n, hn⟩ := ((h e D en i hi).1 v.1 v.2).1 ⟨m0, (parsesAt_iff hi).2 ((hX m0 (Nat.le_refl _)).trans (by rw [hy]))⟩
    rw [parsesAt_iff hi] at hn
    refine .ok n hv fun m hm => ?_
    show b.sem e D m en i = _
    rw [G.sem_mono e D hm b en i (by rw [hn]; exact fun h => by cases h), hn, hy]
  | @panic msg _ m0 hX =>
    obtain ⟨n, hn⟩ := ((h e D en i hi).2 msg).1 ⟨m0, (panicsAt_iff hi).2 (hX m0 (Nat.le_refl _))⟩
    rw [panicsAt_iff hi] at hn
    refine .panic n fun m hm => ?_
    show b.sem e D m en i = _
    rw [G.sem_mono e D hm b en i (by rw [hn]; exact fun h => by cases h), hn]
  | stuck m0 hX => exact (G.sem_not_stuck D m0 a en hi (hX m0 (Nat.le_refl _))).elim

/-- One rewriting step, given that the calls agree in the limit. -/
theorem rewritten_lim {D' : Defs S N} {n : Nat} {ρ : QEnv S N}
    (hρ : ∀ x, PL e (ρ x) (fun m => callSem e D' m x)) {a b : G S N ε α} (h : a.Rewritten b) :
    PL e (a.den e ρ n) (fun m => b.sem e D' m) := by
  refine G.Replaced.lim (ρ' := callSem e D') hρ (fun hab => ?_) h
  intro en i hi
  refine Lim.equiv hab hi ?_
  exact G.Replaced.lim (B := fun _ _ _ _ => False) (ρ' := callSem e D') hρ (fun h => h.elim)
    (G.Replaced.refl _) en i hi

theorem Lim.pred {E : Type} {x : Out (Res α E × Nat)} {X : Nat → Out (Res α E × Nat)}
    (h : Lim (RV e) x X) {Y : Nat → Out (Res α E × Nat)} (hY : ∀ m, Y (m + 1) = X m) : Lim (RV e) x Y := by
  have hY' : ∀ m, 1 ≤ m → Y m = X (m - 1) := fun m hm => by
    rw [← hY, Nat.sub_add_cancel hm]
  cases h with
  | oof => exact .oof
  | @ok v y _ m0 hv hX =>
    have hy : ∀ m, y m = v := by cases hv <;> intro m <;> rfl
    exact .ok (m0 + 1) hv fun m hm => by rw [hY' m (by omega), hX (m - 1) (by omega), hy, hy]
  | panic m0 hX => exact .panic (m0 + 1) fun m hm => by rw [hY' m (by omega), hX (m - 1) (by omega)]
  | stuck m0 hX => exact .stuck (m0 + 1) fun m hm => by rw [hY' m (by omega), hX (m - 1) (by omega)]

theorem callSem_lim {D D' : Defs S N} (h : D.Rewritten D') : ∀ (n : Nat) (x : N.K),
    PL e (callSem e D n x) (fun m => callSem e D' m x) := by
  intro n
  induction n with
  | zero => intro x en i hi; exact .oof
  | succ n ih =>
    intro x en i hi
    rcases h x with ⟨h1, h2⟩ | ⟨a, b, h1, h2, h3⟩
    · refine Lim.pred (X := fun _ => .panic "recursive parser is not defined") ?_
        (Y := fun m => callSem e D' m x en i) (fun m => by simp only [callSem, h2])
      simp only [callSem, h1]
      exact .fail
    · refine Lim.pred (X := fun m => b.sem e D' m en i) ?_
        (Y := fun m => callSem e D' m x en i) (fun m => by simp only [callSem, h2]; rfl)
      simp only [callSem, h1]
      exact rewritten_lim ih h3 en i hi

theorem rewritten_sem {D D' : Defs S N} (hD : D.Rewritten D') {a b : G S N ε α} (h : a.Rewritten b) (n : Nat)
    {en : Bool} {i : Nat} (hi : Valid e i) (ho : a.sem e D n en i ≠ .oof) :
    ∃ m, b.sem e D' m en i = a.sem e D n en i := by
  have h1 := rewritten_lim (callSem_lim (e := e) hD n) h en i hi (n := n)
  change Lim (RV e) (a.sem e D n en i) _ at h1
  generalize a.sem e D n en i = x at h1 ho
  cases h1 with
  | oof => exact (ho rfl).elim
  | @ok v y _ m0 hv hX =>
    have hy : ∀ m, y m = v := by cases hv <;> intro m <;> rfl
    exact ⟨m0, (hX m0 (Nat.le_refl _)).trans (by rw [hy])⟩
  | panic m0 hX => exact ⟨m0, hX m0 (Nat.le_refl _)⟩
  | stuck m0 hX => exact ⟨m0, hX m0 (Nat.le_refl _)⟩

theorem rewritten_finishes {D D' : Defs S N} (hD : D.Rewritten D') {a b : G S N ε α} (h : a.Rewritten b)
    {en : Bool} {i : Nat} (hi : Valid e i) {r : Res α ε.E} {j : Nat} (hf : Finishes e D a en i r j) :
    Finishes e D' b en i r j := by
  obtain ⟨n, hn⟩ := hf
  rw [parsesAt_iff hi] at hn
  obtain ⟨m, hm⟩ := rewritten_sem hD h n hi (by rw [hn]; exact fun h => by cases h)
  exact ⟨m, (parsesAt_iff hi).2 (hm.trans hn)⟩

theorem rewritten_crashes {D D' : Defs S N} (hD : D.Rewritten D') {a b : G S N ε α} (h : a.Rewritten b)
    {en : Bool} {i : Nat} (hi : Valid e i) {msg : String} (hf : Crashes e D a en i msg) :
    Crashes e D' b en i msg := by
  obtain ⟨n, hn⟩ := hf
  rw [panicsAt_iff hi] at hn
  obtain ⟨m, hm⟩ := rewritten_sem hD h n hi (by rw [hn]; exact fun h => by cases h)
  exact ⟨m, (panicsAt_iff hi).2 (hm.trans hn)⟩

/-! ## C50 -/

/-- C50: if `b` is `a` with some parsers in it replaced by equivalent ones, and the definitions of the
recursive parsers have been changed in the same way, then on every input and from every position, `b`
returns what `a` returns, and leaves the stream where `a` leaves it. -/
theorem C50_same_results {D D' : Defs S N} (hD : D.Rewritten D') {a b : G S N ε α} (h : a.Rewritten b)
    {en : Bool} {i : Nat} (hi : Valid e i) (r : Res α ε.E) (j : Nat) :
    Finishes e D a en i r j ↔ Finishes e D' b en i r j :=
  ⟨rewritten_finishes hD h hi, rewritten_finishes hD.symm h.symm hi⟩

/-- C50: and `b` panics when `a` does, with the same message. -/
theorem C50_same_panics {D D' : Defs S N} (hD : D.Rewritten D') {a b : G S N ε α} (h : a.Rewritten b)
    {en : Bool} {i : Nat} (hi : Valid e i) (msg : String) :
    Crashes e D a en i msg ↔ Crashes e D' b en i msg :=
  ⟨rewritten_crashes hD h hi, rewritten_crashes hD.symm h.symm hi⟩

/-- C50: and `b` runs forever when `a` does. -/
theorem C50_same_divergence {D D' : Defs S N} (hD : D.Rewritten D') {a b : G S N ε α} (h : a.Rewritten b)
    {en : Bool} {i : Nat} (hi : Valid e i) : Diverges e D a en i ↔ Diverges e D' b en i := by
  simp only [Diverges, C50_same_results hD h hi, C50_same_panics hD h hi]

/-- C50: equivalence is a congruence: a parser is equivalent to the parser with some parsers in it
replaced by equivalent ones. -/
theorem C50_congruence {a b : G S N ε α} (h : a.Rewritten b) : a ≃ b := fun e D en i hi => by
  have hD : D.Rewritten D := fun k => by
    cases hk : D k with
    | none => exact .inl ⟨rfl, rfl⟩
    | some g => exact .inr ⟨g, g, rfl, rfl, G.Replaced.refl g⟩
  exact ⟨C50_same_results hD h hi, C50_same_panics hD h hi⟩

/-- C50: the parsers put in must be equivalent whatever the recursive parsers stand for. It is not enough
that they behave alike under the definitions at hand: with `rec` defined as `just(1)`, the parsers
`just(1)` and `rec` cannot be told apart, but when the definition of `rec` is replaced by `rec`, the
parser no longer returns. -/
theorem C50_given_definitions_fails : ∃ D D' : Defs exSig exRecNames, ∃ a b : G exSig exRecNames (simpleErr exSig) Nat,
    (∀ e en i r j, Valid e i → (Finishes e D a en i r j ↔ Finishes e D b en i r j)) ∧
    (∀ e en i m, Valid e i → (Crashes e D a en i m ↔ Crashes e D b en i m)) ∧
    D () = some a ∧ D' () = some b ∧
    Finishes (exEnv [1]) D (.call ()) false 0 (.success 1) 1 ∧ Diverges (exEnv [1]) D' (.call ()) false 0 :=
  ⟨fun _ => some (.just 1), fun _ => some (.call ()), .just 1, .call (),
    fun _ _ _ _ _ hi => (C33_call rfl hi).symm, fun _ _ _ _ hi => (C33_call_panic rfl hi).symm, rfl, rfl,
    ⟨20, exParsesAt (by decide +kernel)⟩,
    C35_left_recursion_diverges rfl (by simp [G.StartsWith]) .zero⟩

/-- The definition of `exNested`, with `delimited_by` for `ignore_then` and `then_ignore`, and two `map`s
for one. -/
def exNested2 : Defs exSig exRecNames := fun _ => some
  (.or
    (.toRecover
      (.map (fun d => d + 1) (.delimitedBy (.just 1) (.map (fun x => x) (.call ())) (.just 2)))
      (.ret (.skip (.scan (.restart .attemptTo) (nestedDelimiters (simpleErr exSig) [(1, 2)]))) 100))
    (.just 0))

theorem exNested_rewritten : exNested.Rewritten exNested2 := fun _ => .inr ⟨_, _, rfl, rfl,
  .or (.toRecover (.map (.here (C43_equivalence.2.2 _ _ _ (C43_delimited_by _ _ _).1.symm
    (C50_congruence (.delimitedBy .just (.here (C43_map _ (fun x : Nat => x) (fun x : Nat => x)).1.symm) .just)))))
    (.ret (.skip (.scan (.restart .attemptTo))))) .just⟩

/-- A concrete case: the nested brackets with the other definition, deep inside another parser. -/
example : Finishes (exEnv [1, 1, 0, 2, 2]) exNested2 exNestedG true 0 (.success 2) 5 :=
  (C50_same_results exNested_rewritten (.call) .zero _ _).1 ⟨20, exParsesAt (by decide +kernel)⟩

/-- A concrete case: a recursive parser that is not defined panics, boxed or not, deep inside another
parser. -/
example : Crashes (exEnv [1, 2]) (fun _ => none : Defs exSig exRecNames)
    (.thenIgnore (.ignoreThen (.just 1) (.boxed (.call ()))) (.just 2)) true 0 "recursive parser is not defined" :=
  have h : Crashes (exEnv [1, 2]) (fun _ => none : Defs exSig exRecNames)
      (.thenIgnore (.ignoreThen (.just 1) (.call ())) (.just 2)) true 0 "recursive parser is not defined" :=
    ⟨20, (panicsAt_iff .zero).2 (by rfl)⟩
  have hr : (.thenIgnore (.ignoreThen (.just 1) (.call ())) (.just 2) : G exSig exRecNames (simpleErr exSig) Nat).Rewritten
      (.thenIgnore (.ignoreThen (.just 1) (.boxed (.call ()))) (.just 2)) :=
    .thenIgnore (.ignoreThen .just (.here (C43_transparent _).1.symm)) .just
  (C50_same_panics (fun _ => .inl ⟨rfl, rfl⟩) hr .zero _).1 h

/-- A concrete case: a left-recursive parser runs forever, also if its definition is boxed. -/
example : Diverges (exEnv [1]) (fun _ => some (.boxed (.call ())) : Defs exSig exRecNames) (.call ()) true 0 :=
  have hD : Defs.Rewritten (fun _ => some (.call ()) : Defs exSig exRecNames) (fun _ => some (.boxed (.call ()))) :=
    fun _ => .inr ⟨_, _, rfl, rfl, .here (C43_transparent _).1.symm⟩
  (C50_same_divergence hD .call .zero).1 (C35_left_recursion_diverges rfl (by simp [G.StartsWith]) .zero)

end PPC
