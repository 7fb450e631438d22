import Verif.PropsFlag
import Verif.SemHonest

/-!
# C47: error reports are truthful

`Honest` and `HonestAt` are in SpecHonest.lean.
-/

namespace PPC

variable {S : Sig} {N : Names S} {e : Env S} {D : Defs S N} {ε : ErrTy S} {α : Type} {g : G S N ε α}
  {i j : Nat} {r : Res α ε.E}

/-- C47: if the user's own functions make and keep truthful errors, all errors of all results (recovered
or failed, recovery enabled or not, whatever the error type) are truthful. `U` is what counts as an error
of the user's own. -/
theorem C47_truthful {U : (ε : ErrTy S) → ε.E → Prop} (hD : D.All (keepsErrL N (Honest e U)))
    (hg : g.All (keepsErrL N (Honest e U))) (hi : Valid e i) {en : Bool} (h : Finishes e D g en i r j) :
    r.AllErrors (Honest e U ε) := by
  obtain ⟨n, h1⟩ := h
  have hT : ErrClosed e (Honest e U) :=
    ⟨fun ε exp k hk hu => .span exp hk hu, fun ε exp k hk hu => .location exp hk hu, fun ε x y hx hy h => .merge hx hy h⟩
  exact (G.sem_he hT hD n g hg _ _ _ _ hi ((parsesAt_iff hi).1 h1)).2.1

theorem Honest.simple_aux {U : (ε : ErrTy S) → ε.E → Prop}
    (hU : ∀ expected found at_, ¬U (simpleErr S) (.expectedFound expected found at_)) {x : (simpleErr S).E}
    (h : Honest e U (simpleErr S) x) : ∀ expected found at_, x = .expectedFound expected found at_ →
    ∃ k, Valid e k ∧ found = e.source k ∧ (at_ = .span (e.here k) ∨ at_ = .location (e.locationAt k)) := by
  induction h with
  | span exp hk _ => intro _ _ _ hx; cases hx; exact ⟨_, hk, rfl, .inl rfl⟩
  | location exp hk _ => intro _ _ _ hx; cases hx; exact ⟨_, hk, rfl, .inr rfl⟩
  | @merge x y hx' hy' h ih1 ih2 =>
    intro _ _ _ hx
    cases x with
    | expectedFound e1 f1 a1 =>
      cases y <;> cases hx <;> exact ih1 _ _ _ rfl
    | unmatchedLeft => cases y <;> cases hx
    | unmatchedRight => cases y <;> cases hx
    | unmatchedType => cases y <;> cases hx
    | custom => cases y <;> cases hx
  | user h => intro _ _ _ hx; rw [hx] at h; exact (hU _ _ _ h).elim

/-- What a truthful "expected …, found …" error of type `Simple` says: it names the token at some
position of the input (or its end), and the span or the location of that very position. -/
theorem Honest.simple {U : (ε : ErrTy S) → ε.E → Prop}
    (hU : ∀ expected found at_, ¬U (simpleErr S) (.expectedFound expected found at_))
    {expected : List (Option S.I)} {found : Option S.I} {at_ : At S.Loc S.Span}
    (h : Honest e U (simpleErr S) (.expectedFound expected found at_)) :
    ∃ k, Valid e k ∧ found = e.source k ∧ (at_ = .span (e.here k) ∨ at_ = .location (e.locationAt k)) := by
  exact Honest.simple_aux hU h _ _ _ rfl

/-- C47, for errors of type `Simple`: if the user's own functions make no "expected …, found …" errors
out of thin air, every such error in any result names the token that really is at the place it names. -/
theorem C47_simple {α : Type} {g : G S N (simpleErr S) α} {r : Res α (simpleErr S).E}
    {U : (ε : ErrTy S) → ε.E → Prop}
    (hU : ∀ expected found at_, ¬U (simpleErr S) (.expectedFound expected found at_))
    (hD : D.All (keepsErrL N (Honest e U))) (hg : g.All (keepsErrL N (Honest e U))) (hi : Valid e i)
    {en : Bool} (h : Finishes e D g en i r j) :
    r.AllErrors fun x => ∀ expected found at_, x = .expectedFound expected found at_ →
      ∃ k, Valid e k ∧ found = e.source k ∧
        (at_ = .span (e.here k) ∨ at_ = .location (e.locationAt k)) := by
  have h1 := C47_truthful hD hg hi h
  cases r with
  | success o => trivial
  | recovered o es => intro x hx exp f a hxe; exact Honest.simple hU (hxe ▸ h1 x hx)
  | failed y es => intro x hx exp f a hxe; exact Honest.simple hU (hxe ▸ h1 x hx)

/-- C47: with recovery disabled, and if no user function makes or changes errors, a failure carries
exactly one error, and its "found" part is about the very position the failure reports. -/
theorem C47_failure (hD : D.All (noUserErrL S N)) (hg : g.All (noUserErrL S N)) (hi : Valid e i) {k : Nat}
    {es : List ε.E} (h : Finishes e D g false i (.failed k es) j) :
    i ≤ k ∧ Valid e k ∧ ∃ x, es = [x] ∧ HonestAt e ε k x := by
  obtain ⟨n, h1⟩ := h
  have h2 := (parsesAt_iff hi).1 h1
  have h3 := (G.sem_valid D n g false hi h2).2.2 _ _ rfl
  exact ⟨h3.1, h3.2, G.sem_hf hD n g hg _ _ _ _ h2⟩

/-- What such an error says, for errors of type `Simple`. -/
theorem HonestAt.simple {k : Nat} {x : (simpleErr S).E} (h : HonestAt e (simpleErr S) k x) :
    ∃ expected at_, x = .expectedFound expected (e.source k) at_ ∧
      (at_ = .span (e.here k) ∨ at_ = .location (e.locationAt k)) := by
  induction h with
  | span k exp _ => exact ⟨_, _, rfl, .inl rfl⟩
  | location k exp _ => exact ⟨_, _, rfl, .inr rfl⟩
  | merge hx hy h ih1 ih2 =>
    obtain ⟨e1, a1, rfl, h1⟩ := ih1
    obtain ⟨e2, a2, rfl, h2⟩ := ih2
    exact ⟨_, _, rfl, h1⟩

/-- C47, for errors of type `Simple`: a failure at index `k` carries exactly one error, "expected …, found
the token at `k`", with the span or the location of `k`. -/
theorem C47_failure_simple {α : Type} {g : G S N (simpleErr S) α} (hD : D.All (noUserErrL S N))
    (hg : g.All (noUserErrL S N)) (hi : Valid e i) {k : Nat} {es : List (simpleErr S).E}
    (h : Finishes e D g false i (.failed k es) j) :
    ∃ expected at_, es = [.expectedFound expected (e.source k) at_] ∧
      (at_ = .span (e.here k) ∨ at_ = .location (e.locationAt k)) := by
  obtain ⟨-, -, x, rfl, h1⟩ := C47_failure hD hg hi h
  obtain ⟨exp, a, rfl, h2⟩ := h1.simple
  exact ⟨exp, a, rfl, h2⟩

/-! ## What was expected is not what was found -/

theorem mem_setExtend {x : Option S.I} : ∀ (xs s : List (Option S.I)), x ∈ setExtend S.eqI s xs → x ∈ s ∨ x ∈ xs
  | [], s, h => .inl h
  | y :: ys, s, h => by
    rcases mem_setExtend ys (setInsert S.eqI s y) h with h1 | h1
    · unfold setInsert at h1
      split at h1
      · exact .inl h1
      · rcases List.mem_append.1 h1 with h2 | h2
        · exact .inl h2
        · exact .inr (by rw [List.mem_singleton.1 h2]; exact List.mem_cons_self)
    · exact .inr (List.mem_cons_of_mem _ h1)

theorem Unmet.extend {s xs : List (Option S.I)} {found : Option S.I} (h1 : Unmet s found) (h2 : Unmet xs found) :
    Unmet (setExtend S.eqI s xs) found := by
  refine ⟨fun x t hx ht => ?_, fun hx => ?_⟩
  · rcases mem_setExtend _ _ hx with h | h
    · exact h1.1 x t h ht
    · exact h2.1 x t h ht
  · rcases mem_setExtend _ _ hx with h | h
    · exact h1.2 h
    · exact h2.2 h

theorem unmet_empty {found : Option S.I} : Unmet (S := S) [] found :=
  ⟨fun _ _ h => (by cases h), fun h => by simp at h⟩

/-- Different positions have different spans, and different locations, as far as `==` can tell. -/
def DistinctPlaces (e : Env S) : Prop :=
  ∀ k l, Valid e k → Valid e l → S.eqSpan (e.here k) (e.here l) = true ∨ S.eqLoc (e.locationAt k) (e.locationAt l) = true →
    k = l

theorem DistinctPlaces.eq (hd : DistinctPlaces e) {k l : Nat} {a b : At S.Loc S.Span} (hk : Valid e k) (hl : Valid e l)
    (ha : a = .span (e.here k) ∨ a = .location (e.locationAt k)) (hb : b = .span (e.here l) ∨ b = .location (e.locationAt l))
    (h : At.beq S a b = true) : k = l := by
  rcases ha with rfl | rfl <;> rcases hb with rfl | rfl
  · exact hd k l hk hl (.inl h)
  · cases h
  · cases h
  · exact hd k l hk hl (.inr h)

theorem Honest.unmet_aux {U : (ε : ErrTy S) → ε.E → Prop}
    (hU : ∀ expected found at_, ¬U (simpleErr S) (.expectedFound expected found at_)) (hd : DistinctPlaces e)
    {x : (simpleErr S).E} (h : Honest e U (simpleErr S) x) : ∀ expected found at_, x = .expectedFound expected found at_ →
    ∃ k, Valid e k ∧ found = e.source k ∧ (at_ = .span (e.here k) ∨ at_ = .location (e.locationAt k)) ∧
      Unmet expected found := by
  induction h with
  | span exp hk hu => intro _ _ _ hx; cases hx; exact ⟨_, hk, rfl, .inl rfl, unmet_empty.extend hu⟩
  | location exp hk hu => intro _ _ _ hx; cases hx; exact ⟨_, hk, rfl, .inr rfl, unmet_empty.extend hu⟩
  | @merge x y hx' hy' h ih1 ih2 =>
    intro _ _ _ hx
    cases x with
    | expectedFound e1 f1 a1 =>
      cases y with
      | expectedFound e2 f2 a2 =>
        cases hx
        obtain ⟨k, h1, h2, h3, h4⟩ := ih1 _ _ _ rfl
        obtain ⟨l, h5, h6, h7, h8⟩ := ih2 _ _ _ rfl
        have := hd.eq h5 h1 h7 h3 h
        subst this
        exact ⟨l, h1, h2, h3, h4.extend (by rw [h2, ← h6]; exact h8)⟩
      | unmatchedLeft => cases hx; exact ih1 _ _ _ rfl
      | unmatchedRight => cases hx; exact ih1 _ _ _ rfl
      | unmatchedType => cases hx; exact ih1 _ _ _ rfl
      | custom => cases hx; exact ih1 _ _ _ rfl
    | unmatchedLeft => cases y <;> cases hx
    | unmatchedRight => cases y <;> cases hx
    | unmatchedType => cases y <;> cases hx
    | custom => cases y <;> cases hx
  | user h => intro _ _ _ hx; rw [hx] at h; exact (hU _ _ _ h).elim

/-- C47, for errors of type `Simple`: no error says that what was found was expected. In every "expected …, found …"
error of any result, the token found differs from all tokens expected, and if the end of the input was expected, a token
was found. The condition is that different positions have different spans and locations, so that only expectations about
one position are merged. -/
theorem C47_unmet {α : Type} {g : G S N (simpleErr S) α} {r : Res α (simpleErr S).E}
    {U : (ε : ErrTy S) → ε.E → Prop}
    (hU : ∀ expected found at_, ¬U (simpleErr S) (.expectedFound expected found at_)) (hp : DistinctPlaces e)
    (hD : D.All (keepsErrL N (Honest e U))) (hg : g.All (keepsErrL N (Honest e U))) (hi : Valid e i)
    {en : Bool} (h : Finishes e D g en i r j) :
    r.AllErrors fun x => ∀ expected found at_, x = .expectedFound expected found at_ →
      (∀ a t, some a ∈ expected → found = some t → S.eqI t a = false) ∧ (none ∈ expected → found ≠ none) := by
  have h1 := C47_truthful hD hg hi h
  cases r with
  | success o => trivial
  | recovered o es =>
    intro x hx exp f a hxe
    obtain ⟨-, -, -, -, h2⟩ := Honest.unmet_aux hU hp (h1 x hx) _ _ _ hxe
    exact h2
  | failed y es =>
    intro x hx exp f a hxe
    obtain ⟨-, -, -, -, h2⟩ := Honest.unmet_aux hU hp (h1 x hx) _ _ _ hxe
    exact h2

/-- With `location::Simple`, different positions have different spans and locations. -/
theorem DistinctPlaces.simple {I : Type} {eq : I → I → Bool} (e : Env (simpleSig I eq)) : DistinctPlaces e := by
  intro k l _ _ h
  simp [Env.here, Env.spanOf, Env.locationAt, simpleSig] at h
  omega

/-! ## Concrete cases -/

/-- The scanner of the crate meets the condition of `C47_simple`: its own errors are not "expected …,
found …" errors. -/
theorem nestedDelimiters_keeps {T : (simpleErr S).E → Prop} (types : List (S.I × S.I))
    (h1 : ∀ l sp at_, T (.unmatchedLeft l sp at_)) (h2 : ∀ l sp at_, T (.unmatchedRight l sp at_))
    (h3 : ∀ l sp r sp', T (.unmatchedType l sp r sp')) : (nestedDelimiters (simpleErr S) types).Keeps T := by
  have hpop : ∀ (r : Nat) (sp : S.Span) (st : List (Delim S)) (es : List (simpleErr S).E), (∀ x ∈ es, T x) →
      ∀ x ∈ (popUntil (simpleErr S) r sp st es).2.2, T x := by
    intro r sp st
    induction st with
    | nil => intro es h; simpa [popUntil] using h
    | cons d ds ih =>
      intro es h
      unfold popUntil
      split
      · exact h
      · exact ih _ (mem_snoc_all h (h1 _ _ _))
  have hone : ∀ (r : Nat) (t : S.I) (sp : S.Span) (st : List (Delim S)) (es : List (simpleErr S).E) st' es',
      (∀ x ∈ es, T x) → popOne (simpleErr S) r t sp st es = .ok (st', es') → ∀ x ∈ es', T x := by
    intro r t sp st es st' es' h hp
    unfold popOne at hp
    split at hp
    · split at hp <;> cases hp
      exact mem_snoc_all h (h3 _ _ _ _)
    · cases hp; exact mem_snoc_all h (h2 _ _ _)
  have hrest : ∀ (t : S.I) (sp : S.Span) (st : List (Delim S)) (es : List (simpleErr S).E) st' es',
      (∀ x ∈ es, T x) → handleRest (simpleErr S) types t sp st es = .ok (st', es') → ∀ x ∈ es', T x := by
    intro t sp st es st' es' h hp
    unfold handleRest at hp
    split at hp
    · cases hp; exact h
    · split at hp
      · rename_i r _
        split at hp
        · have := hpop r sp st es h
          split at hp
          · rename_i hq; rw [hq] at this; cases hp; exact this
          · rename_i hq; rw [hq] at this; exact hone _ _ _ _ _ _ _ this hp
        · exact hone _ _ _ _ _ _ _ h hp
      · cases hp; exact h
  constructor
  · intro t sp st es b st' es' h hn
    simp only at h
    split at h
    · rename_i hq
      cases h
      unfold handleToken at hq
      split at hq
      · split at hq
        · split at hq
          · cases hq; exact hn
          · exact hrest _ _ _ _ _ _ hn hq
        · cases hq
      · exact hrest _ _ _ _ _ _ hn hq
    · cases h
  · intro l st es hn
    refine mem_append_all hn ?_
    intro x hx
    obtain ⟨d, -, rfl⟩ := List.mem_map.1 hx
    exact h1 _ _ _

/-- Errors of the user's own for the examples: anything but "expected …, found …" errors. -/
def ExUser : (ε : ErrTy exSig) → ε.E → Prop := fun ε x => ε.isExpectedFound x = false

theorem exNested_keeps (xs : List Nat) : exNested.All (keepsErrL exRecNames (Honest (exEnv xs) ExUser)) := by
  intro k g h
  cases h
  have := nestedDelimiters_keeps (S := exSig) (T := Honest (exEnv xs) ExUser (simpleErr exSig)) [(1, 2)]
    (fun _ _ _ => .user rfl) (fun _ _ _ => .user rfl) (fun _ _ _ _ => .user rfl)
  simp only [G.All, CS.All, IS.All, keepsErrL, G.KeepsErr, IS.KeepsErr, and_true, true_and]
  exact this

/-- A recovered parse of the recovering grammar `exNested`: the error names the end of the input at
span 4–4, and position 4 is the end of the input. -/
example : exNested.All (keepsErrL exRecNames (Honest (exEnv [1, 1, 3, 2]) ExUser)) ∧
    exNestedG.All (keepsErrL exRecNames (Honest (exEnv [1, 1, 3, 2]) ExUser)) ∧
    (∀ expected found at_, ¬ExUser (simpleErr exSig) (.expectedFound expected found at_)) ∧
    Finishes (exEnv [1, 1, 3, 2]) exNested exNestedG true 0
      (.recovered 100 [.expectedFound [some 2] none (.span (4, 4)), .unmatchedLeft 1 (0, 1) (.location 4)]) 4 ∧
    (exEnv [1, 1, 3, 2]).source 4 = none ∧ (exEnv [1, 1, 3, 2]).here 4 = (4, 4) :=
  ⟨exNested_keeps _, by simp [G.All, keepsErrL, G.KeepsErr], fun _ _ _ h => (by cases h),
    ⟨20, exParsesAt (by decide +kernel)⟩, by decide +kernel, by decide +kernel⟩

/-- A failure of `exBalanced` at index 4, with one error about the token 3 at index 4. -/
example : exBalanced.All (noUserErrL exSig exRecNames) ∧
    (.call () : G exSig exRecNames (simpleErr exSig) Nat).All (noUserErrL exSig exRecNames) ∧
    Finishes (exEnv [1, 1, 0, 2, 3]) exBalanced (.call ()) false 0
      (.failed 4 [.expectedFound [some 2] (some 3) (.span (4, 5))]) 0 ∧
    (exEnv [1, 1, 0, 2, 3]).source 4 = some 3 ∧ (exEnv [1, 1, 0, 2, 3]).here 4 = (4, 5) := by
  refine ⟨?_, by simp [G.All, noUserErrL, G.NoUserErr], ⟨20, exParsesAt (by decide +kernel)⟩,
    by decide +kernel, by decide +kernel⟩
  intro k g h
  cases h
  simp [G.All, noUserErrL, G.NoUserErr]

/-- A choice that fails: the expectations of both alternatives are there, and the token found is none of them. -/
example : Finishes (exEnv [1, 3]) exNoDefs (.or (.seq 0 [1, 2]) (.to (.then_ (.just 1) (.just 4)) 0) : ExG Nat) false 0
      (.failed 1 [.expectedFound [some 2, some 4] (some 3) (.span (1, 2))]) 0 ∧ DistinctPlaces (exEnv [1, 3]) :=
  ⟨⟨20, exParsesAt (by decide +kernel)⟩, .simple _⟩

/-- Numbers as tokens, and a tracker whose places compare equal, as do those of one line if only lines are tracked. -/
@[reducible] def exSamePlaceSig : Sig := { exSig with eqLoc := fun _ _ => true, eqSpan := fun _ _ => true }

@[reducible] def exSamePlaceNames : Names exSamePlaceSig := ⟨Empty, fun k => k.elim, fun k => k.elim⟩

/-- C47: the condition on places in `C47_unmet` cannot be left out. Here `1 2`, or else `3`, is wanted, and the input is
`1 3`. The two alternatives fail at different tokens, but at places that compare equal. So the error says "expected 2 or
3, found 3". -/
theorem C47_unmet_needs_places :
    Finishes (N := exSamePlaceNames) (⟨fun i => [1, 3][i]?, ()⟩ : Env exSamePlaceSig) (fun k => k.elim)
      (.or (.seq 0 [1, 2]) (.just 3) : G exSamePlaceSig exSamePlaceNames (simpleErr exSamePlaceSig) Nat) false 0
      (.failed 1 [.expectedFound [some 2, some 3] (some 3) (.span (1, 2))]) 0 :=
  ⟨20, (parsesAt_iff .zero).2 (by rfl)⟩

end PPC
