import Verif.PropsSeq

/-!
# Properties of the primitives and of the mapping combinators: C24, C25

`e.source i` is the token at position `i` of the input (`none` at and after the end), `S.eqI` the
token type's equality. `specSpan e a b` (PropsStream.lean): the span the location tracker makes
from the tokens before position `a` and those before position `b`.
-/

namespace PPC

variable {S : Sig} {N : Names S} {e : Env S} {D : Defs S N} {n : Nat} {ε : ErrTy S} {α β γ : Type}
  {en : Bool} {i j : Nat}

/-! ## Specification -/

/-- The span of the token at `i`; the empty span there at the end of input. -/
def tokenSpan (e : Env S) (i : Nat) : S.Span :=
  if (e.source i).isSome then specSpan e i (i + 1) else specSpan e i i

/-- The failure "expected one of `expected`, found the token at `k`", at index `k`. -/
def expectedAt (e : Env S) (ε : ErrTy S) (expected : List (Option S.I)) (k : Nat) : Res α ε.E :=
  .failed k [ε.expectedFound expected (e.source k) (.span (tokenSpan e k))]

/-- The token at `i` is there and equal to `t`. -/
def TokenIs (e : Env S) (i : Nat) (t : S.I) : Prop := ∃ t', e.source i = some t' ∧ S.eqI t' t = true

/-! ## Auxiliary lemmas -/

theorem tokenSpan_eq : tokenSpan e i = e.here i := by
  unfold tokenSpan Env.here Env.next
  split <;> rw [spanOf_eq]

theorem mismatch_eq {expected : List (Option S.I)} :
    (mismatch e ε expected i : Res α ε.E) = expectedAt e ε expected i := by
  simp only [mismatch, expectedAt, tokenSpan_eq]

theorem isTok_iff {t : S.I} : isTok S (e.source i) t = true ↔ TokenIs e i t := by
  unfold isTok TokenIs
  cases e.source i <;> simp

theorem ok_iff {a : α} {c b : Nat} {r : α} :
    (Out.ok (a, b) : Out (α × Nat)) = .ok (r, c) ↔ r = a ∧ c = b := by
  constructor
  · intro h; cases h; exact ⟨rfl, rfl⟩
  · rintro ⟨rfl, rfl⟩; rfl

/-! ## C24: primitives -/

/-- C24: `empty()` succeeds without consuming. -/
theorem C24_empty (hi : Valid e i) {r : Res Unit ε.E} :
    ParsesAt e D n (.empty : G S N ε Unit) en i r j ↔ r = .success () ∧ j = i := by
  rw [parsesAt_iff hi]; exact ok_iff

/-- C24: `none()` succeeds with `None` without consuming. -/
theorem C24_none (hi : Valid e i) {r : Res (Option α) ε.E} :
    ParsesAt e D n (.none α : G S N ε (Option α)) en i r j ↔ r = .success none ∧ j = i := by
  rw [parsesAt_iff hi]; exact ok_iff

/-- C24: `end()` succeeds exactly at the end of input, and fails with the token found
otherwise; it never consumes. -/
theorem C24_end (hi : Valid e i) {r : Res Unit ε.E} :
    ParsesAt e D n (.eof : G S N ε Unit) en i r j ↔
      (e.source i = none ∧ r = .success () ∧ j = i) ∨
      (∃ t, e.source i = some t ∧ j = i ∧
        r = .failed i [ε.expectedFound [none] (some t) (.location (specLocation e i))]) := by
  rw [parsesAt_iff hi, show (G.eof : G S N ε Unit).sem e D n = qEnd e ε from rfl]
  unfold qEnd
  cases h : e.source i with
  | none => simp only [ok_iff]; simp
  | some t => simp only [ok_iff, locationAt_eq]; simp [and_comm]

/-- C24: `just(t)` succeeds exactly if the next token is equal to `t`, consumes it and returns
`t`; otherwise it fails there expecting `t`. (Documented as returning the incoming token; see
`C24_just_returns_expected`.) -/
theorem C24_just (hi : Valid e i) {t : S.I} {r : Res S.I ε.E} :
    ParsesAt e D n (.just t : G S N ε S.I) en i r j ↔
      (TokenIs e i t ∧ r = .success t ∧ j = i + 1) ∨
      (¬TokenIs e i t ∧ r = expectedAt e ε [some t] i ∧ j = i) := by
  rw [parsesAt_iff hi, show (G.just t : G S N ε S.I).sem e D n = qJust e ε t from rfl]
  unfold qJust
  rw [← isTok_iff]
  by_cases h : isTok S (e.source i) t = true
  · rw [if_pos h, ok_iff]; simp [h]
  · rw [if_neg h, ok_iff, mismatch_eq]; simp [h]

/-- C24: `filter(p)` succeeds exactly if the next token satisfies `p`, consumes it and returns
it. -/
theorem C24_filter (hi : Valid e i) {p : S.I → Bool} {r : Res S.I ε.E} :
    ParsesAt e D n (.filter p : G S N ε S.I) en i r j ↔
      (∃ t, e.source i = some t ∧ p t = true ∧ r = .success t ∧ j = i + 1) ∨
      ((∀ t, e.source i = some t → p t = false) ∧ r = expectedAt e ε [] i ∧ j = i) := by
  rw [parsesAt_iff hi, show (G.filter p : G S N ε S.I).sem e D n = qFilter e ε p from rfl]
  unfold qFilter
  cases h : e.source i with
  | none => simp only [ok_iff, mismatch_eq]; simp
  | some t =>
    by_cases hp : p t = true
    · simp only [hp, if_true, ok_iff]; simp [hp]
    · simp only [hp, mismatch_eq]
      simp only [Bool.false_eq_true, if_false, ok_iff]
      simp [hp]

/-- C24: `filter_map(f)` succeeds exactly if `f` maps the next token to `Some(o)`, consumes it
and returns `o`. -/
theorem C24_filter_map (hi : Valid e i) {f : S.I → Option α} {r : Res α ε.E} :
    ParsesAt e D n (.filterMap f : G S N ε α) en i r j ↔
      (∃ t o, e.source i = some t ∧ f t = some o ∧ r = .success o ∧ j = i + 1) ∨
      ((∀ t, e.source i = some t → f t = none) ∧ r = expectedAt e ε [] i ∧ j = i) := by
  rw [parsesAt_iff hi, show (G.filterMap f : G S N ε α).sem e D n = qFilterMap e ε f from rfl]
  unfold qFilterMap
  cases h : e.source i with
  | none => simp only [Option.bind_none, ok_iff, mismatch_eq]; simp
  | some t =>
    cases hp : f t with
    | none => simp only [Option.bind_some, hp, ok_iff, mismatch_eq]; simp [hp]
    | some o => simp only [Option.bind_some, hp, ok_iff]; simp [hp]

/-- C24: `one_of(items)` succeeds exactly if the next token is equal to one of the items,
consumes it and returns it; otherwise it fails expecting the items. -/
theorem C24_one_of (hi : Valid e i) {items : List S.I} {r : Res S.I ε.E} :
    ParsesAt e D n (.oneOf items : G S N ε S.I) en i r j ↔
      (∃ t, e.source i = some t ∧ (∃ x ∈ items, S.eqI t x = true) ∧ r = .success t ∧ j = i + 1) ∨
      ((∀ t, e.source i = some t → ∀ x ∈ items, S.eqI t x = false) ∧
        r = expectedAt e ε (items.map some) i ∧ j = i) := by
  rw [parsesAt_iff hi, show (G.oneOf items : G S N ε S.I).sem e D n = qOneOf e ε items from rfl]
  unfold qOneOf
  cases h : e.source i with
  | none => simp only [ok_iff, mismatch_eq]; simp
  | some t =>
    by_cases hp : (items.any fun x => S.eqI t x) = true
    · simp only [hp, if_true, ok_iff]
      have hp' := List.any_eq_true.1 hp
      constructor
      · rintro ⟨rfl, rfl⟩; exact .inl ⟨t, rfl, hp', rfl, rfl⟩
      · rintro (⟨t', h1, -, h2, h3⟩ | ⟨h1, -⟩)
        · cases h1; exact ⟨h2, h3⟩
        · obtain ⟨x, hx, hh⟩ := hp'
          rw [h1 t rfl x hx] at hh; cases hh
    · simp only [hp, mismatch_eq]
      have hp' : ∀ x ∈ items, S.eqI t x = false := by simpa using hp
      constructor
      · intro h'; exact .inr ⟨fun t' ht' x hx => by cases ht'; exact hp' x hx, ok_iff.1 h'⟩
      · rintro (⟨t', h1, ⟨x, hx, hh⟩, -⟩ | ⟨-, h2⟩)
        · cases h1; rw [hp' x hx] at hh; cases hh
        · exact ok_iff.2 h2

/-- C24: `none_of(items)` succeeds exactly if there is a next token and it is equal to none of
the items, consumes it and returns it; otherwise it fails, at the end of input with a location
instead of a span. -/
theorem C24_none_of (hi : Valid e i) {items : List S.I} {r : Res S.I ε.E} :
    ParsesAt e D n (.noneOf items : G S N ε S.I) en i r j ↔
      (∃ t, e.source i = some t ∧ (∀ x ∈ items, S.eqI t x = false) ∧ r = .success t ∧ j = i + 1) ∨
      (∃ t, e.source i = some t ∧ (∃ x ∈ items, S.eqI t x = true) ∧ r = expectedAt e ε [] i ∧ j = i) ∨
      (e.source i = none ∧ j = i ∧
        r = .failed i [ε.expectedFound [] none (.location (specLocation e i))]) := by
  rw [parsesAt_iff hi, show (G.noneOf items : G S N ε S.I).sem e D n = qNoneOf e ε items from rfl]
  unfold qNoneOf
  cases h : e.source i with
  | none => simp only [ok_iff, locationAt_eq]; simp [and_comm]
  | some t =>
    by_cases hp : (items.any fun x => S.eqI t x) = true
    · simp only [hp, if_true, ok_iff, mismatch_eq]
      have hp' := List.any_eq_true.1 hp
      constructor
      · intro h'; exact .inr (.inl ⟨t, rfl, hp', h'⟩)
      · rintro (⟨t', h1, h2, -⟩ | ⟨t', h1, -, h2⟩ | ⟨h1, -⟩)
        · cases h1
          obtain ⟨x, hx, hh⟩ := hp'
          rw [h2 x hx] at hh; cases hh
        · exact h2
        · cases h1
    · simp only [hp]
      have hp' : ∀ x ∈ items, S.eqI t x = false := by simpa using hp
      constructor
      · intro h'; exact .inl ⟨t, rfl, hp', ok_iff.1 h'⟩
      · rintro (⟨t', h1, -, h2⟩ | ⟨t', h1, ⟨x, hx, hh⟩, -⟩ | ⟨h1, -⟩)
        · cases h1; exact ok_iff.2 h2
        · cases h1; rw [hp' x hx] at hh; cases hh
        · cases h1

theorem matchSeq_none : ∀ {items : List S.I} {i : Nat}, matchSeq e items i = none ↔
    ∀ (k : Nat) (t : S.I), items[k]? = some t → TokenIs e (i + k) t := by
  intro items
  induction items with
  | nil => intro i; simp [matchSeq]
  | cons x items ih =>
    intro i
    unfold matchSeq
    by_cases h : isTok S (e.source i) x = true
    · rw [if_pos h, ih]
      constructor
      · intro hh k t hk
        cases k with
        | zero => cases hk; exact isTok_iff.1 h
        | succ k =>
          have := hh k t hk
          rw [show i + (k + 1) = i + 1 + k by omega]; exact this
      · intro hh k t hk
        rw [show i + 1 + k = i + (k + 1) by omega]
        exact hh (k + 1) t hk
    · rw [if_neg h]
      constructor
      · intro h'; cases h'
      · intro hh; exact (h (isTok_iff.2 (hh 0 x rfl))).elim

theorem matchSeq_some : ∀ {items : List S.I} {i l : Nat} {t : S.I}, matchSeq e items i = some (l, t) ↔
    ∃ k, items[k]? = some t ∧ l = i + k ∧ ¬TokenIs e l t ∧
      ∀ m, m < k → ∀ t', items[m]? = some t' → TokenIs e (i + m) t' := by
  intro items
  induction items with
  | nil => intro i; simp [matchSeq]
  | cons x items ih =>
    intro i l t
    unfold matchSeq
    by_cases h : isTok S (e.source i) x = true
    · rw [if_pos h, ih]
      constructor
      · rintro ⟨k, h1, rfl, h3, h4⟩
        refine ⟨k + 1, h1, by omega, h3, fun m hm t' hk => ?_⟩
        cases m with
        | zero => cases hk; exact isTok_iff.1 h
        | succ m =>
          have := h4 m (by omega) t' hk
          rw [show i + (m + 1) = i + 1 + m by omega]; exact this
      · rintro ⟨k, h1, rfl, h3, h4⟩
        cases k with
        | zero => cases h1; exact (h3 (isTok_iff.1 h)).elim
        | succ k =>
          refine ⟨k, h1, by omega, h3, fun m hm t' hk => ?_⟩
          have := h4 (m + 1) (by omega) t' hk
          rw [show i + 1 + m = i + (m + 1) by omega]; exact this
    · rw [if_neg h]
      constructor
      · intro h'; cases h'
        exact ⟨0, rfl, rfl, fun hh => h (isTok_iff.2 hh), fun m hm => by omega⟩
      · rintro ⟨k, h1, rfl, h3, h4⟩
        cases k with
        | zero => cases h1; rfl
        | succ k => exact (h (isTok_iff.2 (h4 0 (by omega) x rfl))).elim

/-- C24: `seq(items)` succeeds exactly if the next tokens are equal to the items one by one,
consumes them and returns the expected container `v`; otherwise it fails at the first token
that differs, expecting the item there, and consumes nothing. -/
theorem C24_seq (hi : Valid e i) {v : α} {items : List S.I} {r : Res α ε.E} :
    ParsesAt e D n (.seq v items : G S N ε α) en i r j ↔
      ((∀ k t, items[k]? = some t → TokenIs e (i + k) t) ∧ r = .success v ∧ j = i + items.length) ∨
      (∃ k t, items[k]? = some t ∧ ¬TokenIs e (i + k) t ∧
        (∀ m, m < k → ∀ t', items[m]? = some t' → TokenIs e (i + m) t') ∧
        r = expectedAt e ε [some t] (i + k) ∧ j = i) := by
  rw [parsesAt_iff hi, show (G.seq v items : G S N ε α).sem e D n = qSeq e ε v items from rfl]
  unfold qSeq
  cases h : matchSeq e items i with
  | none =>
    simp only [ok_iff]
    have h' := matchSeq_none.1 h
    constructor
    · intro hh; exact .inl ⟨h', hh⟩
    · rintro (⟨-, hh⟩ | ⟨k, t, h1, h2, -⟩)
      · exact hh
      · exact (h2 (h' k t h1)).elim
  | some lt =>
    obtain ⟨l, t⟩ := lt
    simp only [ok_iff, mismatch_eq]
    obtain ⟨k, h1, rfl, h3, h4⟩ := matchSeq_some.1 h
    constructor
    · rintro ⟨rfl, rfl⟩; exact .inr ⟨k, t, h1, h3, h4, rfl, rfl⟩
    · rintro (⟨hh, -⟩ | ⟨k', t', k1, k2, k3, k4, k5⟩)
      · exact (h3 (hh k t h1)).elim
      · have hk : k' = k := by
          rcases Nat.lt_trichotomy k' k with hlt | heq | hlt
          · exact (k2 (h4 k' hlt t' k1)).elim
          · exact heq
          · exact (h3 (k3 k hlt t h1)).elim
        subst hk
        rw [h1] at k1
        cases k1
        exact ⟨k4, k5⟩

/-- Tokens with a number compared without regard to whether it is odd. -/
@[reducible] def exHalfSig : Sig := simpleSig Nat (fun a b => a / 2 == b / 2)

/-- `just(2)` matches the token 3 and returns 2: the expected token, not the incoming one that
its documentation promises. -/
theorem C24_just_returns_expected : ∃ (e : Env exHalfSig) (t found : Nat)
    (N : Names exHalfSig) (D : Defs exHalfSig N),
    e.source 0 = some found ∧ t ≠ found ∧
    ParsesAt e D 0 (.just t : G exHalfSig N (simpleErr exHalfSig) Nat) false 0 (.success t) 1 :=
  ⟨⟨fun i => [3][i]?, ()⟩, 2, 3, ⟨Empty, fun k => k.elim, fun k => k.elim⟩, fun k => k.elim, rfl,
    by decide, (C24_just Valid.zero).2 (.inl ⟨⟨3, rfl, rfl⟩, rfl, rfl⟩)⟩

/-- Cases of the theorems, in the middle of an input. -/
example : Valid (exEnv [1, 2, 3]) 1 ∧ TokenIs (exEnv [1, 2, 3]) 1 2 ∧
    ParsesAt (exEnv [1, 2, 3]) exNoDefs 0 (.just 2 : ExG Nat) true 1 (.success 2) 2 ∧
    ParsesAt (exEnv [1, 2, 3]) exNoDefs 0 (.seq "ab" [2, 4, 5] : ExG String) true 1
      (.failed 2 [.expectedFound [some 4] (some 3) (.span (2, 3))]) 1 ∧
    ParsesAt (exEnv [1, 2, 3]) exNoDefs 0 (.eof : ExG Unit) true 3 (.success ()) 3 ∧
    ParsesAt (exEnv [1, 2, 3]) exNoDefs 0 (.noneOf [1, 3] : ExG Nat) true 1 (.success 2) 2 := by
  have h1 : Valid (exEnv [1, 2, 3]) 1 := by intro j hj; match j, hj with | 0, _ => rfl
  have h3 : Valid (exEnv [1, 2, 3]) 3 := by
    intro j hj
    match j, hj with
    | 0, _ => rfl
    | 1, _ => rfl
    | 2, _ => rfl
  exact ⟨h1, ⟨2, rfl, rfl⟩, (C24_just h1).2 (.inl ⟨⟨2, rfl, rfl⟩, rfl, rfl⟩),
    (parsesAt_iff h1).2 (by decide +kernel), (C24_end h3).2 (.inl ⟨rfl, rfl, rfl⟩),
    (parsesAt_iff h1).2 (by decide +kernel)⟩

/-! ## C25: mapping -/

theorem map_gives {f : α → β} {q : PSem ε.E α} {o : β} {es : List ε.E} {rec : Bool}
    {body : Res α ε.E × Nat → Res β ε.E} (hb : ∀ r k, r.map f = body (r, k) ∨ k ≠ j) :
    GivesO (q en i >>= fun x => .ok (body x, x.2)) o es rec j ↔
      ∃ a, o = f a ∧ GivesO (q en i) a es rec j := by
  cases hq : q en i with
  | ok x =>
    obtain ⟨r, k⟩ := x
    simp only [Out.ok_bind]
    by_cases hk : k = j
    · subst hk
      rcases hb r k with h | h
      · rw [← h]
        cases r with
        | success a =>
          simp only [Res.map, givesO_success]
          constructor
          · rintro ⟨h1, h2, rfl, h4⟩; exact ⟨a, rfl, h1, h2, rfl, h4⟩
          · rintro ⟨a', rfl, h1, h2, rfl, h4⟩; exact ⟨h1, h2, rfl, h4⟩
        | recovered a es' =>
          simp only [Res.map, givesO_recovered]
          constructor
          · rintro ⟨h1, h2, rfl, h4⟩; exact ⟨a, rfl, h1, h2, rfl, h4⟩
          · rintro ⟨a', rfl, h1, h2, rfl, h4⟩; exact ⟨h1, h2, rfl, h4⟩
        | failed x es' => simp [Res.map, givesO_failed]
      · exact (h rfl).elim
    · constructor
      · rintro (⟨-, -, h⟩ | ⟨-, h⟩) <;> exact (hk (Prod.mk.inj (Out.ok.inj h)).2).elim
      · rintro ⟨a, -, ⟨-, -, h⟩ | ⟨-, h⟩⟩ <;> exact (hk (Prod.mk.inj (Out.ok.inj h)).2).elim
  | panic m => simp [givesO_panic]
  | oof => simp [givesO_oof]
  | stuck => simp [givesO_stuck]

/-- C25: `g.map(f)` returns `f` of the output of `g`. -/
theorem C25_map {f : α → β} {g : G S N ε α} {o : β} {es : List ε.E} {rec : Bool} (hi : Valid e i) :
    Gives e D n (.map f g) en i o es rec j ↔ ∃ a, o = f a ∧ Gives e D n g en i a es rec j := by
  simp only [gives_iff hi]
  exact map_gives (q := g.sem e D n) (body := fun x => x.1.map f) (fun r k => .inl rfl)

/-- C25: `map_with_span` hands its function the output of its parser and the span of the tokens
it consumed: from where it started to where it ended. -/
theorem C25_map_with_span {f : α → S.Span → β} {g : G S N ε α} {o : β} {es : List ε.E} {rec : Bool}
    (hi : Valid e i) :
    Gives e D n (.mapWithSpan f g) en i o es rec j ↔
      ∃ a, o = f a (specSpan e i j) ∧ Gives e D n g en i a es rec j := by
  simp only [gives_iff hi, ← spanOf_eq]
  refine map_gives (f := fun a => f a (e.spanOf i j)) (q := g.sem e D n)
    (body := fun x => x.1.map fun a => f a (e.spanOf i x.2)) (fun r k => ?_)
  by_cases hk : k = j
  · subst hk; exact .inl rfl
  · exact .inr hk

/-- C25: mapping the output does not change failures. -/
theorem C25_map_fails {f : α → β} {f' : α → S.Span → β} {g : G S N ε α} {x : Nat} {es : List ε.E}
    (hi : Valid e i) :
    (ParsesAt e D n (.map f g) en i (.failed x es) j ↔ ParsesAt e D n g en i (.failed x es) j) ∧
    (ParsesAt e D n (.mapWithSpan f' g) en i (.failed x es) j ↔
      ParsesAt e D n g en i (.failed x es) j) := by
  simp only [parsesAt_iff hi]
  constructor
  · rw [show (G.map f g).sem e D n = qMap f (g.sem e D n) from rfl]
    simp only [qMap, Out.bind_eq_ok]
    constructor
    · rintro ⟨⟨r, k⟩, h1, h2⟩
      cases r <;> cases h2
      exact h1
    · intro h; exact ⟨_, h, rfl⟩
  · rw [show (G.mapWithSpan f' g).sem e D n = qMapWithSpan e f' (g.sem e D n) from rfl]
    simp only [qMapWithSpan, Out.bind_eq_ok]
    constructor
    · rintro ⟨⟨r, k⟩, h1, h2⟩
      cases r <;> cases h2
      exact h1
    · intro h; exact ⟨_, h, rfl⟩

/-- C25: `to(v)` and `some()` are maps; `boxed()` and `with_error()` change nothing. -/
theorem C25_other_maps {g : G S N ε α} {v : β} {r : Res β ε.E} {r' : Res (Option α) ε.E}
    {r'' : Res α ε.E} (hi : Valid e i) :
    (ParsesAt e D n (.to g v) en i r j ↔ ParsesAt e D n (.map (fun _ => v) g) en i r j) ∧
    (ParsesAt e D n (.some g) en i r' j ↔ ParsesAt e D n (.map some g) en i r' j) ∧
    (ParsesAt e D n (.boxed g) en i r'' j ↔ ParsesAt e D n g en i r'' j) ∧
    (ParsesAt e D n (.withError g) en i r'' j ↔ ParsesAt e D n g en i r'' j) := by
  simp only [parsesAt_iff hi]
  exact ⟨Iff.rfl, Iff.rfl, Iff.rfl, Iff.rfl⟩

/-- C25: `map_err` and `map_err_with_span` map each error and change nothing else. The span of
`map_err_with_span` is what its parser consumed: on a recovery from start to end, and on a
failure (which consumes nothing, see C11) the empty span at the start. -/
theorem C25_map_err {ε' : ErrTy S} {f : ε'.E → ε.E} {f' : ε'.E → S.Span → ε.E} {g : G S N ε' α}
    {r : Res α ε.E} (hi : Valid e i) :
    (ParsesAt e D n (.mapErr f g) en i r j ↔
      ∃ r₀, r = r₀.mapErr f ∧ ParsesAt e D n g en i r₀ j) ∧
    (ParsesAt e D n (.mapErrWithSpan f' g) en i r j ↔
      ∃ r₀, r = r₀.mapErr (fun x => f' x (specSpan e i j)) ∧ ParsesAt e D n g en i r₀ j) := by
  simp only [parsesAt_iff hi, ← spanOf_eq]
  constructor
  · rw [show (G.mapErr f g).sem e D n = qMapErr f (g.sem e D n) from rfl]
    simp only [qMapErr, Out.bind_eq_ok]
    constructor
    · rintro ⟨⟨r, k⟩, h1, h2⟩
      obtain ⟨h3, h4⟩ := Prod.mk.inj (Out.ok.inj h2)
      simp only at h3 h4
      subst h4
      exact ⟨r, h3.symm, h1⟩
    · rintro ⟨r₀, rfl, h⟩; exact ⟨_, h, rfl⟩
  · rw [show (G.mapErrWithSpan f' g).sem e D n = qMapErrWithSpan e f' (g.sem e D n) from rfl]
    simp only [qMapErrWithSpan, Out.bind_eq_ok]
    constructor
    · rintro ⟨⟨r, k⟩, h1, h2⟩
      obtain ⟨h3, h4⟩ := Prod.mk.inj (Out.ok.inj h2)
      simp only at h3 h4
      subst h4
      exact ⟨r, h3.symm, h1⟩
    · rintro ⟨r₀, rfl, h⟩; exact ⟨_, h, rfl⟩

/-- C25: `try_map` hands its function the output of its parser and the span of the tokens it
consumed. `Ok(o)` makes a success with `o`; `Err(errors)` a failure at the start index with
these errors and nothing consumed; `Recovered(o, errors)` a recovery, if recovery is enabled.
(The errors are those of the function, when its parser succeeded without recovery. See C16 and C11 for
the remaining cases.) -/
theorem C25_try_map {f : α → S.Span → TryMapResult β ε.E} {g : G S N ε α} {a : α} {k : Nat}
    (hi : Valid e i) (hg : ParsesAt e D n g en i (.success a) k) :
    (∀ o, f a (specSpan e i k) = .ok o → ParsesAt e D n (.tryMap f g) en i (.success o) k) ∧
    (∀ es, f a (specSpan e i k) = .err es → es ≠ [] →
      ParsesAt e D n (.tryMap f g) en i (.failed i es) i) ∧
    (∀ o es, f a (specSpan e i k) = .recovered o es → es ≠ [] → en = true →
      ParsesAt e D n (.tryMap f g) en i (.recovered o es) k) := by
  simp only [parsesAt_iff hi, ← spanOf_eq] at hg ⊢
  rw [show (G.tryMap f g).sem e D n = qTryMap e f (g.sem e D n) from rfl]
  simp only [qTryMap, hg, Out.ok_bind, tryMapStep]
  refine ⟨fun o h => by rw [h], fun es h hne => ?_, fun o es h hne hen => ?_⟩
  · rw [h]
    cases es with
    | nil => exact (hne rfl).elim
    | cons d ds => rfl
  · rw [h, hen]
    cases es with
    | nil => exact (hne rfl).elim
    | cons d ds => rfl

/-- C25: when its parser recovered, `try_map` prepends the parser's errors to those of the
function, except that they are dropped if the function returns `Ok` (see C16). -/
theorem C25_try_map_recovered {f : α → S.Span → TryMapResult β ε.E} {g : G S N ε α} {a : α} {k : Nat}
    {es₀ : List ε.E} (hi : Valid e i) (hg : ParsesAt e D n g en i (.recovered a es₀) k) :
    (∀ o, f a (specSpan e i k) = .ok o → ParsesAt e D n (.tryMap f g) en i (.success o) k) ∧
    (∀ es, f a (specSpan e i k) = .err es → es ≠ [] →
      ParsesAt e D n (.tryMap f g) en i (.failed i (es₀ ++ es)) i) ∧
    (∀ o es, f a (specSpan e i k) = .recovered o es → es ≠ [] →
      ParsesAt e D n (.tryMap f g) en i (.recovered o (es₀ ++ es)) k) := by
  have hen : en = true := by
    cases en with
    | true => rfl
    | false => exact (G.sem_nr D n g _ _ _ _ ((parsesAt_iff hi).1 hg)).elim
  subst hen
  simp only [parsesAt_iff hi, ← spanOf_eq] at hg ⊢
  rw [show (G.tryMap f g).sem e D n = qTryMap e f (g.sem e D n) from rfl]
  simp only [qTryMap, hg, Out.ok_bind, tryMapStep]
  refine ⟨fun o h => by rw [h]; rfl, fun es h hne => ?_, fun o es h hne => ?_⟩
  · rw [h]
    cases es with
    | nil => exact (hne rfl).elim
    | cons d ds => rfl
  · rw [h]
    cases es with
    | nil => exact (hne rfl).elim
    | cons d ds => rfl

/-- C25: `try_map` passes on the failures of its parser. -/
theorem C25_try_map_fails {f : α → S.Span → TryMapResult β ε.E} {g : G S N ε α} {x : Nat}
    {es : List ε.E} (hi : Valid e i) (hg : ParsesAt e D n g en i (.failed x es) j) :
    ParsesAt e D n (.tryMap f g) en i (.failed x es) j := by
  rw [parsesAt_iff hi] at hg ⊢
  rw [show (G.tryMap f g).sem e D n = qTryMap e f (g.sem e D n) from rfl]
  simp only [qTryMap, hg, Out.ok_bind]

/-- Cases: the span of the two tokens consumed from position 0. -/
example : Gives (exEnv [1, 2, 3]) exNoDefs 20
      (.mapWithSpan (fun (x : Nat × Nat) sp => (x.1 + x.2, sp)) (.then_ (.just 1) (.just 2)) :
        ExG (Nat × (Nat × Nat))) true 0 (3, (0, 2)) [] false 2 ∧
    ParsesAt (exEnv [1, 2, 3]) exNoDefs 20
      (.tryMap (fun (_ : Nat × Nat) sp => .err [(simpleErr exSig).custom "no" (.span sp)])
        (.then_ (.just 1) (.just 2)) : ExG Nat) true 0 (.failed 0 [.custom "no" (.span (0, 2))]) 0 ∧
    ParsesAt (exEnv [7]) exNoDefs 20
      (.tryMap (fun (x : Nat) sp => .recovered (x + 1) [(simpleErr exSig).custom "no" (.span sp)])
        exRecovering : ExG Nat) true 0
      (.recovered 2 [.expectedFound [some 1] (some 7) (.span (0, 1)), .custom "no" (.span (0, 0))]) 0 :=
  ⟨.inl ⟨rfl, rfl, exParsesAt (by decide +kernel)⟩, exParsesAt (by decide +kernel),
   exParsesAt (by decide +kernel)⟩

end PPC
