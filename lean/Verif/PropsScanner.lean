import Verif.PropsRecovery

/-!
# Property C30: scanning nested delimiters

The specification works on lists of tokens: `Inside types k ts` says that `ts` is balanced text
inside a delimiter of type `k`.
-/

namespace PPC

variable {S : Sig} {N : Names S} {e : Env S} {D : Defs S N} {n : Nat} {ε : ErrTy S} {α : Type}
  {g : G S N ε α} {i j : Nat}

/-! ## Specification -/

/-- `t` is the left delimiter of type `k`: the first type in the list with this left delimiter. -/
def Opens (S : Sig) (types : List (S.I × S.I)) (t : S.I) (k : Nat) : Prop :=
  (∃ ty, types[k]? = some ty ∧ S.eqI t ty.1 = true) ∧
  ∀ k' ty', k' < k → types[k']? = some ty' → S.eqI t ty'.1 = false

/-- `t` is the right delimiter of type `k`. -/
def Closes (S : Sig) (types : List (S.I × S.I)) (t : S.I) (k : Nat) : Prop :=
  ∃ ty, types[k]? = some ty ∧ S.eqI t ty.2 = true

/-- `k` is the first type with right delimiter `t`. -/
def ClosesFirst (S : Sig) (types : List (S.I × S.I)) (t : S.I) (k : Nat) : Prop :=
  Closes S types t k ∧ ∀ k', k' < k → ¬Closes S types t k'

/-- `t` is no left delimiter. -/
def NoLeft (S : Sig) (types : List (S.I × S.I)) (t : S.I) : Prop := ∀ k, ¬Opens S types t k

/-- `t` is no delimiter. -/
def Ordinary (S : Sig) (types : List (S.I × S.I)) (t : S.I) : Prop :=
  NoLeft S types t ∧ ∀ k, ¬Closes S types t k

/-- Balanced text inside a delimiter of type `k`: ordinary tokens and balanced groups, where a
token that closes `k` does not open a group. -/
inductive Inside (S : Sig) (types : List (S.I × S.I)) : Nat → List S.I → Prop
  | nil {k} : Inside S types k []
  | ordinary {k t ts} : Ordinary S types t → Inside S types k ts → Inside S types k (t :: ts)
  | group {k t k' inner c ts} : Opens S types t k' → ¬Closes S types t k → Inside S types k' inner →
      Closes S types c k' → Inside S types k ts → Inside S types k (t :: (inner ++ c :: ts))

/-- An open delimiter: its type, token and position. -/
structure OpenDelim (S : Sig) where
  ty : Nat
  tok : S.I
  pos : Nat

/-- Text starting at position `i` that leaves delimiters open, innermost first. -/
inductive Pending (S : Sig) (types : List (S.I × S.I)) (i : Nat) : List S.I → List (OpenDelim S) → Prop
  | start {t k} : Opens S types t k → Pending S types i [t] [⟨k, t, i⟩]
  | text {ts d ds inner} : Pending S types i ts (d :: ds) → Inside S types d.ty inner →
      Pending S types i (ts ++ inner) (d :: ds)
  | open_ {ts d ds t k} : Pending S types i ts (d :: ds) → ¬Closes S types t d.ty → Opens S types t k →
      Pending S types i (ts ++ [t]) (⟨k, t, i + ts.length⟩ :: d :: ds)

/-- The input from position `i` on begins with `ts`. -/
def TextAt (e : Env S) (i : Nat) (ts : List S.I) : Prop :=
  ∀ k t, ts[k]? = some t → e.source (i + k) = some t

/-! ## Auxiliary lemmas -/

theorem TextAt.cons {t : S.I} {ts : List S.I} :
    TextAt e i (t :: ts) ↔ e.source i = some t ∧ TextAt e (i + 1) ts := by
  constructor
  · intro h
    refine ⟨h 0 t rfl, fun k u hk => ?_⟩
    have := h (k + 1) u (by simpa using hk)
    rwa [show i + 1 + k = i + (k + 1) by omega]
  · rintro ⟨h1, h2⟩ k u hk
    cases k with
    | zero => simp at hk; subst hk; exact h1
    | succ k =>
      have := h2 k u (by simpa using hk)
      rwa [show i + 1 + k = i + (k + 1) by omega] at this

theorem TextAt.nil : TextAt e i [] := by intro k t h; simp at h

theorem TextAt.append {as bs : List S.I} :
    TextAt e i (as ++ bs) ↔ TextAt e i as ∧ TextAt e (i + as.length) bs := by
  induction as generalizing i with
  | nil => simp [TextAt.nil]
  | cons a as ih =>
    rw [List.cons_append, TextAt.cons, TextAt.cons, ih, and_assoc, List.length_cons,
      show i + 1 + as.length = i + (as.length + 1) by omega]

theorem firstIdx_some {β : Type} {p : β → Bool} {xs : List β} {b r : Nat} :
    firstIdx p xs b = some r ↔ ∃ k, r = b + k ∧ (∃ x, xs[k]? = some x ∧ p x = true) ∧
      ∀ k' x', k' < k → xs[k']? = some x' → p x' = false := by
  induction xs generalizing b with
  | nil => simp [firstIdx]
  | cons x xs ih =>
    unfold firstIdx
    cases hp : p x with
    | true =>
      simp only [if_true, Option.some.injEq]
      constructor
      · rintro rfl
        exact ⟨0, rfl, ⟨x, rfl, hp⟩, fun k' x' h => by omega⟩
      · rintro ⟨k, rfl, _, h⟩
        cases k with
        | zero => rfl
        | succ k =>
          have := h 0 x (by omega) rfl
          rw [hp] at this; cases this
    | false =>
      simp only [Bool.false_eq_true, if_false]
      rw [ih]
      constructor
      · rintro ⟨k, rfl, ⟨y, h1, h2⟩, h3⟩
        refine ⟨k + 1, by omega, ⟨y, by simpa using h1, h2⟩, fun k' x' h4 h5 => ?_⟩
        cases k' with
        | zero => simp at h5; subst h5; exact hp
        | succ k' => exact h3 k' x' (by omega) (by simpa using h5)
      · rintro ⟨k, rfl, ⟨y, h1, h2⟩, h3⟩
        cases k with
        | zero => simp at h1; subst h1; rw [hp] at h2; cases h2
        | succ k =>
          exact ⟨k, by omega, ⟨y, by simpa using h1, h2⟩,
            fun k' x' h4 h5 => h3 (k' + 1) x' (by omega) (by simpa using h5)⟩

theorem firstIdx_left {types : List (S.I × S.I)} {t : S.I} {k : Nat} :
    firstIdx (fun ty => S.eqI t ty.1) types 0 = some k ↔ Opens S types t k := by
  rw [firstIdx_some]
  constructor
  · rintro ⟨k', h, h1, h2⟩
    have h : k = k' := by omega
    subst h
    exact ⟨h1, h2⟩
  · rintro ⟨h1, h2⟩; exact ⟨k, by omega, h1, h2⟩

theorem firstIdx_right {types : List (S.I × S.I)} {t : S.I} {k : Nat} :
    firstIdx (fun ty => S.eqI t ty.2) types 0 = some k ↔ ClosesFirst S types t k := by
  rw [firstIdx_some]
  constructor
  · rintro ⟨k', h, h1, h2⟩
    have h : k = k' := by omega
    subst h
    refine ⟨h1, fun k' hk ⟨ty, h3, h4⟩ => ?_⟩
    rw [h2 k' ty hk h3] at h4; cases h4
  · rintro ⟨h1, h2⟩
    refine ⟨k, by omega, h1, fun k' ty' hk h3 => ?_⟩
    cases h4 : S.eqI t ty'.2 with
    | false => rfl
    | true => exact (h2 k' hk ⟨ty', h3, h4⟩).elim

theorem firstIdx_none {β : Type} {p : β → Bool} {xs : List β} {b : Nat}
    (h : firstIdx p xs b = none) : ∀ (k : Nat) (x : β), xs[k]? = some x → p x = false := by
  induction xs generalizing b with
  | nil => intro k x hx; simp at hx
  | cons y ys ih =>
    unfold firstIdx at h
    cases hp : p y with
    | true => rw [hp] at h; simp at h
    | false =>
      rw [hp] at h
      simp only [Bool.false_eq_true, if_false] at h
      intro k x hx
      cases k with
      | zero => simp at hx; subst hx; exact hp
      | succ k => exact ih h k x (by simpa using hx)

theorem left_none {types : List (S.I × S.I)} {t : S.I} :
    firstIdx (fun ty => S.eqI t ty.1) types 0 = none ↔ NoLeft S types t := by
  constructor
  · intro h k hk
    rw [firstIdx_left.2 hk] at h; cases h
  · intro h
    cases h' : firstIdx (fun ty => S.eqI t ty.1) types 0 with
    | none => rfl
    | some k => exact (h k (firstIdx_left.1 h')).elim

theorem right_none {types : List (S.I × S.I)} {t : S.I} :
    firstIdx (fun ty => S.eqI t ty.2) types 0 = none ↔ ∀ k, ¬Closes S types t k := by
  constructor
  · intro h k ⟨ty, h1, h2⟩
    rw [firstIdx_none h k ty h1] at h2; cases h2
  · intro h
    cases h' : firstIdx (fun ty => S.eqI t ty.2) types 0 with
    | none => rfl
    | some k => exact (h k (firstIdx_right.1 h').1).elim

variable {types : List (S.I × S.I)}

theorem handle_close {t : S.I} {sp : S.Span} {d : Delim S} {ds : List (Delim S)} {es : List ε.E}
    (h : Closes S types t d.ty) : handleToken ε types t sp (d :: ds) es = .ok (ds, es) := by
  obtain ⟨ty, h1, h2⟩ := h
  unfold handleToken
  simp only [h1, h2, if_true]

theorem handle_not_close {t : S.I} {sp : S.Span} {d : Delim S} {ds : List (Delim S)} {es : List ε.E}
    (hd : d.ty < types.length) (h : ¬Closes S types t d.ty) :
    handleToken ε types t sp (d :: ds) es = handleRest ε types t sp (d :: ds) es := by
  have h1 : types[d.ty]? = some types[d.ty] := List.getElem?_eq_getElem hd
  unfold handleToken
  simp only [h1]
  cases h2 : S.eqI t types[d.ty].2 with
  | false => simp
  | true => exact (h ⟨_, h1, h2⟩).elim

theorem rest_open {t : S.I} {sp : S.Span} {st : List (Delim S)} {es : List ε.E} {k : Nat}
    (h : Opens S types t k) : handleRest ε types t sp st es = .ok (⟨k, t, sp⟩ :: st, es) := by
  unfold handleRest
  rw [firstIdx_left.2 h]

theorem rest_ordinary {t : S.I} {sp : S.Span} {st : List (Delim S)} {es : List ε.E}
    (h : Ordinary S types t) : handleRest ε types t sp st es = .ok (st, es) := by
  unfold handleRest
  rw [left_none.2 h.1]
  dsimp only
  rw [right_none.2 h.2]

theorem Opens.lt {t : S.I} {k : Nat} (h : Opens S types t k) : k < types.length := by
  obtain ⟨⟨ty, h1, _⟩, _⟩ := h
  exact (List.getElem?_eq_some_iff.1 h1).1

theorem scans_more {t : S.I} {st st' : List (Delim S)} {es es' es'' : List ε.E}
    (h1 : e.source i = some t) (h2 : handleToken ε types t (tokenSpan e i) st es = .ok (st', es'))
    (h3 : st' ≠ []) (h4 : Scans e (nestedDelimiters ε types) st' es' (i + 1) es'' j) :
    Scans e (nestedDelimiters ε types) st es i es'' j := by
  refine .more h1 ?_ h4
  show (match handleToken ε types t (tokenSpan e i) st es with
    | .ok (stack', errors') => Except.ok (stack'.isEmpty, stack', errors')
    | .error m => .error m) = _
  rw [h2]
  cases st' with
  | nil => exact (h3 rfl).elim
  | cons _ _ => rfl

theorem scans_stop {t : S.I} {st : List (Delim S)} {es es' : List ε.E}
    (h1 : e.source i = some t) (h2 : handleToken ε types t (tokenSpan e i) st es = .ok ([], es')) :
    Scans e (nestedDelimiters ε types) st es i es' i := by
  refine .stop (st' := ([] : List (Delim S))) h1 ?_
  show (match handleToken ε types t (tokenSpan e i) st es with
    | .ok (stack', errors') => Except.ok (stack'.isEmpty, stack', errors')
    | .error m => .error m) = _
  rw [h2]
  rfl

/-- Balanced text leaves the scanner as it was. -/
theorem scans_inside {k : Nat} {inner : List S.I} (h : Inside S types k inner) :
    ∀ {i j : Nat} {d : Delim S} {ds : List (Delim S)} {es es' : List ε.E}, d.ty = k →
    d.ty < types.length → TextAt e i inner →
    Scans e (nestedDelimiters ε types) (d :: ds) es (i + inner.length) es' j →
    Scans e (nestedDelimiters ε types) (d :: ds) es i es' j := by
  induction h with
  | nil => intro i j d ds es es' _ _ _ h; exact h
  | @ordinary k t ts h1 _ ih =>
    intro i j d ds es es' hk hl ht h
    rw [TextAt.cons] at ht
    have hnc : ¬Closes S types t d.ty := h1.2 _
    refine scans_more ht.1 (by rw [handle_not_close hl hnc, rest_ordinary h1]) (by simp) ?_
    refine ih hk hl ht.2 ?_
    rwa [List.length_cons, show i + (ts.length + 1) = i + 1 + ts.length by omega] at h
  | @group k t k' inner c ts h1 h2 _ h3 _ ih1 ih2 =>
    intro i j d ds es es' hk hl ht h
    rw [TextAt.cons, TextAt.append, TextAt.cons] at ht
    obtain ⟨ht1, ht2, ht3, ht4⟩ := ht
    refine scans_more (st' := ⟨k', t, tokenSpan e i⟩ :: d :: ds) ht1
      (by rw [handle_not_close hl (by rw [hk]; exact h2), rest_open h1]) (by simp) ?_
    refine ih1 (d := ⟨k', t, tokenSpan e i⟩) rfl h1.lt ht2 ?_
    refine scans_more ht3 (handle_close h3) (by simp) ?_
    refine ih2 hk hl ht4 ?_
    rwa [List.length_cons, List.length_append, List.length_cons,
      show i + (inner.length + (ts.length + 1) + 1) = i + 1 + inner.length + 1 + ts.length by omega] at h

/-- Errors are only added. -/
theorem popUntil_extends {r : Nat} {sp : S.Span} {st : List (Delim S)} : ∀ {es : List ε.E},
    es <+: (popUntil ε r sp st es).2.2 := by
  induction st with
  | nil => intro es; exact List.prefix_rfl
  | cons d ds ih =>
    intro es
    unfold popUntil
    split
    · exact List.prefix_rfl
    · exact (List.prefix_append _ _).trans ih

theorem popOne_extends {r : Nat} {t : S.I} {sp : S.Span} {st st' : List (Delim S)} {es es' : List ε.E}
    (h : popOne ε r t sp st es = .ok (st', es')) : es <+: es' ∧ es ≠ es' := by
  unfold popOne at h
  split at h
  · split at h
    · cases h
    · cases h; exact ⟨List.prefix_append _ _, by simp⟩
  · cases h; exact ⟨List.prefix_append _ _, by simp⟩

theorem rest_extends {t : S.I} {sp : S.Span} {st st' : List (Delim S)} {es es' : List ε.E}
    (h : handleRest ε types t sp st es = .ok (st', es')) : es <+: es' := by
  unfold handleRest at h
  split at h
  · cases h; exact List.prefix_rfl
  · split at h
    · split at h
      · split at h
        · next heq =>
          cases h
          have h : (popUntil ε _ sp st es).2.2 = es' := congrArg (fun x => x.2.2) heq
          exact h ▸ popUntil_extends
        · next heq =>
          have h' : (popUntil ε _ sp st es).2.2 = _ := congrArg (fun x => x.2.2) heq
          dsimp only at h'
          exact List.IsPrefix.trans (h' ▸ popUntil_extends) (popOne_extends h).1
      · exact (popOne_extends h).1
    · cases h; exact List.prefix_rfl

theorem handle_extends {t : S.I} {sp : S.Span} {st st' : List (Delim S)} {es es' : List ε.E}
    (h : handleToken ε types t sp st es = .ok (st', es')) : es <+: es' := by
  unfold handleToken at h
  split at h
  · split at h
    · split at h
      · cases h; exact List.prefix_rfl
      · exact rest_extends h
    · cases h
  · exact rest_extends h

/-- Inversion of `Scans`. -/
theorem scans_inv {E : Type} {sc : Scanner S E} {st : sc.σ} {es es' : List E} (h : Scans e sc st es i es' j) :
    (∃ t st', e.source i = some t ∧ sc.scan t (tokenSpan e i) st es = .ok (true, st', es') ∧ j = i) ∨
    (∃ t st' es1, e.source i = some t ∧ sc.scan t (tokenSpan e i) st es = .ok (false, st', es1) ∧
      Scans e sc st' es1 (i + 1) es' j) ∨
    (e.source i = none ∧ es' = sc.eof (specLocation e i) st es ∧ j = i) := by
  cases h with
  | stop h1 h2 => exact .inl ⟨_, _, h1, h2, rfl⟩
  | more h1 h2 h3 => exact .inr (.inl ⟨_, _, _, h1, h2, h3⟩)
  | eof h1 => exact .inr (.inr ⟨h1, rfl, rfl⟩)

/-- The scanner step. -/
theorem scan_ok {t : S.I} {sp : S.Span} {st st' : List (Delim S)} {es es' : List ε.E} {b : Bool}
    (h : (nestedDelimiters ε types).scan t sp st es = .ok (b, st', es')) :
    handleToken ε types t sp st es = .ok (st', es') ∧ b = st'.isEmpty := by
  have h' : (match handleToken ε types t sp st es with
    | .ok (stack', errors') => Except.ok (stack'.isEmpty, stack', errors')
    | .error m => .error m) = Except.ok (b, st', es') := h
  split at h'
  · next heq => cases h'; exact ⟨heq, rfl⟩
  · cases h'

theorem scans_extends {st : (nestedDelimiters ε types).σ} {es es' : List ε.E}
    (h : Scans e (nestedDelimiters ε types) st es i es' j) : es <+: es' ∧ i ≤ j := by
  induction h with
  | stop h1 h2 => exact ⟨handle_extends (scan_ok h2).1, Nat.le_refl _⟩
  | more h1 h2 _ ih => exact ⟨(handle_extends (scan_ok h2).1).trans ih.1, by omega⟩
  | eof h1 => exact ⟨List.prefix_append _ _, Nat.le_refl _⟩

/-- What can happen without an error when a delimiter is open. -/
theorem handle_silent {t : S.I} {sp : S.Span} {d : Delim S} {ds st' : List (Delim S)} {es : List ε.E}
    (h : handleToken ε types t sp (d :: ds) es = .ok (st', es)) :
    (Closes S types t d.ty ∧ st' = ds) ∨
    (¬Closes S types t d.ty ∧ ∃ k, Opens S types t k ∧ st' = ⟨k, t, sp⟩ :: d :: ds) ∨
    (Ordinary S types t ∧ st' = d :: ds) ∨
    (∃ r, ¬Closes S types t d.ty ∧ NoLeft S types t ∧ ClosesFirst S types t r ∧ d.ty = r) := by
  by_cases hc : Closes S types t d.ty
  · rw [handle_close hc] at h; cases h; exact .inl ⟨hc, rfl⟩
  · have hd : d.ty < types.length := by
      unfold handleToken at h
      cases h1 : types[d.ty]? with
      | none => simp [h1] at h
      | some ty => exact (List.getElem?_eq_some_iff.1 h1).1
    rw [handle_not_close hd hc] at h
    unfold handleRest at h
    cases h1 : firstIdx (fun ty => S.eqI t ty.1) types 0 with
    | some k => rw [h1] at h; cases h; exact .inr (.inl ⟨hc, k, firstIdx_left.1 h1, rfl⟩)
    | none =>
      rw [h1] at h
      dsimp only at h
      cases h2 : firstIdx (fun ty => S.eqI t ty.2) types 0 with
      | none =>
        rw [h2] at h; cases h
        exact .inr (.inr (.inl ⟨⟨left_none.1 h1, right_none.1 h2⟩, rfl⟩))
      | some r =>
        rw [h2] at h
        dsimp only at h
        by_cases hr : d.ty = r
        · exact .inr (.inr (.inr ⟨r, hc, left_none.1 h1, firstIdx_right.1 h2, hr⟩))
        · exfalso
          split at h
          · unfold popUntil at h
            rw [if_neg hr] at h
            split at h
            · next heq =>
              cases h
              have := (popUntil_extends (ε := ε) (r := r) (sp := sp) (st := ds)
                (es := es ++ [ε.unmatchedLeft d.left d.span (.span sp)])).length_le
              rw [heq] at this
              simp at this
              omega
            · next heq =>
              have h5 := (popUntil_extends (ε := ε) (r := r) (sp := sp) (st := ds)
                (es := es ++ [ε.unmatchedLeft d.left d.span (.span sp)])).length_le
              rw [heq] at h5
              have h6 := (popOne_extends h).1.length_le
              simp at h5
              omega
          · exact (popOne_extends h).2 rfl

/-- Text that closes the delimiters of the given types, up to but without the last closing
token. -/
inductive Unwinds (S : Sig) (types : List (S.I × S.I)) : List Nat → List S.I → S.I → Prop
  | last {k inner c} : Inside S types k inner → Closes S types c k → Unwinds S types [k] inner c
  | next {k ks inner c ts c'} : Inside S types k inner → Closes S types c k → Unwinds S types ks ts c' →
      Unwinds S types (k :: ks) (inner ++ c :: ts) c'

theorem Unwinds.ordinary {k : Nat} {ks : List Nat} {t c : S.I} {ts : List S.I} (ht : Ordinary S types t)
    (h : Unwinds S types (k :: ks) ts c) : Unwinds S types (k :: ks) (t :: ts) c := by
  cases h with
  | last h1 h2 => exact .last (.ordinary ht h1) h2
  | next h1 h2 h3 => exact .next (inner := t :: _) (.ordinary ht h1) h2 h3

theorem Unwinds.opens {k k' : Nat} {ks : List Nat} {t c : S.I} {ts : List S.I} (h1 : Opens S types t k')
    (h2 : ¬Closes S types t k) (h : Unwinds S types (k' :: k :: ks) ts c) :
    Unwinds S types (k :: ks) (t :: ts) c := by
  cases h with
  | @next _ _ inner c1 ts' _ h3 h4 h5 =>
    cases h5 with
    | last h6 h7 => exact .last (.group h1 h2 h3 h4 h6) h7
    | @next _ _ inner2 c2 ts2 _ h6 h7 h8 =>
      have := Unwinds.next (.group h1 h2 h3 h4 h6) h7 h8
      simpa using this

theorem scans_silent {st : (nestedDelimiters ε types).σ} {es es' : List ε.E}
    (h : Scans e (nestedDelimiters ε types) st es i es' j) : es' = es → st ≠ ([] : List (Delim S)) →
    ∃ ts c, Unwinds S types (List.map Delim.ty st) ts c ∧ TextAt e i (ts ++ [c]) ∧ j = i + ts.length := by
  have key : ∀ {t : S.I} {i : Nat} {st : List (Delim S)} {es es' : List ε.E} {b : Bool} {st' : List (Delim S)},
      (nestedDelimiters ε types).scan t (tokenSpan e i) st es = .ok (b, st', es') → es' = es → st ≠ [] →
      ∃ d ds, st = d :: ds ∧ b = st'.isEmpty ∧ ((Closes S types t d.ty ∧ st' = ds) ∨
        (¬Closes S types t d.ty ∧ ∃ k, Opens S types t k ∧ st' = ⟨k, t, tokenSpan e i⟩ :: d :: ds) ∨
        (Ordinary S types t ∧ st' = d :: ds)) := by
    intro t i st es es' b st' h1 h2 h3
    subst h2
    obtain ⟨h4, h5⟩ := scan_ok h1
    cases st with
    | nil => exact (h3 rfl).elim
    | cons d ds =>
      refine ⟨d, ds, rfl, h5, ?_⟩
      rcases handle_silent h4 with h6 | h6 | h6 | ⟨r, h6, _, h7, h8⟩
      · exact .inl h6
      · exact .inr (.inl h6)
      · exact .inr (.inr h6)
      · subst h8; exact (h6 h7.1).elim
  induction h with
  | @stop st st' es es' i t h1 h2 =>
    intro hes hst
    obtain ⟨d, ds, rfl, h3, h4⟩ := key h2 hes hst
    have h3' : st' = [] := by simpa using h3.symm
    subst h3'
    rcases h4 with ⟨h5, h6⟩ | ⟨_, k, _, h6⟩ | ⟨_, h6⟩
    · subst h6
      exact ⟨[], t, .last .nil h5, TextAt.cons.2 ⟨h1, TextAt.nil⟩, rfl⟩
    · cases h6
    · cases h6
  | @more st st' es es' es'' i j t h1 h2 h3 ih =>
    intro hes hst
    subst hes
    have h4 := (scans_extends h3).1
    have h5 := handle_extends (scan_ok h2).1
    have hes : es' = es'' := by
      have h6 := h4.length_le
      have h7 := h5.length_le
      exact h4.eq_of_length (by omega)
    subst hes
    obtain ⟨d, ds, rfl, h6, h7⟩ := key h2 rfl hst
    rcases h7 with ⟨h8, h9⟩ | ⟨h8, k, h9, h10⟩ | ⟨h8, h9⟩
    · subst h9
      have hne : st' ≠ [] := by intro h; subst h; simp at h6
      obtain ⟨ts, c, h10, h11, h12⟩ := ih rfl hne
      refine ⟨t :: ts, c, ?_, TextAt.cons.2 ⟨h1, h11⟩, by simp; omega⟩
      exact .next (inner := []) .nil h8 h10
    · subst h10
      obtain ⟨ts, c, h10, h11, h12⟩ := ih rfl (by simp)
      refine ⟨t :: ts, c, .opens h9 h8 h10, TextAt.cons.2 ⟨h1, h11⟩, by simp; omega⟩
    · subst h9
      obtain ⟨ts, c, h10, h11, h12⟩ := ih rfl (by simp)
      exact ⟨t :: ts, c, .ordinary h8 h10, TextAt.cons.2 ⟨h1, h11⟩, by simp; omega⟩
  | @eof st es i h1 =>
    intro hes hst
    exfalso
    have := congrArg List.length hes
    cases st with
    | nil => exact hst rfl
    | cons d ds => simp at this

/-- The stack of the scanner for the delimiters in `ds`. -/
def stackOf (e : Env S) (ds : List (OpenDelim S)) : List (Delim S) :=
  ds.map fun d => ⟨d.ty, d.tok, tokenSpan e d.pos⟩

theorem Pending.ne_nil {ts : List S.I} {ds : List (OpenDelim S)} (h : Pending S types i ts ds) : ds ≠ [] := by
  cases h <;> simp

theorem Pending.lt {ts : List S.I} {ds : List (OpenDelim S)} (h : Pending S types i ts ds) :
    ∀ d ∈ ds, d.ty < types.length := by
  induction h with
  | start h => intro d hd; simp at hd; subst hd; exact h.lt
  | text _ _ ih => exact ih
  | open_ _ _ h ih =>
    intro d hd
    rcases List.mem_cons.1 hd with rfl | hd
    · exact h.lt
    · exact ih d hd

/-- Text that leaves delimiters open leaves them on the stack. -/
theorem scans_pending {ts : List S.I} {ds : List (OpenDelim S)} (h : Pending S types i ts ds) :
    ∀ {es es' : List ε.E}, TextAt e i ts →
    Scans e (nestedDelimiters ε types) (stackOf e ds) es (i + ts.length) es' j →
    Scans e (nestedDelimiters ε types) [] es i es' j := by
  induction h with
  | start h =>
    intro es es' ht hs
    rw [TextAt.cons] at ht
    exact scans_more (st' := stackOf e [⟨_, _, i⟩]) ht.1 (by unfold handleToken; rw [rest_open h]; rfl) (by simp [stackOf]) hs
  | @text ts d ds inner h1 h2 ih =>
    intro es es' ht hs
    rw [TextAt.append] at ht
    refine ih ht.1 ?_
    refine scans_inside (d := ⟨d.ty, d.tok, tokenSpan e d.pos⟩) (ds := stackOf e ds) h2 rfl
      (h1.lt d (by simp)) ht.2 ?_
    rwa [List.length_append, ← Nat.add_assoc] at hs
  | @open_ ts d ds t k h1 h2 h3 ih =>
    intro es es' ht hs
    rw [TextAt.append, TextAt.cons] at ht
    refine ih ht.1 ?_
    refine scans_more (es' := es) (st' := stackOf e (⟨k, t, i + ts.length⟩ :: d :: ds)) ht.2.1 ?_ (by simp [stackOf]) ?_
    · show handleToken ε types t _ (⟨d.ty, d.tok, tokenSpan e d.pos⟩ :: stackOf e ds) es = _
      rw [handle_not_close (h1.lt d (by simp)) h2, rest_open h3]
      rfl
    · rwa [List.length_append, List.length_singleton, ← Nat.add_assoc] at hs

theorem popUntil_at {r : Nat} {sp : S.Span} {d : Delim S} {below : List (Delim S)} (hd : d.ty = r) :
    ∀ {above : List (Delim S)} {es : List ε.E}, (∀ x ∈ above, x.ty ≠ r) →
    popUntil ε r sp (above ++ d :: below) es =
      (true, below, es ++ above.map fun x => ε.unmatchedLeft x.left x.span (.span sp)) := by
  intro above
  induction above with
  | nil => intro es _; simp [popUntil, hd]
  | cons x xs ih =>
    intro es hx
    rw [List.cons_append]
    unfold popUntil
    rw [if_neg (hx x (by simp)), ih (fun y hy => hx y (by simp [hy]))]
    simp

/-! ## C30 -/

/-- `scan(nested_delimiters(types)).and_return(v)`. -/
def scanDelims (S : Sig) {N : Names S} (ε : ErrTy S) (types : List (S.I × S.I)) {α : Type} (v : α) :
    CS S N ε α :=
  .ret (.scan .attemptTo (nestedDelimiters ε types)) v

theorem scanDelims_iff (hi : Valid e i) (hr : Rewinds e D n g true i) {x : Nat} {es₀ : List ε.E} {v : α}
    (hf : ParsesAt e D n g true i (.failed x es₀) i) {es : List ε.E} {w : α} :
    ParsesAt e D n (.toRecover g (scanDelims S ε types v)) true i (.recovered w es) j ↔
      w = v ∧ j < i + n ∧ Scans e (nestedDelimiters ε types) [] es₀ i es j := by
  rw [parsesAt_iff hi, toRecover_failed hi ((parsesAt_iff hi).1 hf)]
  constructor
  · rintro ⟨_, oo, y, (⟨u, rfl, ⟨u', h0, ⟨h1, _⟩⟩ | ⟨z, _, h1, _⟩⟩ |
      ⟨z, ⟨u', h1, _⟩ | ⟨z', ⟨_, rfl⟩, _, es1, k, h1, h2, rfl⟩, rfl, rfl⟩), h3⟩
    · cases h1
    · cases h1
    · cases h1
    · rcases h3 with ⟨u, h3, h4, rfl⟩ | ⟨h3, _⟩
      · cases h3; cases h4; exact ⟨rfl, h2, h1⟩
      · cases h3
  · rintro ⟨rfl, h1, h2⟩
    exact ⟨(runs_failed_pos hi hr hf).2, some w, ⟨x, es, j⟩,
      .inr ⟨_, .inr ⟨_, ⟨rfl, rfl⟩, rfl, es, j, h2, h1, rfl⟩, rfl, rfl⟩, .inl ⟨w, rfl, rfl, rfl⟩⟩

/-- C30: started at a left delimiter of type `k`, the scan ends at `j` without reporting an error
exactly if the text after the left delimiter, up to before `j`, is balanced, and the token at `j`
closes `k`: the scan stops just before the matching right delimiter. -/
theorem C30_balanced (hi : Valid e i) (hr : Rewinds e D n g true i) {x : Nat} {es₀ : List ε.E} {v : α}
    (hf : ParsesAt e D n g true i (.failed x es₀) i) {t : S.I} {k : Nat}
    (ht : e.source i = some t) (hk : Opens S types t k) :
    ParsesAt e D n (.toRecover g (scanDelims S ε types v)) true i (.recovered v es₀) j ↔
      j < i + n ∧ ∃ inner c, TextAt e i (t :: inner ++ [c]) ∧ Inside S types k inner ∧
        Closes S types c k ∧ j = i + 1 + inner.length := by
  rw [scanDelims_iff hi hr hf]
  have hopen : ∀ es : List ε.E, handleToken ε types t (tokenSpan e i) [] es =
      .ok ([⟨k, t, tokenSpan e i⟩], es) := by
    intro es; unfold handleToken; rw [rest_open hk]
  constructor
  · rintro ⟨_, h1, h2⟩
    refine ⟨h1, ?_⟩
    rcases scans_inv h2 with ⟨t', st', h3, h4, _⟩ | ⟨t', st', es1, h3, h4, h5⟩ | ⟨h3, _⟩
    · exfalso
      rw [ht] at h3; cases h3
      obtain ⟨h5, h6⟩ := scan_ok h4
      rw [hopen] at h5
      cases h5
      simp at h6
    · rw [ht] at h3; cases h3
      obtain ⟨h6, h7⟩ := scan_ok h4
      rw [hopen] at h6
      cases h6
      obtain ⟨ts, c, h8, h9, h10⟩ := scans_silent h5 rfl (by simp)
      cases h8 with
      | last h11 h12 =>
        exact ⟨ts, c, by rw [List.cons_append]; exact TextAt.cons.2 ⟨ht, h9⟩, h11, h12, h10⟩
      | next _ _ h13 => cases h13
    · rw [ht] at h3; cases h3
  · rintro ⟨h1, inner, c, h2, h3, h4, rfl⟩
    refine ⟨rfl, h1, ?_⟩
    rw [List.cons_append, TextAt.cons, TextAt.append, TextAt.cons] at h2
    refine scans_more ht (hopen es₀) (by simp) ?_
    refine scans_inside (d := ⟨k, t, tokenSpan e i⟩) h3 rfl hk.lt h2.2.1 ?_
    exact scans_stop h2.2.2.1 (handle_close h4)

/-- C30: at the end of input, the left delimiters that are still open are reported, innermost
first, with their own position and the end of input; nothing else is reported. -/
theorem C30_unclosed (hi : Valid e i) (hr : Rewinds e D n g true i) {x : Nat} {es₀ : List ε.E} {v : α}
    (hf : ParsesAt e D n g true i (.failed x es₀) i) {ts : List S.I} {ds : List (OpenDelim S)}
    (ht : TextAt e i ts) (heof : e.source (i + ts.length) = none) (hp : Pending S types i ts ds)
    (hn : ts.length < n) :
    ParsesAt e D n (.toRecover g (scanDelims S ε types v)) true i
      (.recovered v (es₀ ++ ds.map fun d => ε.unmatchedLeft d.tok (tokenSpan e d.pos)
        (.location (specLocation e (i + ts.length))))) (i + ts.length) := by
  rw [scanDelims_iff hi hr hf]
  refine ⟨rfl, by omega, scans_pending hp ht ?_⟩
  have := Scans.eof (sc := nestedDelimiters ε types) (st := stackOf e ds) (es := es₀) heof
  simpa [stackOf, Function.comp_def] using this

/-- C30: a right delimiter that does not close the innermost open delimiter but closes one further
out closes that one, and the left delimiters in between are reported, innermost first, with the
position of the right delimiter. If it closes the outermost one, the scan stops there. -/
theorem C30_closes_outer (hi : Valid e i) (hr : Rewinds e D n g true i) {x : Nat} {es₀ : List ε.E} {v : α}
    (hf : ParsesAt e D n g true i (.failed x es₀) i) {ts : List S.I} {d d' : OpenDelim S}
    {ds : List (OpenDelim S)} {c : S.I}
    (ht : TextAt e i (ts ++ [c])) (hp : Pending S types i ts (d :: ds ++ [d']))
    (hc : ¬Closes S types c d.ty) (hl : NoLeft S types c) (hr' : ClosesFirst S types c d'.ty)
    (hds : ∀ z ∈ d :: ds, z.ty ≠ d'.ty) (hn : ts.length < n) :
    ParsesAt e D n (.toRecover g (scanDelims S ε types v)) true i
      (.recovered v (es₀ ++ (d :: ds).map fun z => ε.unmatchedLeft z.tok (tokenSpan e z.pos)
        (.span (tokenSpan e (i + ts.length))))) (i + ts.length) := by
  rw [scanDelims_iff hi hr hf]
  rw [TextAt.append, TextAt.cons] at ht
  refine ⟨rfl, by omega, scans_pending hp ht.1 ?_⟩
  refine scans_stop ht.2.1 ?_
  show handleToken ε types c _ (⟨d.ty, d.tok, tokenSpan e d.pos⟩ :: stackOf e (ds ++ [d'])) es₀ = _
  rw [handle_not_close (hp.lt d (by simp)) hc]
  unfold handleRest
  rw [left_none.2 hl]
  dsimp only
  rw [firstIdx_right.2 hr']
  dsimp only
  have hst : (⟨d.ty, d.tok, tokenSpan e d.pos⟩ :: stackOf e (ds ++ [d']) : List (Delim S)) =
      stackOf e (d :: ds) ++ ⟨d'.ty, d'.tok, tokenSpan e d'.pos⟩ :: [] := by simp [stackOf]
  rw [hst, if_pos (by simp), popUntil_at (r := d'.ty) rfl (by
    intro z hz
    simp only [stackOf, List.mem_map] at hz
    obtain ⟨y, hy, rfl⟩ := hz
    exact hds y hy)]
  simp [stackOf, Function.comp_def]

/-- C30: a right delimiter of a type that is not open closes the innermost delimiter and is
reported as a mismatch with it. -/
theorem C30_wrong_type (hi : Valid e i) (hr : Rewinds e D n g true i) {x : Nat} {es₀ : List ε.E} {v : α}
    (hf : ParsesAt e D n g true i (.failed x es₀) i) {t c : S.I} {inner : List S.I} {k r : Nat}
    (ht : TextAt e i (t :: inner ++ [c])) (hk : Opens S types t k) (hin : Inside S types k inner)
    (hc : ¬Closes S types c k) (hl : NoLeft S types c) (hr' : ClosesFirst S types c r)
    (hn : inner.length + 1 < n) :
    ParsesAt e D n (.toRecover g (scanDelims S ε types v)) true i
      (.recovered v (es₀ ++ [ε.unmatchedType t (tokenSpan e i) c (tokenSpan e (i + 1 + inner.length))]))
      (i + 1 + inner.length) := by
  rw [scanDelims_iff hi hr hf]
  have hp : Pending S types i ([t] ++ inner) [⟨k, t, i⟩] := .text (.start hk) hin
  have ht' : TextAt e i ([t] ++ inner ++ [c]) := ht
  rw [TextAt.append, TextAt.cons] at ht'
  refine ⟨rfl, by omega, scans_pending hp ht'.1 ?_⟩
  have hlen : i + ([t] ++ inner).length = i + 1 + inner.length := by simp; omega
  rw [hlen] at ht' ⊢
  have hkr : k ≠ r := by intro h; subst h; exact hc hr'.1
  refine scans_stop ht'.2.1 ?_
  show handleToken ε types c _ [⟨k, t, tokenSpan e i⟩] es₀ = _
  rw [handle_not_close hk.lt hc]
  unfold handleRest
  rw [left_none.2 hl]
  dsimp only
  rw [firstIdx_right.2 hr']
  dsimp only
  rw [if_neg (by simp [hkr])]
  simp [popOne, hkr]

/-- C30: if the first token is no delimiter, or there is none, the scan does not move and reports
nothing. -/
theorem C30_not_at_delimiter (hi : Valid e i) (hr : Rewinds e D n g true i) {x : Nat} {es₀ : List ε.E} {v : α}
    (hf : ParsesAt e D n g true i (.failed x es₀) i)
    (ht : ∀ t, e.source i = some t → Ordinary S types t) (hn : 0 < n) :
    ParsesAt e D n (.toRecover g (scanDelims S ε types v)) true i (.recovered v es₀) i := by
  rw [scanDelims_iff hi hr hf]
  refine ⟨rfl, by omega, ?_⟩
  cases hs : e.source i with
  | none =>
    have := Scans.eof (sc := nestedDelimiters ε types) (st := ([] : List (Delim S))) (es := es₀) hs
    simpa using this
  | some t =>
    refine scans_stop hs ?_
    unfold handleToken
    rw [rest_ordinary (ht t hs)]

/-- C30, documented but false: "If the first token is not a left delimiter, the parser state is
left unchanged and no errors will be generated". A right delimiter in first position is reported. -/
theorem C30_first_right_reported : ∃ (types : List (Nat × Nat)) (xs : List Nat),
    NoLeft exSig types 4 ∧ xs.head? = some 4 ∧
    ParsesAt (exEnv xs) exNoDefs 20
      (.toRecover (.just 1) (scanDelims exSig (simpleErr exSig) types 9) : ExG Nat) true 0
      (.recovered 9 [.expectedFound [some 1] (some 4) (.span (0, 1)), .unmatchedRight 4 (0, 1) .none]) 0 := by
  refine ⟨[(3, 4)], [4], ?_, rfl, exParsesAt (by decide +kernel)⟩
  rintro k ⟨⟨ty, h1, h2⟩, _⟩
  match k, h1 with
  | 0, h1 => simp at h1; subst h1; exact absurd h2 (by decide)
  | k + 1, h1 => simp at h1

/-- Concrete cases, with delimiters `3 4` and `5 6`: `3 0 5 0 6 4` is balanced; in `3 5` both are
open at the end; in `3 5 4` the `5` is not closed; in `3 6` the types do not match. -/
example :
    let p : ExG Nat := .toRecover (.just 1) (scanDelims exSig (simpleErr exSig) [(3, 4), (5, 6)] 9)
    let f : (simpleErr exSig).E := .expectedFound [some 1] (some 3) (.span (0, 1))
    ParsesAt (exEnv [3, 0, 5, 0, 6, 4, 7]) exNoDefs 20 p true 0 (.recovered 9 [f]) 5 ∧
    ParsesAt (exEnv [3, 5]) exNoDefs 20 p true 0 (.recovered 9 [f,
      .unmatchedLeft 5 (1, 2) (.location 2), .unmatchedLeft 3 (0, 1) (.location 2)]) 2 ∧
    ParsesAt (exEnv [3, 5, 4]) exNoDefs 20 p true 0 (.recovered 9 [f,
      .unmatchedLeft 5 (1, 2) (.span (2, 3))]) 2 ∧
    ParsesAt (exEnv [3, 6]) exNoDefs 20 p true 0 (.recovered 9 [f,
      .unmatchedType 3 (0, 1) 6 (1, 2)]) 1 ∧
    ParsesAt (exEnv [0]) exNoDefs 20 p true 0 (.recovered 9
      [.expectedFound [some 1] (some 0) (.span (0, 1))]) 0 :=
  ⟨exParsesAt (by decide +kernel), exParsesAt (by decide +kernel), exParsesAt (by decide +kernel),
   exParsesAt (by decide +kernel), exParsesAt (by decide +kernel)⟩

/-- The hypotheses of `C30_balanced` hold for `3 0 5 0 6 4`. -/
example : Opens exSig [(3, 4), (5, 6)] 3 0 ∧ Inside exSig [(3, 4), (5, 6)] 0 [0, 5, 0, 6] ∧
    Closes exSig [(3, 4), (5, 6)] 4 0 ∧
    Pending exSig [(3, 4), (5, 6)] 0 [3, 5] [⟨1, 5, 1⟩, ⟨0, 3, 0⟩] := by
  have o3 : Opens exSig [(3, 4), (5, 6)] 3 0 := firstIdx_left.1 (by decide)
  have o5 : Opens exSig [(3, 4), (5, 6)] 5 1 := firstIdx_left.1 (by decide)
  have n0 : Ordinary exSig [(3, 4), (5, 6)] 0 := ⟨left_none.1 (by decide), right_none.1 (by decide)⟩
  have c6 : Closes exSig [(3, 4), (5, 6)] 6 1 := (firstIdx_right.1 (by decide)).1
  have c4 : Closes exSig [(3, 4), (5, 6)] 4 0 := (firstIdx_right.1 (by decide)).1
  have nc : ¬Closes exSig [(3, 4), (5, 6)] 5 0 := by
    rintro ⟨ty, h1, h2⟩
    simp at h1; subst h1; exact absurd h2 (by decide)
  exact ⟨o3, .ordinary n0 (.group (S := exSig) (inner := [0]) o5 nc (.ordinary n0 .nil) c6 .nil), c4,
    .open_ (.start o3) nc o5⟩

end PPC
