import Verif.SpecPeg

/-!
# The rules of parsing expressions, one constructor at a time
-/

namespace PPC

variable {S : Sig} {N : Names S} {e : Env S} {D : Defs S N}

/-- What the rules say about when a parser accepts, by its outermost constructor. -/
def StepA (e : Env S) (D : Defs S N) :
    {ε : ErrTy S} → {α : Type} → G S N ε α → Nat → α → Nat → Prop
  | _, _, .empty, i, _, j => j = i
  | _, _, .none _, i, o, j => o = Option.none ∧ j = i
  | _, _, .eof, i, _, j => e.source i = Option.none ∧ j = i
  | _, _, .just x, i, o, j => (∃ t, e.source i = Option.some t ∧ S.eqI t x = true) ∧ o = x ∧ j = i + 1
  | _, _, .filter p, i, o, j => e.source i = Option.some o ∧ p o = true ∧ j = i + 1
  | _, _, .filterMap f, i, o, j => ∃ t, e.source i = Option.some t ∧ f t = Option.some o ∧ j = i + 1
  | _, _, .seq v items, i, o, j =>
    (∀ k x, items[k]? = Option.some x → ∃ t, e.source (i + k) = Option.some t ∧ S.eqI t x = true) ∧ o = v ∧
      j = i + items.length
  | _, _, .oneOf items, i, o, j =>
    e.source i = Option.some o ∧ (∃ x, x ∈ items ∧ S.eqI o x = true) ∧ j = i + 1
  | _, _, .noneOf items, i, o, j =>
    e.source i = Option.some o ∧ (∀ x, x ∈ items → S.eqI o x = false) ∧ j = i + 1
  | _, _, .boxed g, i, o, j => Accepts e D g i o j
  | _, _, .withError g, i, o, j => Accepts e D g i o j
  | _, _, .to g v, i, o, j => (∃ a, Accepts e D g i a j) ∧ o = v
  | _, _, .some g, i, o, j => ∃ a, Accepts e D g i a j ∧ o = Option.some a
  | _, _, .map f g, i, o, j => ∃ a, Accepts e D g i a j ∧ o = f a
  | _, _, .mapWithSpan f g, i, o, j => ∃ a, Accepts e D g i a j ∧ o = f a (e.spanOf i j)
  | _, _, .mapErr _ g, i, o, j => Accepts e D g i o j
  | _, _, .mapErrWithSpan _ g, i, o, j => Accepts e D g i o j
  | _, _, .tryMap f g, i, o, j => ∃ a, Accepts e D g i a j ∧ f a (e.spanOf i j) = .ok o
  | _, _, .then_ a b, i, o, j => ∃ k, Accepts e D a i o.1 k ∧ Accepts e D b k o.2 j
  | _, _, .thenIgnore a b, i, o, j => ∃ k y, Accepts e D a i o k ∧ Accepts e D b k y j
  | _, _, .ignoreThen a b, i, o, j => ∃ k x, Accepts e D a i x k ∧ Accepts e D b k o j
  | _, _, .delimitedBy l m r, i, o, j =>
    ∃ k h x z, Accepts e D l i x k ∧ Accepts e D m k o h ∧ Accepts e D r h z j
  | _, _, .paddedBy p m, i, o, j =>
    ∃ k h x z, Accepts e D p i x k ∧ Accepts e D m k o h ∧ Accepts e D p h z j
  | _, _, .chain gs, i, o, j => AcceptsAll e D gs i o j
  | _, _, .or a b, i, o, j => Accepts e D a i o j ∨ Rejects e D a i ∧ Accepts e D b i o j
  | _, _, .orNot g, i, o, j =>
    (∃ a, o = Option.some a ∧ Accepts e D g i a j) ∨ o = Option.none ∧ j = i ∧ Rejects e D g i
  | _, _, .alters gs, i, o, j => AcceptsFirst e D gs i o j
  | _, _, .repeated (α := α) (ε := ε) c g, i, o, j =>
    AcceptsItems e D c g (Option.none : Option (G S N ε α)) 0 i o j
  | _, _, .separatedBy c g sep, i, o, j => AcceptsItems e D c g (Option.some sep) 0 i o j
  | _, _, .toRecover g _, i, o, j => Accepts e D g i o j
  | _, _, .call k, i, o, j => ∃ g, D k = Option.some g ∧ Accepts e D g i o j

theorem accepts_iff {ε : ErrTy S} {α : Type} {g : G S N ε α} {i : Nat} {o : α} {j : Nat} :
    Accepts e D g i o j ↔ StepA e D g i o j := by
  constructor
  · intro h
    cases h with
    | empty => rfl
    | none => exact ⟨rfl, rfl⟩
    | eof h => exact ⟨h, rfl⟩
    | just h h' => exact ⟨⟨_, h, h'⟩, rfl, rfl⟩
    | filter h h' => exact ⟨h, h', rfl⟩
    | filterMap h h' => exact ⟨_, h, h', rfl⟩
    | seq h => exact ⟨h, rfl, rfl⟩
    | oneOf h h' h'' => exact ⟨h, ⟨_, h', h''⟩, rfl⟩
    | noneOf h h' => exact ⟨h, h', rfl⟩
    | boxed h => exact h
    | withError h => exact h
    | to h => exact ⟨⟨_, h⟩, rfl⟩
    | some h => exact ⟨_, h, rfl⟩
    | map h => exact ⟨_, h, rfl⟩
    | mapWithSpan h => exact ⟨_, h, rfl⟩
    | mapErr h => exact h
    | mapErrWithSpan h => exact h
    | tryMap h h' => exact ⟨_, h, h'⟩
    | then_ h h' => exact ⟨_, h, h'⟩
    | thenIgnore h h' => exact ⟨_, _, h, h'⟩
    | ignoreThen h h' => exact ⟨_, _, h, h'⟩
    | delimitedBy h h' h'' => exact ⟨_, _, _, _, h, h', h''⟩
    | paddedBy h h' h'' => exact ⟨_, _, _, _, h, h', h''⟩
    | chain h => exact h
    | orLeft h => exact .inl h
    | orRight h h' => exact .inr ⟨h, h'⟩
    | orNotSome h => exact .inl ⟨_, rfl, h⟩
    | orNotNone h => exact .inr ⟨rfl, rfl, h⟩
    | alters h => exact h
    | repeated h => exact h
    | separatedBy h => exact h
    | toRecover h => exact h
    | call hk h => exact ⟨_, hk, h⟩
  · intro h
    cases g with
    | empty => cases h; exact .empty
    | none => obtain ⟨rfl, rfl⟩ := h; exact .none
    | eof => obtain ⟨h, rfl⟩ := h; exact .eof h
    | just x => obtain ⟨⟨t, h, h'⟩, rfl, rfl⟩ := h; exact .just h h'
    | filter p => obtain ⟨h, h', rfl⟩ := h; exact .filter h h'
    | filterMap f => obtain ⟨t, h, h', rfl⟩ := h; exact .filterMap h h'
    | seq v items => obtain ⟨h, rfl, rfl⟩ := h; exact .seq h
    | oneOf items => obtain ⟨h, ⟨x, h', h''⟩, rfl⟩ := h; exact .oneOf h h' h''
    | noneOf items => obtain ⟨h, h', rfl⟩ := h; exact .noneOf h h'
    | boxed g => exact .boxed h
    | withError g => exact .withError h
    | to g v => obtain ⟨⟨a, h⟩, rfl⟩ := h; exact .to h
    | some g => obtain ⟨a, h, rfl⟩ := h; exact .some h
    | map f g => obtain ⟨a, h, rfl⟩ := h; exact .map h
    | mapWithSpan f g => obtain ⟨a, h, rfl⟩ := h; exact .mapWithSpan h
    | mapErr f g => exact .mapErr h
    | mapErrWithSpan f g => exact .mapErrWithSpan h
    | tryMap f g => obtain ⟨a, h, h'⟩ := h; exact .tryMap h h'
    | then_ a b => obtain ⟨k, h, h'⟩ := h; exact .then_ h h'
    | thenIgnore a b => obtain ⟨k, y, h, h'⟩ := h; exact .thenIgnore h h'
    | ignoreThen a b => obtain ⟨k, y, h, h'⟩ := h; exact .ignoreThen h h'
    | delimitedBy l m r => obtain ⟨_, _, _, _, h, h', h''⟩ := h; exact .delimitedBy h h' h''
    | paddedBy p m => obtain ⟨_, _, _, _, h, h', h''⟩ := h; exact .paddedBy h h' h''
    | chain gs => exact .chain h
    | or a b =>
      rcases h with h | ⟨h, h'⟩
      · exact .orLeft h
      · exact .orRight h h'
    | orNot g =>
      rcases h with ⟨a, rfl, h⟩ | ⟨rfl, rfl, h⟩
      · exact .orNotSome h
      · exact .orNotNone h
    | alters gs => exact .alters h
    | repeated c g => exact .repeated h
    | separatedBy c g sep => exact .separatedBy h
    | toRecover g st => exact .toRecover h
    | call k => obtain ⟨g, hk, h⟩ := h; exact .call hk h

/-- What the rules say about when a parser rejects, by its outermost constructor. -/
def StepR (e : Env S) (D : Defs S N) : {ε : ErrTy S} → {α : Type} → G S N ε α → Nat → Prop
  | _, _, .empty, _ => False
  | _, _, .none _, _ => False
  | _, _, .eof, i => ∃ t, e.source i = Option.some t
  | _, _, .just x, i => ∀ t, e.source i = Option.some t → S.eqI t x = false
  | _, _, .filter p, i => ∀ t, e.source i = Option.some t → p t = false
  | _, _, .filterMap f, i => ∀ t, e.source i = Option.some t → f t = Option.none
  | _, _, .seq _ items, i =>
    ∃ k x, items[k]? = Option.some x ∧ ∀ t, e.source (i + k) = Option.some t → S.eqI t x = false
  | _, _, .oneOf items, i => ∀ t, e.source i = Option.some t → ∀ x, x ∈ items → S.eqI t x = false
  | _, _, .noneOf items, i => ∀ t, e.source i = Option.some t → ∃ x, x ∈ items ∧ S.eqI t x = true
  | _, _, .boxed g, i => Rejects e D g i
  | _, _, .withError g, i => Rejects e D g i
  | _, _, .to g _, i => Rejects e D g i
  | _, _, .some g, i => Rejects e D g i
  | _, _, .map _ g, i => Rejects e D g i
  | _, _, .mapWithSpan _ g, i => Rejects e D g i
  | _, _, .mapErr _ g, i => Rejects e D g i
  | _, _, .mapErrWithSpan _ g, i => Rejects e D g i
  | _, _, .tryMap f g, i => Rejects e D g i ∨ (∃ a j es, Accepts e D g i a j ∧ f a (e.spanOf i j) = .err es) ∨
      ∃ a j o es, Accepts e D g i a j ∧ f a (e.spanOf i j) = .recovered o es
  | _, _, .then_ a b, i => Rejects e D a i ∨ ∃ x j, Accepts e D a i x j ∧ Rejects e D b j
  | _, _, .thenIgnore a b, i => Rejects e D a i ∨ ∃ x j, Accepts e D a i x j ∧ Rejects e D b j
  | _, _, .ignoreThen a b, i => Rejects e D a i ∨ ∃ x j, Accepts e D a i x j ∧ Rejects e D b j
  | _, _, .delimitedBy l m r, i => Rejects e D l i ∨ (∃ x j, Accepts e D l i x j ∧ Rejects e D m j) ∨
      ∃ x j y k, Accepts e D l i x j ∧ Accepts e D m j y k ∧ Rejects e D r k
  | _, _, .paddedBy p m, i => Rejects e D p i ∨ (∃ x j, Accepts e D p i x j ∧ Rejects e D m j) ∨
      ∃ x j y k, Accepts e D p i x j ∧ Accepts e D m j y k ∧ Rejects e D p k
  | _, _, .chain gs, i => RejectsSome e D gs i
  | _, _, .or a b, i => Rejects e D a i ∧ Rejects e D b i
  | _, _, .orNot _, _ => False
  | _, _, .alters gs, i => RejectsAll e D gs i
  | _, _, .repeated (α := α) (ε := ε) c g, i => RejectsItems e D c g (Option.none : Option (G S N ε α)) 0 i
  | _, _, .separatedBy c g sep, i => RejectsItems e D c g (Option.some sep) 0 i
  | _, _, .toRecover g _, i => Rejects e D g i
  | _, _, .call k, i => ∃ g, D k = Option.some g ∧ Rejects e D g i

theorem rejects_iff {ε : ErrTy S} {α : Type} {g : G S N ε α} {i : Nat} :
    Rejects e D g i ↔ StepR e D g i := by
  constructor
  · intro h
    cases h with
    | eof h => exact ⟨_, h⟩
    | just h => exact h
    | filter h => exact h
    | filterMap h => exact h
    | seq h h' => exact ⟨_, _, h, h'⟩
    | oneOf h => exact h
    | noneOf h => exact h
    | boxed h => exact h
    | withError h => exact h
    | to h => exact h
    | some h => exact h
    | map h => exact h
    | mapWithSpan h => exact h
    | mapErr h => exact h
    | mapErrWithSpan h => exact h
    | tryMap h => exact .inl h
    | tryMapErr h h' => exact .inr (.inl ⟨_, _, _, h, h'⟩)
    | tryMapRecovered h h' => exact .inr (.inr ⟨_, _, _, _, h, h'⟩)
    | thenFirst h => exact .inl h
    | thenSecond h h' => exact .inr ⟨_, _, h, h'⟩
    | thenIgnoreFirst h => exact .inl h
    | thenIgnoreSecond h h' => exact .inr ⟨_, _, h, h'⟩
    | ignoreThenFirst h => exact .inl h
    | ignoreThenSecond h h' => exact .inr ⟨_, _, h, h'⟩
    | delimitedByLeft h => exact .inl h
    | delimitedByMiddle h h' => exact .inr (.inl ⟨_, _, h, h'⟩)
    | delimitedByRight h h' h'' => exact .inr (.inr ⟨_, _, _, _, h, h', h''⟩)
    | paddedByLeft h => exact .inl h
    | paddedByMiddle h h' => exact .inr (.inl ⟨_, _, h, h'⟩)
    | paddedByRight h h' h'' => exact .inr (.inr ⟨_, _, _, _, h, h', h''⟩)
    | chain h => exact h
    | or h h' => exact ⟨h, h'⟩
    | alters h => exact h
    | repeated h => exact h
    | separatedBy h => exact h
    | toRecover h => exact h
    | call hk h => exact ⟨_, hk, h⟩
  · intro h
    cases g with
    | empty => cases h
    | none => cases h
    | eof => obtain ⟨t, h⟩ := h; exact .eof h
    | just x => exact .just h
    | filter p => exact .filter h
    | filterMap f => exact .filterMap h
    | seq v items => obtain ⟨k, x, h, h'⟩ := h; exact .seq h h'
    | oneOf items => exact .oneOf h
    | noneOf items => exact .noneOf h
    | boxed g => exact .boxed h
    | withError g => exact .withError h
    | to g v => exact .to h
    | some g => exact .some h
    | map f g => exact .map h
    | mapWithSpan f g => exact .mapWithSpan h
    | mapErr f g => exact .mapErr h
    | mapErrWithSpan f g => exact .mapErrWithSpan h
    | tryMap f g =>
      rcases h with h | ⟨_, _, _, h, h'⟩ | ⟨_, _, _, _, h, h'⟩
      · exact .tryMap h
      · exact .tryMapErr h h'
      · exact .tryMapRecovered h h'
    | then_ a b =>
      rcases h with h | ⟨_, _, h, h'⟩
      · exact .thenFirst h
      · exact .thenSecond h h'
    | thenIgnore a b =>
      rcases h with h | ⟨_, _, h, h'⟩
      · exact .thenIgnoreFirst h
      · exact .thenIgnoreSecond h h'
    | ignoreThen a b =>
      rcases h with h | ⟨_, _, h, h'⟩
      · exact .ignoreThenFirst h
      · exact .ignoreThenSecond h h'
    | delimitedBy l m r =>
      rcases h with h | ⟨_, _, h, h'⟩ | ⟨_, _, _, _, h, h', h''⟩
      · exact .delimitedByLeft h
      · exact .delimitedByMiddle h h'
      · exact .delimitedByRight h h' h''
    | paddedBy p m =>
      rcases h with h | ⟨_, _, h, h'⟩ | ⟨_, _, _, _, h, h', h''⟩
      · exact .paddedByLeft h
      · exact .paddedByMiddle h h'
      · exact .paddedByRight h h' h''
    | chain gs => exact .chain h
    | or a b => exact .or h.1 h.2
    | orNot g => cases h
    | alters gs => exact .alters h
    | repeated c g => exact .repeated h
    | separatedBy c g sep => exact .separatedBy h
    | toRecover g st => exact .toRecover h
    | call k => obtain ⟨g, hk, h⟩ := h; exact .call hk h

theorem acceptsFirst_cons {ε : ErrTy S} {α : Type} {g : G S N ε α} {gs : GL S N ε α} {i j : Nat} {o : α} :
    AcceptsFirst e D (.cons g gs) i o j ↔ Accepts e D g i o j ∨ Rejects e D g i ∧ AcceptsFirst e D gs i o j := by
  constructor
  · intro h
    cases h with
    | here h => exact .inl h
    | later h h' => exact .inr ⟨h, h'⟩
  · rintro (h | ⟨h, h'⟩)
    · exact .here h
    · exact .later h h'

theorem acceptsFirst_nil {ε : ErrTy S} {α : Type} {i j : Nat} {o : α} :
    AcceptsFirst e D (.nil (ε := ε) (α := α)) i o j ↔ False := by
  constructor
  · intro h; cases h
  · exact False.elim

theorem rejectsAll_cons {ε : ErrTy S} {α : Type} {g : G S N ε α} {gs : GL S N ε α} {i : Nat} :
    RejectsAll e D (.cons g gs) i ↔ Rejects e D g i ∧ RejectsAll e D gs i := by
  constructor
  · intro h
    cases h with
    | cons h h' => exact ⟨h, h'⟩
  · rintro ⟨h, h'⟩
    exact .cons h h'

theorem rejectsAll_nil {ε : ErrTy S} {α : Type} {i : Nat} :
    RejectsAll e D (.nil (ε := ε) (α := α)) i ↔ True := by
  constructor
  · intro _; trivial
  · intro _; exact .nil

/-! ## Repetitions without a maximum -/

/-- The parser accepts again and again. -/
inductive Run (e : Env S) (D : Defs S N) {ε : ErrTy S} {α : Type} (g : G S N ε α) : Nat → List α → Nat → Prop
  | nil {i : Nat} : Run e D g i [] i
  | cons {i h j : Nat} {o : α} {os : List α} : Accepts e D g i o h → Run e D g h os j →
      Run e D g i (o :: os) j

theorem not_full {m k : Nat} {l t : Bool} : ¬ RepCfg.Full ⟨m, none, l, t⟩ k := by
  rintro ⟨x, h, _⟩; cases h

theorem acceptsItems_run {ε : ErrTy S} {α : Type} {g : G S N ε α} {m : Nat} :
    ∀ {os : List α} {k i j : Nat},
      AcceptsItems e D ⟨m, none, false, false⟩ g (none : Option (G S N ε α)) k i os j ↔
        m ≤ k + os.length ∧ Run e D g i os j ∧ Rejects e D g j
  | [], k, i, j => by
    constructor
    · intro h
      cases h with
      | full h _ => exact (not_full h).elim
      | done _ h hm =>
        cases h with
        | plain h => exact ⟨hm, .nil, h⟩
    · rintro ⟨hm, h, h'⟩
      cases h
      exact .done not_full (.plain h') hm
  | o :: os, k, i, j => by
    have ih := @acceptsItems_run ε α g m os (k + 1)
    constructor
    · intro h
      cases h with
      | another _ h h' =>
        cases h with
        | plain h =>
          obtain ⟨h1, h2, h3⟩ := ih.1 h'
          exact ⟨by simp; omega, .cons h h2, h3⟩
    · rintro ⟨hm, h, h'⟩
      cases h with
      | cons h h2 =>
        simp only [List.length_cons] at hm
        exact .another not_full (.plain h) (ih.2 ⟨by omega, h2, h'⟩)

theorem accepts_repeated {ε : ErrTy S} {α : Type} {g : G S N ε α} {m i j : Nat} {os : List α} :
    Accepts e D (.repeated ⟨m, none, false, false⟩ g) i os j ↔
      m ≤ os.length ∧ Run e D g i os j ∧ Rejects e D g j := by
  rw [accepts_iff]
  show AcceptsItems e D _ g _ 0 i os j ↔ _
  rw [acceptsItems_run]
  simp

theorem RejectsItems.min_pos {ε : ErrTy S} {α β : Type} {c : RepCfg} {g : G S N ε α} {s : Option (G S N ε β)} :
    ∀ {k i : Nat}, RejectsItems e D c g s k i → 0 < c.minimum
  | _, _, .another _ _ h => h.min_pos
  | _, _, .tooFew _ _ h => by omega

theorem rejects_repeated {ε : ErrTy S} {α : Type} {g : G S N ε α} {c : RepCfg} (hc : c.minimum = 0) {i : Nat} :
    ¬ Rejects e D (.repeated c g) i := by
  rw [rejects_iff]
  intro h
  have := RejectsItems.min_pos h
  omega

/-- A separator and the parser accept again and again, until one of them rejects. -/
inductive SepRun (e : Env S) (D : Defs S N) {ε : ErrTy S} {α β : Type} (g : G S N ε α) (sep : G S N ε β) :
    Nat → List α → Nat → Prop
  | noSep {i : Nat} : Rejects e D sep i → SepRun e D g sep i [] i
  | noItem {i h : Nat} {x : β} : Accepts e D sep i x h → Rejects e D g h → SepRun e D g sep i [] i
  | cons {i h k j : Nat} {x : β} {o : α} {os : List α} : Accepts e D sep i x h → Accepts e D g h o k →
      SepRun e D g sep k os j → SepRun e D g sep i (o :: os) j

theorem acceptsItems_sepRun {ε : ErrTy S} {α β : Type} {g : G S N ε α} {sep : G S N ε β} :
    ∀ {os : List α} {k i j : Nat},
      AcceptsItems e D ⟨0, none, false, false⟩ g (some sep) (k + 1) i os j ↔ SepRun e D g sep i os j
  | [], k, i, j => by
    constructor
    · intro h
      cases h with
      | full h _ => exact (not_full h).elim
      | done _ h hm =>
        cases h with
        | unwanted h _ => exact (h (.inl (Nat.succ_pos k))).elim
        | trailing _ h _ _ => cases h
        | notTrailing _ _ h h' => exact .noItem h h'
        | noSeparator _ h => exact .noSep h
    · intro h
      cases h with
      | noSep h => exact .done not_full (.noSeparator (Nat.succ_pos k) h) (Nat.zero_le _)
      | noItem h h' => exact .done not_full (.notTrailing (.inl (Nat.succ_pos k)) rfl h h') (Nat.zero_le _)
  | o :: os, k, i, j => by
    have ih := @acceptsItems_sepRun ε α β g sep os (k + 1)
    constructor
    · intro h
      cases h with
      | another _ h h' =>
        cases h with
        | unwanted h _ => exact (h (.inl (Nat.succ_pos k))).elim
        | separated _ h h2 => exact .cons h h2 (ih.1 h')
    · intro h
      cases h with
      | cons h h2 h3 => exact .another not_full (.separated (.inl (Nat.succ_pos k)) h h2) (ih.2 h3)

theorem accepts_separatedBy {ε : ErrTy S} {α β : Type} {g : G S N ε α} {sep : G S N ε β} {i j : Nat} {os : List α} :
    Accepts e D (.separatedBy ⟨0, none, false, false⟩ g sep) i os j ↔
      (os = [] ∧ j = i ∧ Rejects e D g i) ∨
      ∃ o os' h, os = o :: os' ∧ Accepts e D g i o h ∧ SepRun e D g sep h os' j := by
  rw [accepts_iff]
  show AcceptsItems e D _ g _ 0 i os j ↔ _
  have hw : ¬ RepCfg.WantsSep ⟨0, none, false, false⟩ 0 := by
    rintro (h | h)
    · exact Nat.lt_irrefl _ h
    · cases h
  constructor
  · intro h
    cases h with
    | full h _ => exact (not_full h).elim
    | done _ h hm =>
      cases h with
      | unwanted _ h => exact .inl ⟨rfl, rfl, h⟩
      | trailing h _ _ _ => exact (hw h).elim
      | notTrailing h _ _ _ => exact (hw h).elim
      | noSeparator h _ => exact (Nat.lt_irrefl _ h).elim
      | noLeading h _ _ => cases h
    | another _ h h' =>
      cases h with
      | unwanted _ h => exact .inr ⟨_, _, _, rfl, h, acceptsItems_sepRun.1 h'⟩
      | separated h _ _ => exact (hw h).elim
      | noLeading h _ _ => cases h
  · rintro (⟨rfl, rfl, h⟩ | ⟨o, os', h, rfl, h1, h2⟩)
    · exact .done not_full (.unwanted hw h) (Nat.zero_le _)
    · exact .another not_full (.unwanted hw h1) (acceptsItems_sepRun.2 h2)

theorem rejects_separatedBy {ε : ErrTy S} {α β : Type} {g : G S N ε α} {sep : G S N ε β} {c : RepCfg}
    (hc : c.minimum = 0) {i : Nat} : ¬ Rejects e D (.separatedBy c g sep) i := by
  rw [rejects_iff]
  intro h
  have := RejectsItems.min_pos h
  omega

/-! ## Parsers do not go backwards -/

mutual

theorem Accepts.le {ε : ErrTy S} {α : Type} {g : G S N ε α} {i j : Nat} {o : α} : Accepts e D g i o j → i ≤ j
  | .empty => Nat.le_refl _
  | .none => Nat.le_refl _
  | .eof _ => Nat.le_refl _
  | .just _ _ => Nat.le_succ _
  | .filter _ _ => Nat.le_succ _
  | .filterMap _ _ => Nat.le_succ _
  | .seq _ => Nat.le_add_right _ _
  | .oneOf _ _ _ => Nat.le_succ _
  | .noneOf _ _ => Nat.le_succ _
  | .boxed h => h.le
  | .withError h => h.le
  | .to h => h.le
  | .some h => h.le
  | .map (f := _) (o := _) h => h.le
  | .mapWithSpan (f := _) (o := _) h => h.le
  | .mapErr h => h.le
  | .mapErrWithSpan h => h.le
  | .tryMap h _ => h.le
  | .then_ h h' => Nat.le_trans h.le h'.le
  | .thenIgnore h h' => Nat.le_trans h.le h'.le
  | .ignoreThen h h' => Nat.le_trans h.le h'.le
  | .delimitedBy h h' h'' => Nat.le_trans h.le (Nat.le_trans h'.le h''.le)
  | .paddedBy h h' h'' => Nat.le_trans h.le (Nat.le_trans h'.le h''.le)
  | .chain h => h.le
  | .orLeft h => h.le
  | .orRight _ h => h.le
  | .orNotSome h => h.le
  | .orNotNone _ => Nat.le_refl _
  | .alters h => h.le
  | .repeated h => h.le
  | .separatedBy h => h.le
  | .toRecover h => h.le
  | .call _ h => h.le

theorem AcceptsAll.le {ε : ErrTy S} {α : Type} {gs : GL S N ε α} {i j : Nat} {os : List α} :
    AcceptsAll e D gs i os j → i ≤ j
  | .nil => Nat.le_refl _
  | .cons h h' => Nat.le_trans h.le h'.le

theorem AcceptsFirst.le {ε : ErrTy S} {α : Type} {gs : GL S N ε α} {i j : Nat} {o : α} :
    AcceptsFirst e D gs i o j → i ≤ j
  | .here h => h.le
  | .later _ h => h.le

theorem Another.le {ε : ErrTy S} {α β : Type} {c : RepCfg} {g : G S N ε α} {sep : Option (G S N ε β)}
    {k i j : Nat} {o : α} : Another e D c g sep k i o j → i ≤ j
  | .plain h => h.le
  | .unwanted _ h => h.le
  | .separated _ h h' => Nat.le_trans h.le h'.le
  | .noLeading _ _ h => h.le

theorem NoOther.le {ε : ErrTy S} {α β : Type} {c : RepCfg} {g : G S N ε α} {sep : Option (G S N ε β)}
    {k i j : Nat} : NoOther e D c g sep k i j → i ≤ j
  | .plain _ => Nat.le_refl _
  | .unwanted _ _ => Nat.le_refl _
  | .trailing _ _ h _ => h.le
  | .notTrailing _ _ _ _ => Nat.le_refl _
  | .noSeparator _ _ => Nat.le_refl _
  | .noLeading _ _ _ => Nat.le_refl _

theorem Trailer.le {ε : ErrTy S} {β : Type} {c : RepCfg} {sep : Option (G S N ε β)}
    {k i j : Nat} : Trailer e D c sep k i j → i ≤ j
  | .plain => Nat.le_refl _
  | .notAllowed _ => Nat.le_refl _
  | .trailing _ _ h => h.le
  | .absent _ _ _ => Nat.le_refl _

theorem AcceptsItems.le {ε : ErrTy S} {α β : Type} {c : RepCfg} {g : G S N ε α} {sep : Option (G S N ε β)}
    {k i j : Nat} {os : List α} : AcceptsItems e D c g sep k i os j → i ≤ j
  | .full _ h => h.le
  | .another _ h h' => Nat.le_trans h.le h'.le
  | .done _ h _ => h.le

end

end PPC
