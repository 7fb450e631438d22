import Verif.SpecPeg
import Verif.SpecHonest

/-!
# What a failing parser reports (specification of C58)

The rules below say, for a parser that fails, which token it blames and what it says was expected instead. They are about
tokens and positions only, like those of `Verif.SpecPeg`: there is no execution, and errors are not built or merged.
-/

namespace PPC

variable {S : Sig} {N : Names S}

/-- What a failing parser has to say: the position of the token it did not expect, whether it refers to that position by
its location (or by the span of the token), and what it expected there (a token, or `none` for the end of the input). -/
structure Report (S : Sig) : Type where
  index : Nat
  byLocation : Bool
  expected : Option S.I → Prop

/-- How the reports of the alternatives of a choice become one. Of the alternatives that got furthest, the first decides.
The expectations of all alternatives that got as far are put together, if they refer to the position in the same way. -/
def Report.Choice (ps : List (Report S)) (r : Report S) : Prop :=
  ∃ before p after, ps = before ++ p :: after ∧
    (∀ q ∈ before, q.index < p.index) ∧ (∀ q ∈ after, q.index ≤ p.index) ∧
    r.index = p.index ∧ r.byLocation = p.byLocation ∧
    ∀ x, r.expected x ↔ ∃ q ∈ ps, q.index = p.index ∧ q.byLocation = p.byLocation ∧ q.expected x

mutual

/-- The parser fails at position `i` with the report `r`. There are no rules for parsers with errors of the user's own
(`map_err` and `try_map` with a function that rejects). -/
inductive Reports (e : Env S) (D : Defs S N) : {ε : ErrTy S} → {α : Type} → G S N ε α → Nat → Report S → Prop
  | eof {ε : ErrTy S} {i : Nat} {t : S.I} : e.source i = some t →
      Reports e D (.eof (ε := ε)) i ⟨i, true, fun x => x = none⟩
  | just {ε : ErrTy S} {i : Nat} {y : S.I} : (∀ t, e.source i = some t → S.eqI t y = false) →
      Reports e D (.just (ε := ε) y) i ⟨i, false, fun x => x = some y⟩
  | filter {ε : ErrTy S} {i : Nat} {p : S.I → Bool} : (∀ t, e.source i = some t → p t = false) →
      Reports e D (.filter (ε := ε) p) i ⟨i, false, fun _ => False⟩
  | filterMap {ε : ErrTy S} {α : Type} {i : Nat} {f : S.I → Option α} :
      (∀ t, e.source i = some t → f t = none) → Reports e D (.filterMap (ε := ε) f) i ⟨i, false, fun _ => False⟩
  | seq {ε : ErrTy S} {α : Type} {i k : Nat} {v : α} {items : List S.I} {y : S.I} :
      (∀ l z, l < k → items[l]? = some z → ∃ t, e.source (i + l) = some t ∧ S.eqI t z = true) →
      items[k]? = some y → (∀ t, e.source (i + k) = some t → S.eqI t y = false) →
      Reports e D (.seq (ε := ε) v items) i ⟨i + k, false, fun x => x = some y⟩
  | oneOf {ε : ErrTy S} {i : Nat} {items : List S.I} :
      (∀ t, e.source i = some t → ∀ y, y ∈ items → S.eqI t y = false) →
      Reports e D (.oneOf (ε := ε) items) i ⟨i, false, fun x => ∃ y, y ∈ items ∧ x = some y⟩
  | noneOf {ε : ErrTy S} {i : Nat} {items : List S.I} {t y : S.I} : e.source i = some t → y ∈ items →
      S.eqI t y = true → Reports e D (.noneOf (ε := ε) items) i ⟨i, false, fun _ => False⟩
  | noneOfEnd {ε : ErrTy S} {i : Nat} {items : List S.I} : e.source i = none →
      Reports e D (.noneOf (ε := ε) items) i ⟨i, true, fun _ => False⟩
  | boxed {ε : ErrTy S} {α : Type} {g : G S N ε α} {i : Nat} {r : Report S} :
      Reports e D g i r → Reports e D (.boxed g) i r
  | withError {ε : ErrTy S} {α : Type} {g : G S N ε α} {i : Nat} {r : Report S} :
      Reports e D g i r → Reports e D (.withError g) i r
  | to {ε : ErrTy S} {α β : Type} {g : G S N ε α} {v : β} {i : Nat} {r : Report S} :
      Reports e D g i r → Reports e D (.to g v) i r
  | some {ε : ErrTy S} {α : Type} {g : G S N ε α} {i : Nat} {r : Report S} :
      Reports e D g i r → Reports e D (.some g) i r
  | map {ε : ErrTy S} {α β : Type} {f : α → β} {g : G S N ε α} {i : Nat} {r : Report S} :
      Reports e D g i r → Reports e D (.map f g) i r
  | mapWithSpan {ε : ErrTy S} {α β : Type} {f : α → S.Span → β} {g : G S N ε α} {i : Nat} {r : Report S} :
      Reports e D g i r → Reports e D (.mapWithSpan f g) i r
  | tryMap {ε : ErrTy S} {α β : Type} {f : α → S.Span → TryMapResult β ε.E} {g : G S N ε α} {i : Nat} {r : Report S} :
      Reports e D g i r → Reports e D (.tryMap f g) i r
  | thenFirst {ε : ErrTy S} {α β : Type} {a : G S N ε α} {b : G S N ε β} {i : Nat} {r : Report S} :
      Reports e D a i r → Reports e D (.then_ a b) i r
  | thenSecond {ε : ErrTy S} {α β : Type} {a : G S N ε α} {b : G S N ε β} {i j : Nat} {x : α} {r : Report S} :
      Accepts e D a i x j → Reports e D b j r → Reports e D (.then_ a b) i r
  | thenIgnoreFirst {ε : ErrTy S} {α β : Type} {a : G S N ε α} {b : G S N ε β} {i : Nat} {r : Report S} :
      Reports e D a i r → Reports e D (.thenIgnore a b) i r
  | thenIgnoreSecond {ε : ErrTy S} {α β : Type} {a : G S N ε α} {b : G S N ε β} {i j : Nat} {x : α} {r : Report S} :
      Accepts e D a i x j → Reports e D b j r → Reports e D (.thenIgnore a b) i r
  | ignoreThenFirst {ε : ErrTy S} {α β : Type} {a : G S N ε α} {b : G S N ε β} {i : Nat} {r : Report S} :
      Reports e D a i r → Reports e D (.ignoreThen a b) i r
  | ignoreThenSecond {ε : ErrTy S} {α β : Type} {a : G S N ε α} {b : G S N ε β} {i j : Nat} {x : α} {r : Report S} :
      Accepts e D a i x j → Reports e D b j r → Reports e D (.ignoreThen a b) i r
  | delimitedByLeft {ε : ErrTy S} {α β γ : Type} {l : G S N ε α} {m : G S N ε β} {c : G S N ε γ} {i : Nat}
      {r : Report S} : Reports e D l i r → Reports e D (.delimitedBy l m c) i r
  | delimitedByMiddle {ε : ErrTy S} {α β γ : Type} {l : G S N ε α} {m : G S N ε β} {c : G S N ε γ} {i j : Nat} {x : α}
      {r : Report S} : Accepts e D l i x j → Reports e D m j r → Reports e D (.delimitedBy l m c) i r
  | delimitedByRight {ε : ErrTy S} {α β γ : Type} {l : G S N ε α} {m : G S N ε β} {c : G S N ε γ} {i j k : Nat} {x : α}
      {y : β} {r : Report S} : Accepts e D l i x j → Accepts e D m j y k → Reports e D c k r →
      Reports e D (.delimitedBy l m c) i r
  | paddedByLeft {ε : ErrTy S} {α β : Type} {p : G S N ε α} {m : G S N ε β} {i : Nat} {r : Report S} :
      Reports e D p i r → Reports e D (.paddedBy p m) i r
  | paddedByMiddle {ε : ErrTy S} {α β : Type} {p : G S N ε α} {m : G S N ε β} {i j : Nat} {x : α} {r : Report S} :
      Accepts e D p i x j → Reports e D m j r → Reports e D (.paddedBy p m) i r
  | paddedByRight {ε : ErrTy S} {α β : Type} {p : G S N ε α} {m : G S N ε β} {i j k : Nat} {x : α} {y : β}
      {r : Report S} : Accepts e D p i x j → Accepts e D m j y k → Reports e D p k r → Reports e D (.paddedBy p m) i r
  | chain {ε : ErrTy S} {α : Type} {gs : GL S N ε α} {i : Nat} {r : Report S} :
      ReportsSome e D gs i r → Reports e D (.chain gs) i r
  | or {ε : ErrTy S} {α : Type} {a b : G S N ε α} {i : Nat} {p q r : Report S} :
      Reports e D a i p → Reports e D b i q → Report.Choice [p, q] r → Reports e D (.or a b) i r
  | alters {ε : ErrTy S} {α : Type} {gs : GL S N ε α} {i : Nat} {ps : List (Report S)} {r : Report S} :
      ReportsAll e D gs i ps → Report.Choice ps r → Reports e D (.alters gs) i r
  | repeated {ε : ErrTy S} {α : Type} {c : RepCfg} {g : G S N ε α} {i : Nat} {r : Report S} :
      ReportsItems e D c g (none : Option (G S N ε α)) 0 i r → Reports e D (.repeated c g) i r
  | separatedBy {ε : ErrTy S} {α β : Type} {c : RepCfg} {g : G S N ε α} {sep : G S N ε β} {i : Nat} {r : Report S} :
      ReportsItems e D c g (some sep) 0 i r → Reports e D (.separatedBy c g sep) i r
  | toRecover {ε : ErrTy S} {α : Type} {g : G S N ε α} {st : CS S N ε α} {i : Nat} {r : Report S} :
      Reports e D g i r → Reports e D (.toRecover g st) i r
  | call {k : N.K} {g : G S N (N.err k) (N.out k)} {i : Nat} {r : Report S} :
      D k = some g → Reports e D g i r → Reports e D (.call k) i r

/-- Run one after the other, one of the parsers of the list fails with this report. -/
inductive ReportsSome (e : Env S) (D : Defs S N) : {ε : ErrTy S} → {α : Type} → GL S N ε α → Nat → Report S → Prop
  | here {ε : ErrTy S} {α : Type} {g : G S N ε α} {gs : GL S N ε α} {i : Nat} {r : Report S} :
      Reports e D g i r → ReportsSome e D (.cons g gs) i r
  | later {ε : ErrTy S} {α : Type} {g : G S N ε α} {gs : GL S N ε α} {i j : Nat} {o : α} {r : Report S} :
      Accepts e D g i o j → ReportsSome e D gs j r → ReportsSome e D (.cons g gs) i r

/-- All parsers of the list fail at the same position, with these reports. -/
inductive ReportsAll (e : Env S) (D : Defs S N) : {ε : ErrTy S} → {α : Type} → GL S N ε α → Nat → List (Report S) → Prop
  | nil {ε : ErrTy S} {α : Type} {i : Nat} : ReportsAll e D (.nil (ε := ε) (α := α)) i []
  | cons {ε : ErrTy S} {α : Type} {g : G S N ε α} {gs : GL S N ε α} {i : Nat} {r : Report S} {rs : List (Report S)} :
      Reports e D g i r → ReportsAll e D gs i rs → ReportsAll e D (.cons g gs) i (r :: rs)

/-- No other element of a repetition after `k` of them, because a separator or the item fails with this report. -/
inductive ReportsNoOther (e : Env S) (D : Defs S N) : {ε : ErrTy S} → {α β : Type} → RepCfg →
    G S N ε α → Option (G S N ε β) → Nat → Nat → Report S → Prop
  | plain {ε : ErrTy S} {α β : Type} {c : RepCfg} {g : G S N ε α} {k i : Nat} {r : Report S} :
      Reports e D g i r → ReportsNoOther e D c g (none : Option (G S N ε β)) k i r
  | unwanted {ε : ErrTy S} {α β : Type} {c : RepCfg} {g : G S N ε α} {sep : G S N ε β} {k i : Nat} {r : Report S} :
      ¬ c.WantsSep k → Reports e D g i r → ReportsNoOther e D c g (some sep) k i r
  | separated {ε : ErrTy S} {α β : Type} {c : RepCfg} {g : G S N ε α} {sep : G S N ε β} {k i h : Nat} {x : β}
      {r : Report S} : c.WantsSep k → Accepts e D sep i x h → Reports e D g h r →
      ReportsNoOther e D c g (some sep) k i r
  | noSeparator {ε : ErrTy S} {α β : Type} {c : RepCfg} {g : G S N ε α} {sep : G S N ε β} {k i : Nat} {r : Report S} :
      0 < k → Reports e D sep i r → ReportsNoOther e D c g (some sep) k i r
  | noLeading {ε : ErrTy S} {α β : Type} {c : RepCfg} {g : G S N ε α} {sep : G S N ε β} {i : Nat} {r : Report S} :
      c.allowLeading = true → Rejects e D sep i → Reports e D g i r → ReportsNoOther e D c g (some sep) 0 i r

/-- A repetition that has `k` elements already ends before it has the required number, with this report. -/
inductive ReportsItems (e : Env S) (D : Defs S N) : {ε : ErrTy S} → {α β : Type} → RepCfg →
    G S N ε α → Option (G S N ε β) → Nat → Nat → Report S → Prop
  | another {ε : ErrTy S} {α β : Type} {c : RepCfg} {g : G S N ε α} {sep : Option (G S N ε β)} {k i h : Nat} {o : α}
      {r : Report S} : ¬ c.Full k → Another e D c g sep k i o h → ReportsItems e D c g sep (k + 1) h r →
      ReportsItems e D c g sep k i r
  | tooFew {ε : ErrTy S} {α β : Type} {c : RepCfg} {g : G S N ε α} {sep : Option (G S N ε β)} {k i : Nat}
      {r : Report S} : ¬ c.Full k → ReportsNoOther e D c g sep k i r → k < c.minimum → ReportsItems e D c g sep k i r

end

/-- Spans and locations tell positions apart, and each is equal to itself, as far as `==` can tell. -/
def ExactPlaces (e : Env S) : Prop :=
  ∀ k l, Valid e k → Valid e l →
    (S.eqSpan (e.here k) (e.here l) = true ↔ k = l) ∧ (S.eqLoc (e.locationAt k) (e.locationAt l) = true ↔ k = l)

/-- How a report refers to its position. -/
def Report.place (e : Env S) (r : Report S) : At S.Loc S.Span :=
  if r.byLocation then .location (e.locationAt r.index) else .span (e.here r.index)

end PPC
