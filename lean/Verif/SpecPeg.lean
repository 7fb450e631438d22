import Verif.Cursor
import Verif.GAll

/-!
# Parsing expression grammars (specification of C34)

A relational semantics of parsers as parsing expressions, in the style of B. Ford: `Accepts`
derives the output and the end position, `Rejects` derives failure. No execution, no errors, no
recovery and no evaluation bound is involved: the rules speak about tokens and positions only.
-/

namespace PPC

variable {S : Sig} {N : Names S}

/-- A limit on the number of items has been reached. -/
def RepCfg.Full (c : RepCfg) (k : Nat) : Prop := ∃ m, c.maximum = some m ∧ m ≤ k

/-- A separator is looked for before the item number `k` (counting from zero). -/
def RepCfg.WantsSep (c : RepCfg) (k : Nat) : Prop := 0 < k ∨ c.allowLeading = true

mutual

/-- The parser accepts the input from position `i` to position `j` with output `o`. -/
inductive Accepts (e : Env S) (D : Defs S N) :
    {ε : ErrTy S} → {α : Type} → G S N ε α → Nat → α → Nat → Prop
  | empty {ε : ErrTy S} {i : Nat} : Accepts e D (.empty (ε := ε)) i () i
  | none {ε : ErrTy S} {α : Type} {i : Nat} : Accepts e D (.none (ε := ε) α) i none i
  | eof {ε : ErrTy S} {i : Nat} : e.source i = none → Accepts e D (.eof (ε := ε)) i () i
  | just {ε : ErrTy S} {i : Nat} {x t : S.I} : e.source i = some t → S.eqI t x = true →
      Accepts e D (.just (ε := ε) x) i x (i + 1)
  | filter {ε : ErrTy S} {i : Nat} {p : S.I → Bool} {t : S.I} : e.source i = some t → p t = true →
      Accepts e D (.filter (ε := ε) p) i t (i + 1)
  | filterMap {ε : ErrTy S} {α : Type} {i : Nat} {f : S.I → Option α} {t : S.I} {o : α} :
      e.source i = some t → f t = some o → Accepts e D (.filterMap (ε := ε) f) i o (i + 1)
  | seq {ε : ErrTy S} {α : Type} {i : Nat} {v : α} {items : List S.I} :
      (∀ k x, items[k]? = some x → ∃ t, e.source (i + k) = some t ∧ S.eqI t x = true) →
      Accepts e D (.seq (ε := ε) v items) i v (i + items.length)
  | oneOf {ε : ErrTy S} {i : Nat} {items : List S.I} {t x : S.I} : e.source i = some t →
      x ∈ items → S.eqI t x = true → Accepts e D (.oneOf (ε := ε) items) i t (i + 1)
  | noneOf {ε : ErrTy S} {i : Nat} {items : List S.I} {t : S.I} : e.source i = some t →
      (∀ x, x ∈ items → S.eqI t x = false) → Accepts e D (.noneOf (ε := ε) items) i t (i + 1)
  | boxed {ε : ErrTy S} {α : Type} {g : G S N ε α} {i j : Nat} {o : α} :
      Accepts e D g i o j → Accepts e D (.boxed g) i o j
  | withError {ε : ErrTy S} {α : Type} {g : G S N ε α} {i j : Nat} {o : α} :
      Accepts e D g i o j → Accepts e D (.withError g) i o j
  | to {ε : ErrTy S} {α β : Type} {g : G S N ε α} {v : β} {i j : Nat} {o : α} :
      Accepts e D g i o j → Accepts e D (.to g v) i v j
  | some {ε : ErrTy S} {α : Type} {g : G S N ε α} {i j : Nat} {o : α} :
      Accepts e D g i o j → Accepts e D (.some g) i (some o) j
  | map {ε : ErrTy S} {α β : Type} {f : α → β} {g : G S N ε α} {i j : Nat} {o : α} :
      Accepts e D g i o j → Accepts e D (.map f g) i (f o) j
  | mapWithSpan {ε : ErrTy S} {α β : Type} {f : α → S.Span → β} {g : G S N ε α} {i j : Nat} {o : α} :
      Accepts e D g i o j → Accepts e D (.mapWithSpan f g) i (f o (e.spanOf i j)) j
  | mapErr {ε ε' : ErrTy S} {α : Type} {f : ε'.E → ε.E} {g : G S N ε' α} {i j : Nat} {o : α} :
      Accepts e D g i o j → Accepts e D (.mapErr f g) i o j
  | mapErrWithSpan {ε ε' : ErrTy S} {α : Type} {f : ε'.E → S.Span → ε.E} {g : G S N ε' α}
      {i j : Nat} {o : α} : Accepts e D g i o j → Accepts e D (.mapErrWithSpan f g) i o j
  | tryMap {ε : ErrTy S} {α β : Type} {f : α → S.Span → TryMapResult β ε.E} {g : G S N ε α}
      {i j : Nat} {a : α} {o : β} : Accepts e D g i a j → f a (e.spanOf i j) = .ok o →
      Accepts e D (.tryMap f g) i o j
  | then_ {ε : ErrTy S} {α β : Type} {a : G S N ε α} {b : G S N ε β} {i j k : Nat} {x : α} {y : β} :
      Accepts e D a i x j → Accepts e D b j y k → Accepts e D (.then_ a b) i (x, y) k
  | thenIgnore {ε : ErrTy S} {α β : Type} {a : G S N ε α} {b : G S N ε β} {i j k : Nat} {x : α} {y : β} :
      Accepts e D a i x j → Accepts e D b j y k → Accepts e D (.thenIgnore a b) i x k
  | ignoreThen {ε : ErrTy S} {α β : Type} {a : G S N ε α} {b : G S N ε β} {i j k : Nat} {x : α} {y : β} :
      Accepts e D a i x j → Accepts e D b j y k → Accepts e D (.ignoreThen a b) i y k
  | delimitedBy {ε : ErrTy S} {α β γ : Type} {l : G S N ε α} {m : G S N ε β} {r : G S N ε γ}
      {i j k h : Nat} {x : α} {y : β} {z : γ} :
      Accepts e D l i x j → Accepts e D m j y k → Accepts e D r k z h →
      Accepts e D (.delimitedBy l m r) i y h
  | paddedBy {ε : ErrTy S} {α β : Type} {p : G S N ε α} {m : G S N ε β} {i j k h : Nat} {x z : α} {y : β} :
      Accepts e D p i x j → Accepts e D m j y k → Accepts e D p k z h →
      Accepts e D (.paddedBy p m) i y h
  | chain {ε : ErrTy S} {α : Type} {gs : GL S N ε α} {i j : Nat} {os : List α} :
      AcceptsAll e D gs i os j → Accepts e D (.chain gs) i os j
  | orLeft {ε : ErrTy S} {α : Type} {a b : G S N ε α} {i j : Nat} {o : α} :
      Accepts e D a i o j → Accepts e D (.or a b) i o j
  | orRight {ε : ErrTy S} {α : Type} {a b : G S N ε α} {i j : Nat} {o : α} :
      Rejects e D a i → Accepts e D b i o j → Accepts e D (.or a b) i o j
  | orNotSome {ε : ErrTy S} {α : Type} {g : G S N ε α} {i j : Nat} {o : α} :
      Accepts e D g i o j → Accepts e D (.orNot g) i (some o) j
  | orNotNone {ε : ErrTy S} {α : Type} {g : G S N ε α} {i : Nat} :
      Rejects e D g i → Accepts e D (.orNot g) i none i
  | alters {ε : ErrTy S} {α : Type} {gs : GL S N ε α} {i j : Nat} {o : α} :
      AcceptsFirst e D gs i o j → Accepts e D (.alters gs) i o j
  | repeated {ε : ErrTy S} {α : Type} {c : RepCfg} {g : G S N ε α} {i j : Nat} {os : List α} :
      AcceptsItems e D c g (none : Option (G S N ε α)) 0 i os j → Accepts e D (.repeated c g) i os j
  | separatedBy {ε : ErrTy S} {α β : Type} {c : RepCfg} {g : G S N ε α} {sep : G S N ε β} {i j : Nat}
      {os : List α} : AcceptsItems e D c g (some sep) 0 i os j →
      Accepts e D (.separatedBy c g sep) i os j
  | toRecover {ε : ErrTy S} {α : Type} {g : G S N ε α} {st : CS S N ε α} {i j : Nat} {o : α} :
      Accepts e D g i o j → Accepts e D (.toRecover g st) i o j
  | call {k : N.K} {g : G S N (N.err k) (N.out k)} {i j : Nat} {o : N.out k} :
      D k = some g → Accepts e D g i o j → Accepts e D (.call k) i o j

/-- The parser fails at position `i`. -/
inductive Rejects (e : Env S) (D : Defs S N) : {ε : ErrTy S} → {α : Type} → G S N ε α → Nat → Prop
  | eof {ε : ErrTy S} {i : Nat} {t : S.I} : e.source i = some t → Rejects e D (.eof (ε := ε)) i
  | just {ε : ErrTy S} {i : Nat} {x : S.I} : (∀ t, e.source i = some t → S.eqI t x = false) →
      Rejects e D (.just (ε := ε) x) i
  | filter {ε : ErrTy S} {i : Nat} {p : S.I → Bool} : (∀ t, e.source i = some t → p t = false) →
      Rejects e D (.filter (ε := ε) p) i
  | filterMap {ε : ErrTy S} {α : Type} {i : Nat} {f : S.I → Option α} :
      (∀ t, e.source i = some t → f t = none) → Rejects e D (.filterMap (ε := ε) f) i
  | seq {ε : ErrTy S} {α : Type} {i k : Nat} {v : α} {items : List S.I} {x : S.I} :
      items[k]? = some x → (∀ t, e.source (i + k) = some t → S.eqI t x = false) →
      Rejects e D (.seq (ε := ε) v items) i
  | oneOf {ε : ErrTy S} {i : Nat} {items : List S.I} :
      (∀ t, e.source i = some t → ∀ x, x ∈ items → S.eqI t x = false) →
      Rejects e D (.oneOf (ε := ε) items) i
  | noneOf {ε : ErrTy S} {i : Nat} {items : List S.I} :
      (∀ t, e.source i = some t → ∃ x, x ∈ items ∧ S.eqI t x = true) →
      Rejects e D (.noneOf (ε := ε) items) i
  | boxed {ε : ErrTy S} {α : Type} {g : G S N ε α} {i : Nat} : Rejects e D g i → Rejects e D (.boxed g) i
  | withError {ε : ErrTy S} {α : Type} {g : G S N ε α} {i : Nat} :
      Rejects e D g i → Rejects e D (.withError g) i
  | to {ε : ErrTy S} {α β : Type} {g : G S N ε α} {v : β} {i : Nat} :
      Rejects e D g i → Rejects e D (.to g v) i
  | some {ε : ErrTy S} {α : Type} {g : G S N ε α} {i : Nat} : Rejects e D g i → Rejects e D (.some g) i
  | map {ε : ErrTy S} {α β : Type} {f : α → β} {g : G S N ε α} {i : Nat} :
      Rejects e D g i → Rejects e D (.map f g) i
  | mapWithSpan {ε : ErrTy S} {α β : Type} {f : α → S.Span → β} {g : G S N ε α} {i : Nat} :
      Rejects e D g i → Rejects e D (.mapWithSpan f g) i
  | mapErr {ε ε' : ErrTy S} {α : Type} {f : ε'.E → ε.E} {g : G S N ε' α} {i : Nat} :
      Rejects e D g i → Rejects e D (.mapErr (ε := ε) f g) i
  | mapErrWithSpan {ε ε' : ErrTy S} {α : Type} {f : ε'.E → S.Span → ε.E} {g : G S N ε' α} {i : Nat} :
      Rejects e D g i → Rejects e D (.mapErrWithSpan (ε := ε) f g) i
  | tryMap {ε : ErrTy S} {α β : Type} {f : α → S.Span → TryMapResult β ε.E} {g : G S N ε α} {i : Nat} :
      Rejects e D g i → Rejects e D (.tryMap f g) i
  | tryMapErr {ε : ErrTy S} {α β : Type} {f : α → S.Span → TryMapResult β ε.E} {g : G S N ε α}
      {i j : Nat} {a : α} {es : List ε.E} : Accepts e D g i a j → f a (e.spanOf i j) = .err es →
      Rejects e D (.tryMap f g) i
  | tryMapRecovered {ε : ErrTy S} {α β : Type} {f : α → S.Span → TryMapResult β ε.E} {g : G S N ε α}
      {i j : Nat} {a : α} {o : β} {es : List ε.E} : Accepts e D g i a j →
      f a (e.spanOf i j) = .recovered o es → Rejects e D (.tryMap f g) i
  | thenFirst {ε : ErrTy S} {α β : Type} {a : G S N ε α} {b : G S N ε β} {i : Nat} :
      Rejects e D a i → Rejects e D (.then_ a b) i
  | thenSecond {ε : ErrTy S} {α β : Type} {a : G S N ε α} {b : G S N ε β} {i j : Nat} {x : α} :
      Accepts e D a i x j → Rejects e D b j → Rejects e D (.then_ a b) i
  | thenIgnoreFirst {ε : ErrTy S} {α β : Type} {a : G S N ε α} {b : G S N ε β} {i : Nat} :
      Rejects e D a i → Rejects e D (.thenIgnore a b) i
  | thenIgnoreSecond {ε : ErrTy S} {α β : Type} {a : G S N ε α} {b : G S N ε β} {i j : Nat} {x : α} :
      Accepts e D a i x j → Rejects e D b j → Rejects e D (.thenIgnore a b) i
  | ignoreThenFirst {ε : ErrTy S} {α β : Type} {a : G S N ε α} {b : G S N ε β} {i : Nat} :
      Rejects e D a i → Rejects e D (.ignoreThen a b) i
  | ignoreThenSecond {ε : ErrTy S} {α β : Type} {a : G S N ε α} {b : G S N ε β} {i j : Nat} {x : α} :
      Accepts e D a i x j → Rejects e D b j → Rejects e D (.ignoreThen a b) i
  | delimitedByLeft {ε : ErrTy S} {α β γ : Type} {l : G S N ε α} {m : G S N ε β} {r : G S N ε γ}
      {i : Nat} : Rejects e D l i → Rejects e D (.delimitedBy l m r) i
  | delimitedByMiddle {ε : ErrTy S} {α β γ : Type} {l : G S N ε α} {m : G S N ε β} {r : G S N ε γ}
      {i j : Nat} {x : α} : Accepts e D l i x j → Rejects e D m j → Rejects e D (.delimitedBy l m r) i
  | delimitedByRight {ε : ErrTy S} {α β γ : Type} {l : G S N ε α} {m : G S N ε β} {r : G S N ε γ}
      {i j k : Nat} {x : α} {y : β} : Accepts e D l i x j → Accepts e D m j y k → Rejects e D r k →
      Rejects e D (.delimitedBy l m r) i
  | paddedByLeft {ε : ErrTy S} {α β : Type} {p : G S N ε α} {m : G S N ε β} {i : Nat} :
      Rejects e D p i → Rejects e D (.paddedBy p m) i
  | paddedByMiddle {ε : ErrTy S} {α β : Type} {p : G S N ε α} {m : G S N ε β} {i j : Nat} {x : α} :
      Accepts e D p i x j → Rejects e D m j → Rejects e D (.paddedBy p m) i
  | paddedByRight {ε : ErrTy S} {α β : Type} {p : G S N ε α} {m : G S N ε β} {i j k : Nat} {x : α}
      {y : β} : Accepts e D p i x j → Accepts e D m j y k → Rejects e D p k →
      Rejects e D (.paddedBy p m) i
  | chain {ε : ErrTy S} {α : Type} {gs : GL S N ε α} {i : Nat} :
      RejectsSome e D gs i → Rejects e D (.chain gs) i
  | or {ε : ErrTy S} {α : Type} {a b : G S N ε α} {i : Nat} :
      Rejects e D a i → Rejects e D b i → Rejects e D (.or a b) i
  | alters {ε : ErrTy S} {α : Type} {gs : GL S N ε α} {i : Nat} :
      RejectsAll e D gs i → Rejects e D (.alters gs) i
  | repeated {ε : ErrTy S} {α : Type} {c : RepCfg} {g : G S N ε α} {i : Nat} :
      RejectsItems e D c g (none : Option (G S N ε α)) 0 i → Rejects e D (.repeated c g) i
  | separatedBy {ε : ErrTy S} {α β : Type} {c : RepCfg} {g : G S N ε α} {sep : G S N ε β} {i : Nat} :
      RejectsItems e D c g (some sep) 0 i → Rejects e D (.separatedBy c g sep) i
  | toRecover {ε : ErrTy S} {α : Type} {g : G S N ε α} {st : CS S N ε α} {i : Nat} :
      Rejects e D g i → Rejects e D (.toRecover g st) i
  | call {k : N.K} {g : G S N (N.err k) (N.out k)} {i : Nat} :
      D k = some g → Rejects e D g i → Rejects e D (.call k) i

/-- All parsers of the list accept, one after the other. -/
inductive AcceptsAll (e : Env S) (D : Defs S N) :
    {ε : ErrTy S} → {α : Type} → GL S N ε α → Nat → List α → Nat → Prop
  | nil {ε : ErrTy S} {α : Type} {i : Nat} : AcceptsAll e D (.nil (ε := ε) (α := α)) i [] i
  | cons {ε : ErrTy S} {α : Type} {g : G S N ε α} {gs : GL S N ε α} {i j k : Nat} {o : α} {os : List α} :
      Accepts e D g i o j → AcceptsAll e D gs j os k → AcceptsAll e D (.cons g gs) i (o :: os) k

/-- Run one after the other, one of the parsers of the list fails. -/
inductive RejectsSome (e : Env S) (D : Defs S N) :
    {ε : ErrTy S} → {α : Type} → GL S N ε α → Nat → Prop
  | here {ε : ErrTy S} {α : Type} {g : G S N ε α} {gs : GL S N ε α} {i : Nat} :
      Rejects e D g i → RejectsSome e D (.cons g gs) i
  | later {ε : ErrTy S} {α : Type} {g : G S N ε α} {gs : GL S N ε α} {i j : Nat} {o : α} :
      Accepts e D g i o j → RejectsSome e D gs j → RejectsSome e D (.cons g gs) i

/-- The first parser of the list that does not fail accepts. -/
inductive AcceptsFirst (e : Env S) (D : Defs S N) :
    {ε : ErrTy S} → {α : Type} → GL S N ε α → Nat → α → Nat → Prop
  | here {ε : ErrTy S} {α : Type} {g : G S N ε α} {gs : GL S N ε α} {i j : Nat} {o : α} :
      Accepts e D g i o j → AcceptsFirst e D (.cons g gs) i o j
  | later {ε : ErrTy S} {α : Type} {g : G S N ε α} {gs : GL S N ε α} {i j : Nat} {o : α} :
      Rejects e D g i → AcceptsFirst e D gs i o j → AcceptsFirst e D (.cons g gs) i o j

/-- All parsers of the list fail at the same position. -/
inductive RejectsAll (e : Env S) (D : Defs S N) :
    {ε : ErrTy S} → {α : Type} → GL S N ε α → Nat → Prop
  | nil {ε : ErrTy S} {α : Type} {i : Nat} : RejectsAll e D (.nil (ε := ε) (α := α)) i
  | cons {ε : ErrTy S} {α : Type} {g : G S N ε α} {gs : GL S N ε α} {i : Nat} :
      Rejects e D g i → RejectsAll e D gs i → RejectsAll e D (.cons g gs) i

/-- Another element of a repetition, after `k` of them: the item, with a separator before it if
one is wanted; a leading separator may be absent. -/
inductive Another (e : Env S) (D : Defs S N) : {ε : ErrTy S} → {α β : Type} → RepCfg →
    G S N ε α → Option (G S N ε β) → Nat → Nat → α → Nat → Prop
  | plain {ε : ErrTy S} {α β : Type} {c : RepCfg} {g : G S N ε α} {k i j : Nat} {o : α} :
      Accepts e D g i o j → Another e D c g (none : Option (G S N ε β)) k i o j
  | unwanted {ε : ErrTy S} {α β : Type} {c : RepCfg} {g : G S N ε α} {sep : G S N ε β} {k i j : Nat}
      {o : α} : ¬ c.WantsSep k → Accepts e D g i o j → Another e D c g (some sep) k i o j
  | separated {ε : ErrTy S} {α β : Type} {c : RepCfg} {g : G S N ε α} {sep : G S N ε β}
      {k i h j : Nat} {x : β} {o : α} : c.WantsSep k → Accepts e D sep i x h → Accepts e D g h o j →
      Another e D c g (some sep) k i o j
  | noLeading {ε : ErrTy S} {α β : Type} {c : RepCfg} {g : G S N ε α} {sep : G S N ε β}
      {i j : Nat} {o : α} : c.allowLeading = true → Rejects e D sep i → Accepts e D g i o j →
      Another e D c g (some sep) 0 i o j

/-- No other element of a repetition after `k` of them, because a separator or the item fails;
`j` is where the repetition ends: behind the separator if that was present and trailing
separators are allowed, otherwise where it is now. -/
inductive NoOther (e : Env S) (D : Defs S N) : {ε : ErrTy S} → {α β : Type} → RepCfg →
    G S N ε α → Option (G S N ε β) → Nat → Nat → Nat → Prop
  | plain {ε : ErrTy S} {α β : Type} {c : RepCfg} {g : G S N ε α} {k i : Nat} :
      Rejects e D g i → NoOther e D c g (none : Option (G S N ε β)) k i i
  | unwanted {ε : ErrTy S} {α β : Type} {c : RepCfg} {g : G S N ε α} {sep : G S N ε β} {k i : Nat} :
      ¬ c.WantsSep k → Rejects e D g i → NoOther e D c g (some sep) k i i
  | trailing {ε : ErrTy S} {α β : Type} {c : RepCfg} {g : G S N ε α} {sep : G S N ε β}
      {k i h : Nat} {x : β} : c.WantsSep k → c.allowTrailing = true → Accepts e D sep i x h →
      Rejects e D g h → NoOther e D c g (some sep) k i h
  | notTrailing {ε : ErrTy S} {α β : Type} {c : RepCfg} {g : G S N ε α} {sep : G S N ε β}
      {k i h : Nat} {x : β} : c.WantsSep k → c.allowTrailing = false → Accepts e D sep i x h →
      Rejects e D g h → NoOther e D c g (some sep) k i i
  | noSeparator {ε : ErrTy S} {α β : Type} {c : RepCfg} {g : G S N ε α} {sep : G S N ε β} {k i : Nat} :
      0 < k → Rejects e D sep i → NoOther e D c g (some sep) k i i
  | noLeading {ε : ErrTy S} {α β : Type} {c : RepCfg} {g : G S N ε α} {sep : G S N ε β} {i : Nat} :
      c.allowLeading = true → Rejects e D sep i → Rejects e D g i → NoOther e D c g (some sep) 0 i i

/-- The end of a repetition that has all the elements it may have: a trailing separator is
taken if that is allowed. -/
inductive Trailer (e : Env S) (D : Defs S N) : {ε : ErrTy S} → {β : Type} → RepCfg →
    Option (G S N ε β) → Nat → Nat → Nat → Prop
  | plain {ε : ErrTy S} {β : Type} {c : RepCfg} {k i : Nat} :
      Trailer e D c (none : Option (G S N ε β)) k i i
  | notAllowed {ε : ErrTy S} {β : Type} {c : RepCfg} {sep : G S N ε β} {k i : Nat} :
      ¬ (c.allowTrailing = true ∧ c.WantsSep k) → Trailer e D c (some sep) k i i
  | trailing {ε : ErrTy S} {β : Type} {c : RepCfg} {sep : G S N ε β} {k i j : Nat} {x : β} :
      c.allowTrailing = true → c.WantsSep k → Accepts e D sep i x j → Trailer e D c (some sep) k i j
  | absent {ε : ErrTy S} {β : Type} {c : RepCfg} {sep : G S N ε β} {k i : Nat} :
      c.allowTrailing = true → c.WantsSep k → Rejects e D sep i → Trailer e D c (some sep) k i i

/-- A repetition that has `k` elements already goes on, greedily, with the elements `os`. -/
inductive AcceptsItems (e : Env S) (D : Defs S N) : {ε : ErrTy S} → {α β : Type} → RepCfg →
    G S N ε α → Option (G S N ε β) → Nat → Nat → List α → Nat → Prop
  | full {ε : ErrTy S} {α β : Type} {c : RepCfg} {g : G S N ε α} {sep : Option (G S N ε β)}
      {k i j : Nat} : c.Full k → Trailer e D c sep k i j → AcceptsItems e D c g sep k i [] j
  | another {ε : ErrTy S} {α β : Type} {c : RepCfg} {g : G S N ε α} {sep : Option (G S N ε β)}
      {k i h j : Nat} {o : α} {os : List α} : ¬ c.Full k → Another e D c g sep k i o h →
      AcceptsItems e D c g sep (k + 1) h os j → AcceptsItems e D c g sep k i (o :: os) j
  | done {ε : ErrTy S} {α β : Type} {c : RepCfg} {g : G S N ε α} {sep : Option (G S N ε β)}
      {k i j : Nat} : ¬ c.Full k → NoOther e D c g sep k i j → c.minimum ≤ k →
      AcceptsItems e D c g sep k i [] j

/-- A repetition that has `k` elements already ends before it has the required number. -/
inductive RejectsItems (e : Env S) (D : Defs S N) : {ε : ErrTy S} → {α β : Type} → RepCfg →
    G S N ε α → Option (G S N ε β) → Nat → Nat → Prop
  | another {ε : ErrTy S} {α β : Type} {c : RepCfg} {g : G S N ε α} {sep : Option (G S N ε β)}
      {k i h : Nat} {o : α} : ¬ c.Full k → Another e D c g sep k i o h →
      RejectsItems e D c g sep (k + 1) h → RejectsItems e D c g sep k i
  | tooFew {ε : ErrTy S} {α β : Type} {c : RepCfg} {g : G S N ε α} {sep : Option (G S N ε β)}
      {k i j : Nat} : ¬ c.Full k → NoOther e D c g sep k i j → k < c.minimum →
      RejectsItems e D c g sep k i

end

mutual

/-- By its form, the parser goes back to where it started when it fails without recovery. The only
parser that does not do so by itself is `try_map` with a function that may return `Recovered`; a
sequence goes back if its first parser does, because it goes back itself if one of the others fails; a
choice goes back if its last alternative does. -/
def G.Tidy : {ε : ErrTy S} → {α : Type} → G S N ε α → Prop
  | _, _, .boxed g => g.Tidy
  | _, _, .withError g => g.Tidy
  | _, _, .to g _ => g.Tidy
  | _, _, .some g => g.Tidy
  | _, _, .map _ g => g.Tidy
  | _, _, .mapWithSpan _ g => g.Tidy
  | _, _, .mapErr _ g => g.Tidy
  | _, _, .mapErrWithSpan _ g => g.Tidy
  | _, _, .tryMap f g => (∀ a sp o es, f a sp ≠ .recovered o es) ∧ g.Tidy
  | _, _, .then_ a _ => a.Tidy
  | _, _, .thenIgnore a _ => a.Tidy
  | _, _, .ignoreThen a _ => a.Tidy
  | _, _, .delimitedBy l _ _ => l.Tidy
  | _, _, .paddedBy p _ => p.Tidy
  | _, _, .chain gs => gs.HeadTidy
  | _, _, .or _ b => b.Tidy
  | _, _, .alters gs => gs.LastTidy
  | _, _, .toRecover g _ => g.Tidy
  | _, _, .empty => True
  | _, _, .none _ => True
  | _, _, .eof => True
  | _, _, .just _ => True
  | _, _, .filter _ => True
  | _, _, .filterMap _ => True
  | _, _, .seq _ _ => True
  | _, _, .oneOf _ => True
  | _, _, .noneOf _ => True
  | _, _, .orNot _ => True
  | _, _, .repeated _ _ => True
  | _, _, .separatedBy _ _ _ => True
  | _, _, .call _ => True

/-- The first parser of the list is tidy. -/
def GL.HeadTidy : {ε : ErrTy S} → {α : Type} → GL S N ε α → Prop
  | _, _, .nil => True
  | _, _, .cons g _ => g.Tidy

/-- The last parser of the list is tidy. -/
def GL.LastTidy : {ε : ErrTy S} → {α : Type} → GL S N ε α → Prop
  | _, _, .nil => True
  | _, _, .cons g .nil => g.Tidy
  | _, _, .cons _ (.cons h hs) => (GL.cons h hs).LastTidy

end

/-- All parsers of the list but the last are tidy. -/
def GL.InitTidy : {ε : ErrTy S} → {α : Type} → GL S N ε α → Prop
  | _, _, .nil => True
  | _, _, .cons _ .nil => True
  | _, _, .cons g (.cons h hs) => g.Tidy ∧ (GL.cons h hs).InitTidy

/-- The conditions on a single parser under which it is a parsing expression: functions given to
`try_map` do not reject without an error; a choice between a list of parsers has at least two; no
repetition requires more items than it allows; and the parsers after whose failure the parse goes on
at the same position are tidy. -/
def G.Plain : {ε : ErrTy S} → {α : Type} → G S N ε α → Prop
  | _, _, .tryMap f _ => (∀ a sp, f a sp ≠ .err []) ∧ ∀ a sp o, f a sp ≠ .recovered o []
  | _, _, .or a _ => a.Tidy
  | _, _, .orNot g => g.Tidy
  | _, _, .alters gs => (∃ a b cs, gs = .cons a (.cons b cs)) ∧ gs.InitTidy
  | _, _, .repeated c g => (∀ m, c.maximum = Option.some m → c.minimum ≤ m) ∧ g.Tidy
  | _, _, .separatedBy c g sep => (∀ m, c.maximum = Option.some m → c.minimum ≤ m) ∧ g.Tidy ∧ sep.Tidy
  | _, _, _ => True

/-- Parsing expressions. -/
def plainL (S : Sig) (N : Names S) : Local S N where
  g := G.Plain
  s := fun _ => True

/-- All recursive parsers are defined by parsing expressions that are tidy. -/
def Defs.Plain (D : Defs S N) : Prop := ∀ k g, D k = some g → g.All (plainL S N) ∧ g.Tidy

end PPC
