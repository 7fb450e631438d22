import Verif.SpecPeg
import Verif.SpecTerm

/-!
# Grammars and their sentences (specification of C64)

Read as a grammar, a parser describes a set of sentences: a choice is either of its alternatives, in
no order, a repetition is any allowed number of items, an optional part may be there or not. `Derives`
is that reading. Unlike `Accepts` (SpecPeg) it has no rule that says what must *not* be there, and no
rule about what is tried first.

`G.Predictive` is the textbook condition (LL(1)) under which the next token decides what comes next.
-/

namespace PPC

variable {S : Sig} {N : Names S}

namespace Cfg

mutual

/-- The tokens from `i` to `j` are a sentence of the grammar, with the value `o`. -/
inductive Derives (e : Env S) (D : Defs S N) :
    {ε : ErrTy S} → {α : Type} → G S N ε α → Nat → α → Nat → Prop
  | empty {ε : ErrTy S} {i : Nat} : Derives e D (.empty (ε := ε)) i () i
  | none {ε : ErrTy S} {α : Type} {i : Nat} : Derives e D (.none (ε := ε) α) i none i
  | eof {ε : ErrTy S} {i : Nat} : e.source i = none → Derives e D (.eof (ε := ε)) i () i
  | just {ε : ErrTy S} {i : Nat} {x t : S.I} : e.source i = some t → S.eqI t x = true →
      Derives e D (.just (ε := ε) x) i x (i + 1)
  | filter {ε : ErrTy S} {i : Nat} {p : S.I → Bool} {t : S.I} : e.source i = some t → p t = true →
      Derives e D (.filter (ε := ε) p) i t (i + 1)
  | filterMap {ε : ErrTy S} {α : Type} {i : Nat} {f : S.I → Option α} {t : S.I} {o : α} :
      e.source i = some t → f t = some o → Derives e D (.filterMap (ε := ε) f) i o (i + 1)
  | seq {ε : ErrTy S} {α : Type} {i : Nat} {v : α} {items : List S.I} :
      (∀ k x, items[k]? = some x → ∃ t, e.source (i + k) = some t ∧ S.eqI t x = true) →
      Derives e D (.seq (ε := ε) v items) i v (i + items.length)
  | oneOf {ε : ErrTy S} {i : Nat} {items : List S.I} {t x : S.I} : e.source i = some t →
      x ∈ items → S.eqI t x = true → Derives e D (.oneOf (ε := ε) items) i t (i + 1)
  | noneOf {ε : ErrTy S} {i : Nat} {items : List S.I} {t : S.I} : e.source i = some t →
      (∀ x, x ∈ items → S.eqI t x = false) → Derives e D (.noneOf (ε := ε) items) i t (i + 1)
  | boxed {ε : ErrTy S} {α : Type} {g : G S N ε α} {i j : Nat} {o : α} :
      Derives e D g i o j → Derives e D (.boxed g) i o j
  | withError {ε : ErrTy S} {α : Type} {g : G S N ε α} {i j : Nat} {o : α} :
      Derives e D g i o j → Derives e D (.withError g) i o j
  | to {ε : ErrTy S} {α β : Type} {g : G S N ε α} {v : β} {i j : Nat} {o : α} :
      Derives e D g i o j → Derives e D (.to g v) i v j
  | some {ε : ErrTy S} {α : Type} {g : G S N ε α} {i j : Nat} {o : α} :
      Derives e D g i o j → Derives e D (.some g) i (some o) j
  | map {ε : ErrTy S} {α β : Type} {f : α → β} {g : G S N ε α} {i j : Nat} {o : α} :
      Derives e D g i o j → Derives e D (.map f g) i (f o) j
  | mapWithSpan {ε : ErrTy S} {α β : Type} {f : α → S.Span → β} {g : G S N ε α} {i j : Nat} {o : α} :
      Derives e D g i o j → Derives e D (.mapWithSpan f g) i (f o (e.spanOf i j)) j
  | mapErr {ε ε' : ErrTy S} {α : Type} {f : ε'.E → ε.E} {g : G S N ε' α} {i j : Nat} {o : α} :
      Derives e D g i o j → Derives e D (.mapErr f g) i o j
  | mapErrWithSpan {ε ε' : ErrTy S} {α : Type} {f : ε'.E → S.Span → ε.E} {g : G S N ε' α}
      {i j : Nat} {o : α} : Derives e D g i o j → Derives e D (.mapErrWithSpan f g) i o j
  | tryMap {ε : ErrTy S} {α β : Type} {f : α → S.Span → TryMapResult β ε.E} {g : G S N ε α}
      {i j : Nat} {a : α} {o : β} : Derives e D g i a j → f a (e.spanOf i j) = .ok o →
      Derives e D (.tryMap f g) i o j
  | then_ {ε : ErrTy S} {α β : Type} {a : G S N ε α} {b : G S N ε β} {i j k : Nat} {x : α} {y : β} :
      Derives e D a i x j → Derives e D b j y k → Derives e D (.then_ a b) i (x, y) k
  | thenIgnore {ε : ErrTy S} {α β : Type} {a : G S N ε α} {b : G S N ε β} {i j k : Nat} {x : α} {y : β} :
      Derives e D a i x j → Derives e D b j y k → Derives e D (.thenIgnore a b) i x k
  | ignoreThen {ε : ErrTy S} {α β : Type} {a : G S N ε α} {b : G S N ε β} {i j k : Nat} {x : α} {y : β} :
      Derives e D a i x j → Derives e D b j y k → Derives e D (.ignoreThen a b) i y k
  | delimitedBy {ε : ErrTy S} {α β γ : Type} {l : G S N ε α} {m : G S N ε β} {r : G S N ε γ}
      {i j k h : Nat} {x : α} {y : β} {z : γ} :
      Derives e D l i x j → Derives e D m j y k → Derives e D r k z h →
      Derives e D (.delimitedBy l m r) i y h
  | paddedBy {ε : ErrTy S} {α β : Type} {p : G S N ε α} {m : G S N ε β} {i j k h : Nat} {x z : α} {y : β} :
      Derives e D p i x j → Derives e D m j y k → Derives e D p k z h →
      Derives e D (.paddedBy p m) i y h
  | chain {ε : ErrTy S} {α : Type} {gs : GL S N ε α} {i j : Nat} {os : List α} :
      DerivesAll e D gs i os j → Derives e D (.chain gs) i os j
  | orLeft {ε : ErrTy S} {α : Type} {a b : G S N ε α} {i j : Nat} {o : α} :
      Derives e D a i o j → Derives e D (.or a b) i o j
  | orRight {ε : ErrTy S} {α : Type} {a b : G S N ε α} {i j : Nat} {o : α} :
      Derives e D b i o j → Derives e D (.or a b) i o j
  | orNotSome {ε : ErrTy S} {α : Type} {g : G S N ε α} {i j : Nat} {o : α} :
      Derives e D g i o j → Derives e D (.orNot g) i (some o) j
  | orNotNone {ε : ErrTy S} {α : Type} {g : G S N ε α} {i : Nat} : Derives e D (.orNot g) i none i
  | alters {ε : ErrTy S} {α : Type} {gs : GL S N ε α} {i j : Nat} {o : α} :
      DerivesOne e D gs i o j → Derives e D (.alters gs) i o j
  | repeated {ε : ErrTy S} {α : Type} {c : RepCfg} {g : G S N ε α} {i j : Nat} {os : List α} :
      DerivesItems e D c g (none : Option (G S N ε α)) 0 i os j → Derives e D (.repeated c g) i os j
  | separatedBy {ε : ErrTy S} {α β : Type} {c : RepCfg} {g : G S N ε α} {sep : G S N ε β} {i j : Nat}
      {os : List α} : DerivesItems e D c g (some sep) 0 i os j →
      Derives e D (.separatedBy c g sep) i os j
  | toRecover {ε : ErrTy S} {α : Type} {g : G S N ε α} {st : CS S N ε α} {i j : Nat} {o : α} :
      Derives e D g i o j → Derives e D (.toRecover g st) i o j
  | call {k : N.K} {g : G S N (N.err k) (N.out k)} {i j : Nat} {o : N.out k} :
      D k = some g → Derives e D g i o j → Derives e D (.call k) i o j

/-- A sentence of each parser of the list, one after the other. -/
inductive DerivesAll (e : Env S) (D : Defs S N) :
    {ε : ErrTy S} → {α : Type} → GL S N ε α → Nat → List α → Nat → Prop
  | nil {ε : ErrTy S} {α : Type} {i : Nat} : DerivesAll e D (.nil (ε := ε) (α := α)) i [] i
  | cons {ε : ErrTy S} {α : Type} {g : G S N ε α} {gs : GL S N ε α} {i j k : Nat} {o : α} {os : List α} :
      Derives e D g i o j → DerivesAll e D gs j os k → DerivesAll e D (.cons g gs) i (o :: os) k

/-- A sentence of one of the parsers of the list. -/
inductive DerivesOne (e : Env S) (D : Defs S N) :
    {ε : ErrTy S} → {α : Type} → GL S N ε α → Nat → α → Nat → Prop
  | here {ε : ErrTy S} {α : Type} {g : G S N ε α} {gs : GL S N ε α} {i j : Nat} {o : α} :
      Derives e D g i o j → DerivesOne e D (.cons g gs) i o j
  | later {ε : ErrTy S} {α : Type} {g : G S N ε α} {gs : GL S N ε α} {i j : Nat} {o : α} :
      DerivesOne e D gs i o j → DerivesOne e D (.cons g gs) i o j

/-- The items `os` of a repetition, after `k` others, with the separators between them. -/
inductive DerivesItems (e : Env S) (D : Defs S N) : {ε : ErrTy S} → {α β : Type} → RepCfg →
    G S N ε α → Option (G S N ε β) → Nat → Nat → List α → Nat → Prop
  | stop {ε : ErrTy S} {α β : Type} {c : RepCfg} {g : G S N ε α} {sep : Option (G S N ε β)} {k i : Nat} :
      c.minimum ≤ k → DerivesItems e D c g sep k i [] i
  | trailing {ε : ErrTy S} {α β : Type} {c : RepCfg} {g : G S N ε α} {sep : G S N ε β} {k i j : Nat}
      {x : β} : c.minimum ≤ k → c.allowTrailing = true → c.WantsSep k → Derives e D sep i x j →
      DerivesItems e D c g (some sep) k i [] j
  | plain {ε : ErrTy S} {α β : Type} {c : RepCfg} {g : G S N ε α} {k i h j : Nat} {o : α} {os : List α} :
      ¬ c.Full k → Derives e D g i o h → DerivesItems e D c g (none : Option (G S N ε β)) (k + 1) h os j →
      DerivesItems e D c g (none : Option (G S N ε β)) k i (o :: os) j
  | first {ε : ErrTy S} {α β : Type} {c : RepCfg} {g : G S N ε α} {sep : G S N ε β} {i h j : Nat} {o : α}
      {os : List α} : ¬ c.Full 0 → Derives e D g i o h → DerivesItems e D c g (some sep) 1 h os j →
      DerivesItems e D c g (some sep) 0 i (o :: os) j
  | separated {ε : ErrTy S} {α β : Type} {c : RepCfg} {g : G S N ε α} {sep : G S N ε β}
      {k i i' h j : Nat} {x : β} {o : α} {os : List α} : ¬ c.Full k → c.WantsSep k →
      Derives e D sep i x i' → Derives e D g i' o h → DerivesItems e D c g (some sep) (k + 1) h os j →
      DerivesItems e D c g (some sep) k i (o :: os) j

end

section

variable (ν : Bool → N.K → Bool) (φ : N.K → S.I → Prop) (F : N.K → Option S.I → Prop)

mutual

/-- The tokens that a sentence may begin with; `φ` says it of the recursive parsers. -/
def _root_.PPC.G.Begins : {ε : ErrTy S} → {α : Type} → G S N ε α → S.I → Prop
  | _, _, .empty, _ => False
  | _, _, .none _, _ => False
  | _, _, .eof, _ => False
  | _, _, .just x, t => S.eqI t x = true
  | _, _, .filter p, t => p t = true
  | _, _, .filterMap f, t => (f t).isSome = true
  | _, _, .seq _ items, t => ∃ x, items.head? = Option.some x ∧ S.eqI t x = true
  | _, _, .oneOf items, t => ∃ x, x ∈ items ∧ S.eqI t x = true
  | _, _, .noneOf items, t => ∀ x, x ∈ items → S.eqI t x = false
  | _, _, .boxed g, t => g.Begins t
  | _, _, .withError g, t => g.Begins t
  | _, _, .to g _, t => g.Begins t
  | _, _, .some g, t => g.Begins t
  | _, _, .map _ g, t => g.Begins t
  | _, _, .mapWithSpan _ g, t => g.Begins t
  | _, _, .mapErr _ g, t => g.Begins t
  | _, _, .mapErrWithSpan _ g, t => g.Begins t
  | _, _, .tryMap _ g, t => g.Begins t
  | _, _, .then_ a b, t => a.Begins t ∨ a.mayEmpty ν false = true ∧ b.Begins t
  | _, _, .thenIgnore a b, t => a.Begins t ∨ a.mayEmpty ν false = true ∧ b.Begins t
  | _, _, .ignoreThen a b, t => a.Begins t ∨ a.mayEmpty ν false = true ∧ b.Begins t
  | _, _, .delimitedBy l m r, t => l.Begins t ∨ l.mayEmpty ν false = true ∧
      (m.Begins t ∨ m.mayEmpty ν false = true ∧ r.Begins t)
  | _, _, .paddedBy p m, t => p.Begins t ∨ p.mayEmpty ν false = true ∧ m.Begins t
  | _, _, .chain gs, t => gs.BeginsAll t
  | _, _, .or a b, t => a.Begins t ∨ b.Begins t
  | _, _, .orNot g, t => g.Begins t
  | _, _, .alters gs, t => gs.BeginsOne t
  | _, _, .repeated _ g, t => g.Begins t
  | _, _, .separatedBy c g sep, t => g.Begins t ∨
      (c.allowLeading = true ∨ g.mayEmpty ν false = true) ∧ sep.Begins t
  | _, _, .toRecover g _, t => g.Begins t
  | _, _, .call k, t => φ k t

/-- The same for one parser after the other. -/
def _root_.PPC.GL.BeginsAll : {ε : ErrTy S} → {α : Type} → GL S N ε α → S.I → Prop
  | _, _, .nil, _ => False
  | _, _, .cons g gs, t => g.Begins t ∨ g.mayEmpty ν false = true ∧ gs.BeginsAll t

/-- The same for one of the parsers. -/
def _root_.PPC.GL.BeginsOne : {ε : ErrTy S} → {α : Type} → GL S N ε α → S.I → Prop
  | _, _, .nil, _ => False
  | _, _, .cons g gs, t => g.Begins t ∨ gs.BeginsOne t

end

/-- What may come next where `p` begins or, if that may be empty, where it ends: one of the tokens
`b`, or something that may follow (`w`); nothing stands for the end of the input. -/
def Next (b : S.I → Prop) (may : Bool) (w : Option S.I → Prop) (x : Option S.I) : Prop :=
  (∃ t, x = Option.some t ∧ b t) ∨ may = true ∧ w x

/-- No token is in both sets. -/
def Apart (b : S.I → Prop) (w : Option S.I → Prop) : Prop := ∀ t, b t → ¬ w (Option.some t)

mutual

/-- The next token decides: if what may follow the parser is `w`, then at each choice, option and
repetition in it, the next token belongs to one of the possibilities only. `F` says what may follow
the recursive parsers. -/
def _root_.PPC.G.Predictive : {ε : ErrTy S} → {α : Type} → G S N ε α → (Option S.I → Prop) → Prop
  | _, _, .empty, _ => True
  | _, _, .none _, _ => True
  | _, _, .eof, _ => True
  | _, _, .just _, _ => True
  | _, _, .filter _, _ => True
  | _, _, .filterMap _, _ => True
  | _, _, .seq _ _, _ => True
  | _, _, .oneOf _, _ => True
  | _, _, .noneOf _, _ => True
  | _, _, .boxed g, w => g.Predictive w
  | _, _, .withError g, w => g.Predictive w
  | _, _, .to g _, w => g.Predictive w
  | _, _, .some g, w => g.Predictive w
  | _, _, .map _ g, w => g.Predictive w
  | _, _, .mapWithSpan _ g, w => g.Predictive w
  | _, _, .mapErr _ g, w => g.Predictive w
  | _, _, .mapErrWithSpan _ g, w => g.Predictive w
  | _, _, .tryMap _ g, w => g.Predictive w
  | _, _, .then_ a b, w => a.Predictive (Next (b.Begins ν φ) (b.mayEmpty ν false) w) ∧ b.Predictive w
  | _, _, .thenIgnore a b, w => a.Predictive (Next (b.Begins ν φ) (b.mayEmpty ν false) w) ∧ b.Predictive w
  | _, _, .ignoreThen a b, w => a.Predictive (Next (b.Begins ν φ) (b.mayEmpty ν false) w) ∧ b.Predictive w
  | _, _, .delimitedBy l m r, w =>
    l.Predictive (Next (m.Begins ν φ) (m.mayEmpty ν false) (Next (r.Begins ν φ) (r.mayEmpty ν false) w)) ∧
      m.Predictive (Next (r.Begins ν φ) (r.mayEmpty ν false) w) ∧ r.Predictive w
  | _, _, .paddedBy p m, w =>
    p.Predictive (Next (m.Begins ν φ) (m.mayEmpty ν false) (Next (p.Begins ν φ) (p.mayEmpty ν false) w)) ∧
      m.Predictive (Next (p.Begins ν φ) (p.mayEmpty ν false) w) ∧ p.Predictive w
  | _, _, .chain gs, w => gs.PredictiveAll w
  | _, _, .or a b, w => a.mayEmpty ν false = false ∧
      Apart (a.Begins ν φ) (Next (b.Begins ν φ) (b.mayEmpty ν false) w) ∧ a.Predictive w ∧ b.Predictive w
  | _, _, .orNot g, w => g.mayEmpty ν false = false ∧ Apart (g.Begins ν φ) w ∧ g.Predictive w
  | _, _, .alters gs, w => gs.PredictiveOne w
  | _, _, .repeated c g, w =>
    (c.maximum = Option.some c.minimum ∨ g.mayEmpty ν false = false ∧ Apart (g.Begins ν φ) w) ∧
      g.Predictive (Next (g.Begins ν φ) true w)
  | _, _, .separatedBy c g sep, w => g.mayEmpty ν false = false ∧ sep.mayEmpty ν false = false ∧
      Apart (g.Begins ν φ) w ∧ Apart (sep.Begins ν φ) w ∧
      (c.allowLeading = true → ∀ t, g.Begins ν φ t → ¬ sep.Begins ν φ t) ∧
      g.Predictive (Next (sep.Begins ν φ) true w) ∧ sep.Predictive (Next (g.Begins ν φ) true w)
  | _, _, .toRecover g _, w => g.Predictive w
  | _, _, .call k, w => ∀ x, w x → F k x

/-- The same for one parser after the other. -/
def _root_.PPC.GL.PredictiveAll : {ε : ErrTy S} → {α : Type} → GL S N ε α → (Option S.I → Prop) → Prop
  | _, _, .nil, _ => True
  | _, _, .cons g gs, w => g.Predictive (Next (gs.BeginsAll ν φ) (gs.allEmpty ν false) w) ∧ gs.PredictiveAll w

/-- The same for one of the parsers. -/
def _root_.PPC.GL.PredictiveOne : {ε : ErrTy S} → {α : Type} → GL S N ε α → (Option S.I → Prop) → Prop
  | _, _, .nil, _ => True
  | _, _, .cons g .nil, w => g.Predictive w
  | _, _, .cons g (.cons h hs), w => g.mayEmpty ν false = false ∧
      Apart (g.Begins ν φ) (Next ((GL.cons h hs).BeginsOne ν φ) ((GL.cons h hs).anyEmpty ν false) w) ∧
      g.Predictive w ∧ (GL.cons h hs).PredictiveOne w

end

/-- A predictive grammar: no endless repetition, no left recursion, every recursive parser is
defined, `φ` holds of the tokens that their sentences may begin with, and the next token decides in
their definitions, if what follows them is in `F`. -/
structure Predictive (D : Defs S N) : Prop where
  plain : D.Plain
  progress : D.All (progressL S N ν)
  nullable : Nullable D ν
  noLeft : NoLeftRecursion D ν
  defined : ∀ k, (D k).isSome = true
  begins : ∀ k g t, D k = some g → g.Begins ν φ t → φ k t
  decided : ∀ k g, D k = some g → g.Predictive ν φ F (F k)

end

end Cfg

end PPC
