import Verif.Grammar
import Verif.Cursor

/-!
# Instances of generic parsers (specification of C62)

A parser written for any token type and any location tracker can be used with several. Two such instances are parsers
of the same shape, over two signatures, whose parameters (tokens, predicates, functions, output values, …) correspond.
What corresponds is up to the user: relations between tokens, locations and spans, relations between
errors, and one relation between outputs for each parser.
-/

namespace PPC.Generic

/-- Both absent, or both present and related. -/
inductive OptR {α β : Type} (R : α → β → Prop) : Option α → Option β → Prop
  | none : OptR R .none .none
  | some {a : α} {b : β} (h : R a b) : OptR R (.some a) (.some b)

/-- Lists of the same length, related element by element. -/
inductive ListR {α β : Type} (R : α → β → Prop) : List α → List β → Prop
  | nil : ListR R [] []
  | cons {a : α} {b : β} {as : List α} {bs : List β} (h : R a b) (hs : ListR R as bs) : ListR R (a :: as) (b :: bs)

/-- Pairs, related part by part. -/
def ProdR {α α' β β' : Type} (A : α → α' → Prop) (B : β → β' → Prop) (x : α × β) (y : α' × β') : Prop :=
  A x.1 y.1 ∧ B x.2 y.2

/-- Correspondence of tokens, locations and spans. -/
structure SigRel (S S' : Sig) where
  tok : S.I → S'.I → Prop
  loc : S.Loc → S'.Loc → Prop
  span : S.Span → S'.Span → Prop
  eqI : ∀ {a a' b b'}, tok a a' → tok b b' → S.eqI a b = S'.eqI a' b'

variable {S S' : Sig}

/-- Inputs of the same length with corresponding tokens, at corresponding places. -/
structure EnvR (ρ : SigRel S S') (e : Env S) (e' : Env S') : Prop where
  source : ∀ i, OptR ρ.tok (e.source i) (e'.source i)
  locationAt : ∀ i, ρ.loc (e.locationAt i) (e'.locationAt i)
  spanOf : ∀ i j, ρ.span (e.spanOf i j) (e'.spanOf i j)

/-- Corresponding places of errors. -/
inductive AtR (ρ : SigRel S S') : At S.Loc S.Span → At S'.Loc S'.Span → Prop
  | none : AtR ρ .none .none
  | location {l l'} (h : ρ.loc l l') : AtR ρ (.location l) (.location l')
  | span {s s'} (h : ρ.span s s') : AtR ρ (.span s) (.span s')

/-- What `alternate` does with a further error (src/algorithm.rs:354-360): merge it if it is at the same place. -/
def mergeIf (ε : ErrTy S) (x y : ε.E) : ε.E := if At.beq S (ε.location y) (ε.location x) then ε.merge x y else x

/-- Correspondence of errors, respected by the functions of the crate that make, inspect and merge errors. -/
structure ErrRel (ρ : SigRel S S') (ε : ErrTy S) (ε' : ErrTy S') where
  R : ε.E → ε'.E → Prop
  expectedFound : ∀ {xs xs' f f' a a'}, ListR (OptR ρ.tok) xs xs' → OptR ρ.tok f f' → AtR ρ a a' →
    R (ε.expectedFound xs f a) (ε'.expectedFound xs' f' a')
  isExpectedFound : ∀ {x x'}, R x x' → ε.isExpectedFound x = ε'.isExpectedFound x'
  merge : ∀ {x x' y y'}, R x x' → R y y' → R (mergeIf ε x y) (mergeIf ε' x' y')

variable {N : Names S} {N' : Names S'}

/-- Correspondence of recursive parsers, their errors and their outputs. -/
structure NamesRel (ρ : SigRel S S') (N : Names S) (N' : Names S') where
  key : N.K → N'.K
  out : (k : N.K) → N.out k → N'.out (key k) → Prop
  err : (k : N.K) → ErrRel ρ (N.err k) (N'.err (key k))

/-- Corresponding results of functions given to `try_map`. -/
inductive TryR {α α' E E' : Type} (A : α → α' → Prop) (R : E → E' → Prop) : TryMapResult α E → TryMapResult α' E' → Prop
  | ok {o o'} (h : A o o') : TryR A R (.ok o) (.ok o')
  | err {es es'} (h : ListR R es es') : TryR A R (.err es) (.err es')
  | recovered {o o' es es'} (h : A o o') (h' : ListR R es es') : TryR A R (.recovered o es) (.recovered o' es')

/-- Corresponding results of `scan`: the same panic, or the same answer, corresponding states and errors. -/
inductive ScanR {σ σ' E E' : Type} (Q : σ → σ' → Prop) (R : E → E' → Prop) :
    Except String (Bool × σ × List E) → Except String (Bool × σ' × List E') → Prop
  | error (m : String) : ScanR Q R (.error m) (.error m)
  | ok {b st st' es es'} (h : Q st st') (h' : ListR R es es') : ScanR Q R (.ok (b, st, es)) (.ok (b, st', es'))

/-- Corresponding scanners. -/
def ScannerR {E E' : Type} (ρ : SigRel S S') (R : E → E' → Prop) (sc : Scanner S E) (sc' : Scanner S' E') : Prop :=
  ∃ Q : sc.σ → sc'.σ → Prop, Q sc.fresh sc'.fresh ∧
    (∀ t t' s s' st st' es es', ρ.tok t t' → ρ.span s s' → Q st st' → ListR R es es' →
      ScanR Q R (sc.scan t s st es) (sc'.scan t' s' st' es')) ∧
    ∀ l l' st st' es es', ρ.loc l l' → Q st st' → ListR R es es' → ListR R (sc.eof l st es) (sc'.eof l' st' es')

/-- Corresponding predicates on tokens. -/
def PredR (ρ : SigRel S S') (p : S.I → Bool) (p' : S'.I → Bool) : Prop := ∀ t t', ρ.tok t t' → p t = p' t'

mutual

/-- Two instances of a parser, whose outputs are related by `A`. -/
inductive RelG (ρ : SigRel S S') (ν : NamesRel ρ N N') : {ε : ErrTy S} → {ε' : ErrTy S'} → ErrRel ρ ε ε' →
    {α α' : Type} → (α → α' → Prop) → G S N ε α → G S' N' ε' α' → Prop
  | empty {ε ε'} {E : ErrRel ρ ε ε'} {A : Unit → Unit → Prop} (h : A () ()) : RelG ρ ν E A .empty .empty
  | none {ε ε'} {E : ErrRel ρ ε ε'} {α α'} {A : α → α' → Prop} : RelG ρ ν E (OptR A) (.none α) (.none α')
  | eof {ε ε'} {E : ErrRel ρ ε ε'} {A : Unit → Unit → Prop} (h : A () ()) : RelG ρ ν E A .eof .eof
  | just {ε ε'} {E : ErrRel ρ ε ε'} {t t'} (h : ρ.tok t t') : RelG ρ ν E ρ.tok (.just t) (.just t')
  | filter {ε ε'} {E : ErrRel ρ ε ε'} {p p'} (h : PredR ρ p p') : RelG ρ ν E ρ.tok (.filter p) (.filter p')
  | filterMap {ε ε'} {E : ErrRel ρ ε ε'} {α α'} {A : α → α' → Prop} {f f'}
      (h : ∀ t t', ρ.tok t t' → OptR A (f t) (f' t')) : RelG ρ ν E A (.filterMap f) (.filterMap f')
  | seq {ε ε'} {E : ErrRel ρ ε ε'} {α α'} {A : α → α' → Prop} {v v' xs xs'} (hv : A v v') (h : ListR ρ.tok xs xs') :
      RelG ρ ν E A (.seq v xs) (.seq v' xs')
  | oneOf {ε ε'} {E : ErrRel ρ ε ε'} {xs xs'} (h : ListR ρ.tok xs xs') : RelG ρ ν E ρ.tok (.oneOf xs) (.oneOf xs')
  | noneOf {ε ε'} {E : ErrRel ρ ε ε'} {xs xs'} (h : ListR ρ.tok xs xs') : RelG ρ ν E ρ.tok (.noneOf xs) (.noneOf xs')
  | boxed {ε ε'} {E : ErrRel ρ ε ε'} {α α'} {A : α → α' → Prop} {g g'} (h : RelG ρ ν E A g g') :
      RelG ρ ν E A (.boxed g) (.boxed g')
  | withError {ε ε'} {E : ErrRel ρ ε ε'} {α α'} {A : α → α' → Prop} {g g'} (h : RelG ρ ν E A g g') :
      RelG ρ ν E A (.withError g) (.withError g')
  | to {ε ε'} {E : ErrRel ρ ε ε'} {α α' β β'} {A : α → α' → Prop} {B : β → β' → Prop} {g g' v v'}
      (h : RelG ρ ν E A g g') (hv : B v v') : RelG ρ ν E B (.to g v) (.to g' v')
  | some {ε ε'} {E : ErrRel ρ ε ε'} {α α'} {A : α → α' → Prop} {g g'} (h : RelG ρ ν E A g g') :
      RelG ρ ν E (OptR A) (.some g) (.some g')
  | map {ε ε'} {E : ErrRel ρ ε ε'} {α α' β β'} {A : α → α' → Prop} {B : β → β' → Prop} {g g' f f'}
      (hf : ∀ a a', A a a' → B (f a) (f' a')) (h : RelG ρ ν E A g g') : RelG ρ ν E B (.map f g) (.map f' g')
  | mapWithSpan {ε ε'} {E : ErrRel ρ ε ε'} {α α' β β'} {A : α → α' → Prop} {B : β → β' → Prop} {g g' f f'}
      (hf : ∀ a a' s s', A a a' → ρ.span s s' → B (f a s) (f' a' s')) (h : RelG ρ ν E A g g') :
      RelG ρ ν E B (.mapWithSpan f g) (.mapWithSpan f' g')
  | mapErr {ε ε' δ δ'} {E : ErrRel ρ ε ε'} {F : ErrRel ρ δ δ'} {α α'} {A : α → α' → Prop} {g g' f f'}
      (hf : ∀ x x', F.R x x' → E.R (f x) (f' x')) (h : RelG ρ ν F A g g') : RelG ρ ν E A (.mapErr f g) (.mapErr f' g')
  | mapErrWithSpan {ε ε' δ δ'} {E : ErrRel ρ ε ε'} {F : ErrRel ρ δ δ'} {α α'} {A : α → α' → Prop} {g g' f f'}
      (hf : ∀ x x' s s', F.R x x' → ρ.span s s' → E.R (f x s) (f' x' s')) (h : RelG ρ ν F A g g') :
      RelG ρ ν E A (.mapErrWithSpan f g) (.mapErrWithSpan f' g')
  | tryMap {ε ε'} {E : ErrRel ρ ε ε'} {α α' β β'} {A : α → α' → Prop} {B : β → β' → Prop} {g g' f f'}
      (hf : ∀ a a' s s', A a a' → ρ.span s s' → TryR B E.R (f a s) (f' a' s')) (h : RelG ρ ν E A g g') :
      RelG ρ ν E B (.tryMap f g) (.tryMap f' g')
  | then_ {ε ε'} {E : ErrRel ρ ε ε'} {α α' β β'} {A : α → α' → Prop} {B : β → β' → Prop} {a a' b b'}
      (ha : RelG ρ ν E A a a') (hb : RelG ρ ν E B b b') : RelG ρ ν E (ProdR A B) (.then_ a b) (.then_ a' b')
  | thenIgnore {ε ε'} {E : ErrRel ρ ε ε'} {α α' β β'} {A : α → α' → Prop} {B : β → β' → Prop} {a a' b b'}
      (ha : RelG ρ ν E A a a') (hb : RelG ρ ν E B b b') : RelG ρ ν E A (.thenIgnore a b) (.thenIgnore a' b')
  | ignoreThen {ε ε'} {E : ErrRel ρ ε ε'} {α α' β β'} {A : α → α' → Prop} {B : β → β' → Prop} {a a' b b'}
      (ha : RelG ρ ν E A a a') (hb : RelG ρ ν E B b b') : RelG ρ ν E B (.ignoreThen a b) (.ignoreThen a' b')
  | delimitedBy {ε ε'} {E : ErrRel ρ ε ε'} {α α' β β' γ γ'} {A : α → α' → Prop} {B : β → β' → Prop}
      {C : γ → γ' → Prop} {a a' b b' c c'} (ha : RelG ρ ν E A a a') (hb : RelG ρ ν E B b b')
      (hc : RelG ρ ν E C c c') : RelG ρ ν E B (.delimitedBy a b c) (.delimitedBy a' b' c')
  | paddedBy {ε ε'} {E : ErrRel ρ ε ε'} {α α' β β'} {A : α → α' → Prop} {B : β → β' → Prop} {a a' b b'}
      (ha : RelG ρ ν E A a a') (hb : RelG ρ ν E B b b') : RelG ρ ν E B (.paddedBy a b) (.paddedBy a' b')
  | chain {ε ε'} {E : ErrRel ρ ε ε'} {α α'} {A : α → α' → Prop} {gs gs'} (h : RelGL ρ ν E A gs gs') :
      RelG ρ ν E (ListR A) (.chain gs) (.chain gs')
  | or {ε ε'} {E : ErrRel ρ ε ε'} {α α'} {A : α → α' → Prop} {a a' b b'}
      (ha : RelG ρ ν E A a a') (hb : RelG ρ ν E A b b') : RelG ρ ν E A (.or a b) (.or a' b')
  | orNot {ε ε'} {E : ErrRel ρ ε ε'} {α α'} {A : α → α' → Prop} {g g'} (h : RelG ρ ν E A g g') :
      RelG ρ ν E (OptR A) (.orNot g) (.orNot g')
  | alters {ε ε'} {E : ErrRel ρ ε ε'} {α α'} {A : α → α' → Prop} {gs gs'} (h : RelGL ρ ν E A gs gs') :
      RelG ρ ν E A (.alters gs) (.alters gs')
  | repeated {ε ε'} {E : ErrRel ρ ε ε'} {α α'} {A : α → α' → Prop} {g g'} {c : RepCfg} (h : RelG ρ ν E A g g') :
      RelG ρ ν E (ListR A) (.repeated c g) (.repeated c g')
  | separatedBy {ε ε'} {E : ErrRel ρ ε ε'} {α α' β β'} {A : α → α' → Prop} {B : β → β' → Prop} {a a' b b'}
      {c : RepCfg} (ha : RelG ρ ν E A a a') (hb : RelG ρ ν E B b b') :
      RelG ρ ν E (ListR A) (.separatedBy c a b) (.separatedBy c a' b')
  | toRecover {ε ε'} {E : ErrRel ρ ε ε'} {α α'} {A : α → α' → Prop} {g g' s s'} (h : RelG ρ ν E A g g')
      (hs : RelCS ρ ν E A s s') : RelG ρ ν E A (.toRecover g s) (.toRecover g' s')
  | call {k : N.K} : RelG ρ ν (ν.err k) (ν.out k) (.call k) (.call (ν.key k))

/-- Two instances of a list of parsers. -/
inductive RelGL (ρ : SigRel S S') (ν : NamesRel ρ N N') : {ε : ErrTy S} → {ε' : ErrTy S'} → ErrRel ρ ε ε' →
    {α α' : Type} → (α → α' → Prop) → GL S N ε α → GL S' N' ε' α' → Prop
  | nil {ε ε'} {E : ErrRel ρ ε ε'} {α α'} {A : α → α' → Prop} : RelGL ρ ν E A .nil .nil
  | cons {ε ε'} {E : ErrRel ρ ε ε'} {α α'} {A : α → α' → Prop} {g g' gs gs'} (h : RelG ρ ν E A g g')
      (hs : RelGL ρ ν E A gs gs') : RelGL ρ ν E A (.cons g gs) (.cons g' gs')

/-- Two instances of an incomplete strategy. -/
inductive RelIS (ρ : SigRel S S') (ν : NamesRel ρ N N') : {ε : ErrTy S} → {ε' : ErrTy S'} → ErrRel ρ ε ε' →
    {α α' : Type} → (α → α' → Prop) → IS S N ε α → IS S' N' ε' α' → Prop
  | attemptTo {ε ε'} {E : ErrRel ρ ε ε'} {α α'} {A : α → α' → Prop} : RelIS ρ ν E A .attemptTo .attemptTo
  | restart {ε ε'} {E : ErrRel ρ ε ε'} {α α'} {A : α → α' → Prop} {s s'} (h : RelIS ρ ν E A s s') :
      RelIS ρ ν E A (.restart s) (.restart s')
  | seekToFailed {ε ε'} {E : ErrRel ρ ε ε'} {α α'} {A : α → α' → Prop} {s s'} (h : RelIS ρ ν E A s s') :
      RelIS ρ ν E A (.seekToFailed s) (.seekToFailed s')
  | skip {ε ε'} {E : ErrRel ρ ε ε'} {α α'} {A : α → α' → Prop} {s s'} (h : RelIS ρ ν E A s s') :
      RelIS ρ ν E A (.skip s) (.skip s')
  | skipIf {ε ε'} {E : ErrRel ρ ε ε'} {α α'} {A : α → α' → Prop} {s s' p p'} (h : RelIS ρ ν E A s s')
      (hp : PredR ρ p p') : RelIS ρ ν E A (.skipIf s p) (.skipIf s' p')
  | find {ε ε'} {E : ErrRel ρ ε ε'} {α α'} {A : α → α' → Prop} {s s' p p'} (h : RelIS ρ ν E A s s')
      (hp : PredR ρ p p') : RelIS ρ ν E A (.find s p) (.find s' p')
  | scan {ε ε'} {E : ErrRel ρ ε ε'} {α α'} {A : α → α' → Prop} {s s' sc sc'} (h : RelIS ρ ν E A s s')
      (hc : ScannerR ρ E.R sc sc') : RelIS ρ ν E A (.scan s sc) (.scan s' sc')
  | maybe {ε ε'} {E : ErrRel ρ ε ε'} {α α'} {A : α → α' → Prop} {s s' t t'} (h : RelIS ρ ν E A s s')
      (ht : RelIS ρ ν E A t t') : RelIS ρ ν E A (.maybe s t) (.maybe s' t')
  | whileNot {ε ε'} {E : ErrRel ρ ε ε'} {α α'} {A : α → α' → Prop} {s s' p p' t t'} (h : RelIS ρ ν E A s s')
      (hp : PredR ρ p p') (ht : RelIS ρ ν E A t t') : RelIS ρ ν E A (.whileNot s p t) (.whileNot s' p' t')
  | retry {ε ε'} {E : ErrRel ρ ε ε'} {α α'} {A : α → α' → Prop} {s s'} {exact silent : Bool}
      (h : RelIS ρ ν E A s s') : RelIS ρ ν E A (.retry s exact silent) (.retry s' exact silent)
  | tryToParse {ε ε'} {E : ErrRel ρ ε ε'} {α α'} {A : α → α' → Prop} {s s' g g'} {exact silent : Bool}
      (h : RelIS ρ ν E A s s') (hg : RelG ρ ν E A g g') :
      RelIS ρ ν E A (.tryToParse s g exact silent) (.tryToParse s' g' exact silent)
  | pushError {ε ε'} {E : ErrRel ρ ε ε'} {α α'} {A : α → α' → Prop} {s s' f f'} (h : RelIS ρ ν E A s s')
      (hf : E.R (f ()) (f' ())) : RelIS ρ ν E A (.pushError s f) (.pushError s' f')
  | pushErrorHere {ε ε'} {E : ErrRel ρ ε ε'} {α α'} {A : α → α' → Prop} {s s' f f'} (h : RelIS ρ ν E A s s')
      (hf : ∀ l l', ρ.loc l l' → E.R (f l) (f' l')) : RelIS ρ ν E A (.pushErrorHere s f) (.pushErrorHere s' f')
  | pushErrorUpToHere {ε ε'} {E : ErrRel ρ ε ε'} {α α'} {A : α → α' → Prop} {s s' f f'} (h : RelIS ρ ν E A s s')
      (hf : ∀ l l', ρ.span l l' → E.R (f l) (f' l')) :
      RelIS ρ ν E A (.pushErrorUpToHere s f) (.pushErrorUpToHere s' f')
  | pushErrorForToken {ε ε'} {E : ErrRel ρ ε ε'} {α α'} {A : α → α' → Prop} {s s' f f'} (h : RelIS ρ ν E A s s')
      (hf : ∀ t t' l l', OptR ρ.tok t t' → ρ.span l l' → E.R (f t l) (f' t' l')) :
      RelIS ρ ν E A (.pushErrorForToken s f) (.pushErrorForToken s' f')
  | updateErrors {ε ε'} {E : ErrRel ρ ε ε'} {α α'} {A : α → α' → Prop} {s s' f f'} (h : RelIS ρ ν E A s s')
      (hf : ∀ es es', ListR E.R es es' → ListR E.R (f es) (f' es')) :
      RelIS ρ ν E A (.updateErrors s f) (.updateErrors s' f')
  | updateErrorsHere {ε ε'} {E : ErrRel ρ ε ε'} {α α'} {A : α → α' → Prop} {s s' f f'} (h : RelIS ρ ν E A s s')
      (hf : ∀ es es' l l', ListR E.R es es' → ρ.loc l l' → ListR E.R (f es l) (f' es' l')) :
      RelIS ρ ν E A (.updateErrorsHere s f) (.updateErrorsHere s' f')
  | updateErrorsUpToHere {ε ε'} {E : ErrRel ρ ε ε'} {α α'} {A : α → α' → Prop} {s s' f f'} (h : RelIS ρ ν E A s s')
      (hf : ∀ es es' l l', ListR E.R es es' → ρ.span l l' → ListR E.R (f es l) (f' es' l')) :
      RelIS ρ ν E A (.updateErrorsUpToHere s f) (.updateErrorsUpToHere s' f')
  | updateErrorsForToken {ε ε'} {E : ErrRel ρ ε ε'} {α α'} {A : α → α' → Prop} {s s' f f'} (h : RelIS ρ ν E A s s')
      (hf : ∀ es es' t t' l l', ListR E.R es es' → OptR ρ.tok t t' → ρ.span l l' →
        ListR E.R (f es t l) (f' es' t' l')) :
      RelIS ρ ν E A (.updateErrorsForToken s f) (.updateErrorsForToken s' f')
  | boxed {ε ε'} {E : ErrRel ρ ε ε'} {α α'} {A : α → α' → Prop} {s s'} (h : RelIS ρ ν E A s s') :
      RelIS ρ ν E A (.boxed s) (.boxed s')

/-- Two instances of a complete strategy. -/
inductive RelCS (ρ : SigRel S S') (ν : NamesRel ρ N N') : {ε : ErrTy S} → {ε' : ErrTy S'} → ErrRel ρ ε ε' →
    {α α' : Type} → (α → α' → Prop) → CS S N ε α → CS S' N' ε' α' → Prop
  | ret {ε ε'} {E : ErrRel ρ ε ε'} {α α'} {A : α → α' → Prop} {s s' o o'} (h : RelIS ρ ν E A s s') (ho : A o o') :
      RelCS ρ ν E A (.ret s o) (.ret s' o')
  | retWith {ε ε'} {E : ErrRel ρ ε ε'} {α α'} {A : α → α' → Prop} {s s' o o'} (h : RelIS ρ ν E A s s')
      (ho : A (o ()) (o' ())) : RelCS ρ ν E A (.retWith s o) (.retWith s' o')
  | retWithSpan {ε ε'} {E : ErrRel ρ ε ε'} {α α'} {A : α → α' → Prop} {s s' f f'} (h : RelIS ρ ν E A s s')
      (hf : ∀ l l', ρ.span l l' → A (f l) (f' l')) : RelCS ρ ν E A (.retWithSpan s f) (.retWithSpan s' f')
  | orFail {ε ε'} {E : ErrRel ρ ε ε'} {α α'} {A : α → α' → Prop} {s s'} (h : RelIS ρ ν E A s s') :
      RelCS ρ ν E A (.orFail s) (.orFail s')

end

/-- Corresponding definitions of recursive parsers: the same ones are defined, by instances of the same parsers. -/
def DefsR {ρ : SigRel S S'} (ν : NamesRel ρ N N') (D : Defs S N) (D' : Defs S' N') : Prop :=
  ∀ k, D k = none ∧ D' (ν.key k) = none ∨
    ∃ g g', D k = some g ∧ D' (ν.key k) = some g' ∧ RelG ρ ν (ν.err k) (ν.out k) g g'

/-- Corresponding results: of the same kind, with related outputs and errors; failures are at the same position. -/
inductive ResR {α α' E E' : Type} (A : α → α' → Prop) (R : E → E' → Prop) : Res α E → Res α' E' → Prop
  | success {o o'} (h : A o o') : ResR A R (.success o) (.success o')
  | recovered {o o' es es'} (h : A o o') (hs : ListR R es es') : ResR A R (.recovered o es) (.recovered o' es')
  | failed {es es'} (x : Nat) (hs : ListR R es es') : ResR A R (.failed x es) (.failed x es')

end PPC.Generic
