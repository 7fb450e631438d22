import Verif.Recovery

/-!
# Parsers as data

`G S N ε α` is the type of parsers that can be built from the crate's primitives,
combinators, recovery strategies and recursive parsers, over tokens and locations
`S`, with error type `ε` and output `α`. `denote` maps each constructor to the
model of its `parse_internal`.
-/

namespace PPC

/-- Names of the recursive parsers (`recursive.rs`) with their output and error
types. -/
structure Names (S : Sig) where
  K : Type
  out : K → Type
  err : K → ErrTy S

mutual

/-- Parsers; one constructor per `impl Parser` (src/primitive.rs,
src/combinator.rs, src/recursive.rs). -/
inductive G (S : Sig) (N : Names S) : ErrTy S → Type → Type 1 where
  | empty {ε} : G S N ε Unit
  | none {ε} (α : Type) : G S N ε (Option α)
  | eof {ε} : G S N ε Unit
  | just {ε} (t : S.I) : G S N ε S.I
  | filter {ε} (p : S.I → Bool) : G S N ε S.I
  | filterMap {ε} {α : Type} (f : S.I → Option α) : G S N ε α
  | seq {ε} {α : Type} (v : α) (items : List S.I) : G S N ε α
  | oneOf {ε} (items : List S.I) : G S N ε S.I
  | noneOf {ε} (items : List S.I) : G S N ε S.I
  | boxed {ε} {α : Type} (g : G S N ε α) : G S N ε α
  | withError {ε} {α : Type} (g : G S N ε α) : G S N ε α
  | to {ε} {α β : Type} (g : G S N ε α) (v : β) : G S N ε β
  | some {ε} {α : Type} (g : G S N ε α) : G S N ε (Option α)
  | map {ε} {α β : Type} (f : α → β) (g : G S N ε α) : G S N ε β
  | mapWithSpan {ε} {α β : Type} (f : α → S.Span → β) (g : G S N ε α) : G S N ε β
  | mapErr {ε ε'} {α : Type} (f : ε'.E → ε.E) (g : G S N ε' α) : G S N ε α
  | mapErrWithSpan {ε ε'} {α : Type} (f : ε'.E → S.Span → ε.E) (g : G S N ε' α) : G S N ε α
  | tryMap {ε} {α β : Type} (f : α → S.Span → TryMapResult β ε.E) (g : G S N ε α) : G S N ε β
  | then_ {ε} {α β : Type} (a : G S N ε α) (b : G S N ε β) : G S N ε (α × β)
  | thenIgnore {ε} {α β : Type} (a : G S N ε α) (b : G S N ε β) : G S N ε α
  | ignoreThen {ε} {α β : Type} (a : G S N ε α) (b : G S N ε β) : G S N ε β
  | delimitedBy {ε} {α β γ : Type} (l : G S N ε α) (m : G S N ε β) (r : G S N ε γ) : G S N ε β
  | paddedBy {ε} {α β : Type} (p : G S N ε α) (m : G S N ε β) : G S N ε β
  | chain {ε} {α : Type} (gs : GL S N ε α) : G S N ε (List α)
  | or {ε} {α : Type} (a b : G S N ε α) : G S N ε α
  | orNot {ε} {α : Type} (g : G S N ε α) : G S N ε (Option α)
  | alters {ε} {α : Type} (gs : GL S N ε α) : G S N ε α
  | repeated {ε} {α : Type} (cfg : RepCfg) (item : G S N ε α) : G S N ε (List α)
  | separatedBy {ε} {α β : Type} (cfg : RepCfg) (item : G S N ε α) (sep : G S N ε β) :
      G S N ε (List α)
  | toRecover {ε} {α : Type} (g : G S N ε α) (st : CS S N ε α) : G S N ε α
  | call (k : N.K) : G S N (N.err k) (N.out k)

/-- Lists of parsers (`Vec<Boxed<..>>` of `Chain` and `Alters`). -/
inductive GL (S : Sig) (N : Names S) : ErrTy S → Type → Type 1 where
  | nil {ε} {α : Type} : GL S N ε α
  | cons {ε} {α : Type} (g : G S N ε α) (gs : GL S N ε α) : GL S N ε α

/-- Incomplete strategies (`IncompleteStrategy`, src/recovery.rs:76-421). -/
inductive IS (S : Sig) (N : Names S) : ErrTy S → Type → Type 1 where
  | attemptTo {ε} {α : Type} : IS S N ε α
  | restart {ε} {α : Type} (s : IS S N ε α) : IS S N ε α
  | seekToFailed {ε} {α : Type} (s : IS S N ε α) : IS S N ε α
  | skip {ε} {α : Type} (s : IS S N ε α) : IS S N ε α
  | skipIf {ε} {α : Type} (s : IS S N ε α) (p : S.I → Bool) : IS S N ε α
  | find {ε} {α : Type} (s : IS S N ε α) (p : S.I → Bool) : IS S N ε α
  | scan {ε} {α : Type} (s : IS S N ε α) (sc : Scanner S ε.E) : IS S N ε α
  | maybe {ε} {α : Type} (s t : IS S N ε α) : IS S N ε α
  | whileNot {ε} {α : Type} (s : IS S N ε α) (p : S.I → Bool) (t : IS S N ε α) : IS S N ε α
  | retry {ε} {α : Type} (s : IS S N ε α) (exact silent : Bool) : IS S N ε α
  | tryToParse {ε} {α : Type} (s : IS S N ε α) (g : G S N ε α) (exact silent : Bool) : IS S N ε α
  | pushError {ε} {α : Type} (s : IS S N ε α) (e : Unit → ε.E) : IS S N ε α
  | pushErrorHere {ε} {α : Type} (s : IS S N ε α) (f : S.Loc → ε.E) : IS S N ε α
  | pushErrorUpToHere {ε} {α : Type} (s : IS S N ε α) (f : S.Span → ε.E) : IS S N ε α
  | pushErrorForToken {ε} {α : Type} (s : IS S N ε α) (f : Option S.I → S.Span → ε.E) : IS S N ε α
  | updateErrors {ε} {α : Type} (s : IS S N ε α) (f : List ε.E → List ε.E) : IS S N ε α
  | updateErrorsHere {ε} {α : Type} (s : IS S N ε α) (f : List ε.E → S.Loc → List ε.E) : IS S N ε α
  | updateErrorsUpToHere {ε} {α : Type} (s : IS S N ε α) (f : List ε.E → S.Span → List ε.E) :
      IS S N ε α
  | updateErrorsForToken {ε} {α : Type} (s : IS S N ε α)
      (f : List ε.E → Option S.I → S.Span → List ε.E) : IS S N ε α
  | boxed {ε} {α : Type} (s : IS S N ε α) : IS S N ε α

/-- Complete strategies (`Strategy`, src/recovery.rs:63-70). -/
inductive CS (S : Sig) (N : Names S) : ErrTy S → Type → Type 1 where
  | ret {ε} {α : Type} (s : IS S N ε α) (o : α) : CS S N ε α
  | retWith {ε} {α : Type} (s : IS S N ε α) (o : Unit → α) : CS S N ε α
  | retWithSpan {ε} {α : Type} (s : IS S N ε α) (f : S.Span → α) : CS S N ε α
  | orFail {ε} {α : Type} (s : IS S N ε α) : CS S N ε α

end

/-- Meaning of the recursive parsers. -/
abbrev REnv (S : Sig) (N : Names S) : Type := (k : N.K) → Parser S (N.err k).E (N.out k)

mutual

/-- `parse_internal` of a parser, given the recursive parsers and the fuel for
loops. -/
def G.denote {S : Sig} {N : Names S} (ρ : REnv S N) (n : Nat) :
    {ε : ErrTy S} → {α : Type} → G S N ε α → Parser S ε.E α
  | _, _, .empty => pEmpty
  | _, _, .none _ => pNone
  | ε, _, .eof => pEnd ε
  | ε, _, .just t => pJust ε t
  | ε, _, .filter p => pFilter ε p
  | ε, _, .filterMap f => pFilterMap ε f
  | ε, _, .seq v items => pSeq ε v items
  | ε, _, .oneOf items => pOneOf ε items
  | ε, _, .noneOf items => pNoneOf ε items
  | _, _, .boxed g => pBoxed (g.denote ρ n)
  | _, _, .withError g => pWithError (g.denote ρ n)
  | _, _, .to g v => pTo (g.denote ρ n) v
  | _, _, .some g => pSome (g.denote ρ n)
  | _, _, .map f g => pMap f (g.denote ρ n)
  | _, _, .mapWithSpan f g => pMapWithSpan f (g.denote ρ n)
  | _, _, .mapErr f g => pMapErr f (g.denote ρ n)
  | _, _, .mapErrWithSpan f g => pMapErrWithSpan f (g.denote ρ n)
  | _, _, .tryMap f g => pTryMap f (g.denote ρ n)
  | _, _, .then_ a b => pThen (a.denote ρ n) (b.denote ρ n)
  | _, _, .thenIgnore a b => pThenIgnore (a.denote ρ n) (b.denote ρ n)
  | _, _, .ignoreThen a b => pIgnoreThen (a.denote ρ n) (b.denote ρ n)
  | _, _, .delimitedBy l m r => pDelimitedBy (l.denote ρ n) (m.denote ρ n) (r.denote ρ n)
  | _, _, .paddedBy p m => pPaddedBy (p.denote ρ n) (m.denote ρ n)
  | _, _, .chain gs => pChain (gs.denote ρ n)
  | ε, _, .or a b => pOr ε (a.denote ρ n) (b.denote ρ n)
  | ε, _, .orNot g => pOrNot ε (g.denote ρ n)
  | ε, _, .alters gs => pAlters ε (gs.denote ρ n)
  | _, _, .repeated cfg item => pRepeated n cfg (item.denote ρ n)
  | _, _, .separatedBy cfg item sep => pSeparatedBy n cfg (item.denote ρ n) (sep.denote ρ n)
  | _, _, .toRecover g st => pToRecover (g.denote ρ n) (st.denote ρ n)
  | _, _, .call k => ρ k

/-- The list of `parse_internal`s of a list of parsers. -/
def GL.denote {S : Sig} {N : Names S} (ρ : REnv S N) (n : Nat) :
    {ε : ErrTy S} → {α : Type} → GL S N ε α → List (Parser S ε.E α)
  | _, _, .nil => []
  | _, _, .cons g gs => g.denote ρ n :: gs.denote ρ n

/-- `recover` of an incomplete strategy. -/
def IS.denote {S : Sig} {N : Names S} (ρ : REnv S N) (n : Nat) :
    {ε : ErrTy S} → {α : Type} → IS S N ε α → Strat S ε.E α
  | _, _, .attemptTo => sAttemptTo
  | _, _, .restart s => sRestart (s.denote ρ n)
  | _, _, .seekToFailed s => sSeekToFailed (s.denote ρ n)
  | _, _, .skip s => sSkip (s.denote ρ n)
  | _, _, .skipIf s p => sSkipIf (s.denote ρ n) p
  | _, _, .find s p => sFind n (s.denote ρ n) p
  | _, _, .scan s sc => sScan n (s.denote ρ n) sc
  | _, _, .maybe s t => sMaybe (s.denote ρ n) (t.denote ρ n)
  | _, _, .whileNot s p t => sWhileNot n (s.denote ρ n) p (t.denote ρ n)
  | _, _, .retry s exact silent => sRetry (s.denote ρ n) exact silent
  | _, _, .tryToParse s g exact silent => sTryToParse (s.denote ρ n) (g.denote ρ n) exact silent
  | _, _, .pushError s e => sPushError (s.denote ρ n) e
  | _, _, .pushErrorHere s f => sPushErrorHere (s.denote ρ n) f
  | _, _, .pushErrorUpToHere s f => sPushErrorUpToHere (s.denote ρ n) f
  | _, _, .pushErrorForToken s f => sPushErrorForToken (s.denote ρ n) f
  | _, _, .updateErrors s f => sUpdateErrors (s.denote ρ n) f
  | _, _, .updateErrorsHere s f => sUpdateErrorsHere (s.denote ρ n) f
  | _, _, .updateErrorsUpToHere s f => sUpdateErrorsUpToHere (s.denote ρ n) f
  | _, _, .updateErrorsForToken s f => sUpdateErrorsForToken (s.denote ρ n) f
  | _, _, .boxed s => sBoxed (s.denote ρ n)

/-- `recover` of a complete strategy. -/
def CS.denote {S : Sig} {N : Names S} (ρ : REnv S N) (n : Nat) :
    {ε : ErrTy S} → {α : Type} → CS S N ε α → Strat S ε.E α
  | _, _, .ret s o => sReturn (s.denote ρ n) o
  | _, _, .retWith s o => sReturnWith (s.denote ρ n) o
  | _, _, .retWithSpan s f => sReturnWithSpan (s.denote ρ n) f
  | _, _, .orFail s => sOrFail (s.denote ρ n)

end

/-- The definitions given to the recursive parsers: `none` is a parser that was
declared but never defined. -/
abbrev Defs (S : Sig) (N : Names S) : Type 1 := (k : N.K) → Option (G S N (N.err k) (N.out k))

/-- `Recursive::parse_internal` (src/recursive.rs:56-66): look up the definition
and run it. The first argument bounds the recursion depth. -/
def callRec {S : Sig} {N : Names S} (D : Defs S N) : Nat → REnv S N
  | 0, _, _ => .oof
  | n + 1, k, en =>
    match D k with
    | some g => g.denote (callRec D n) n en
    | none => .panic "recursive parser is not defined"

/-- `parse_internal` of a parser whose recursive parsers are defined by `D`. `n`
bounds the recursion depth and the number of iterations of each loop; a parse that
needs more is `oof`. -/
def G.prog {S : Sig} {N : Names S} (D : Defs S N) (n : Nat) {ε : ErrTy S} {α : Type}
    (g : G S N ε α) : Parser S ε.E α :=
  g.denote (callRec D n) n

/-! ## Declaring and defining recursive parsers -/

/-- The contents of a `Recursive` (src/recursive.rs:9-12): shared by all clones. -/
abbrev RecSlot (α : Type 1) : Type 1 := Option α

/-- `Recursive::declare` (src/recursive.rs:29-33) -/
def RecSlot.declare {α : Type 1} : RecSlot α := none

/-- `Recursive::define` (src/recursive.rs:37-45). Returns the panic message, if
any, and the slot (the new definition is stored before the assertion). -/
def RecSlot.define {α : Type 1} (s : RecSlot α) (d : α) : Option String × RecSlot α :=
  match s with
  | none => (none, some d)
  | some _ => (some "multiple definitions for recursive parser", some d)

/-- `recursive` (src/recursive.rs:69-78): declare, then define. `f` receives the
(shared) recursive parser itself. -/
def RecSlot.recursive {α ref : Type 1} (r : ref) (f : ref → α) : Option String × RecSlot α :=
  RecSlot.declare.define (f r)

end PPC
