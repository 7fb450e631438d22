import Verif.Grammar
import Verif.Cursor

/-!
# Positional semantics

What a parser computes, as a function from the position it starts at to its result
and the position it leaves the cursor at: no stream, no buffer, no saved states.
`SemRefine.lean` proves that running the model of the code against the model of the
stream computes exactly this.
-/

namespace PPC

variable {S : Sig}

/-- A parser as a function: recovery flag, start position ↦ result, end position. -/
abbrev PSem (E α : Type) : Type := Bool → Nat → Out (Res α E × Nat)

/-- A strategy as a function: the parser to retry, start position of the failed
parse, failure position, errors so far, current position ↦ output (if recovered),
new failure position, new errors, end position. -/
abbrev SSem (E α : Type) : Type :=
  PSem E α → Nat → Nat → List E → Nat → Out ((Option α × Nat × List E) × Nat)

/-- Span of the token at `i` (empty at end of input). -/
def Env.here (e : Env S) (i : Nat) : S.Span := e.spanOf i (e.next i)

/-- Failing at position `i` because the token there is not as expected. -/
def mismatch {α : Type} (e : Env S) (ε : ErrTy S) (expected : List (Option S.I)) (i : Nat) :
    Res α ε.E :=
  .failed i [ε.expectedFound expected (e.source i) (.span (e.here i))]

/-! ## Primitives -/

def qEmpty {E : Type} : PSem E Unit := fun _ i => .ok (.success (), i)

def qNone {E α : Type} : PSem E (Option α) := fun _ i => .ok (.success none, i)

def qEnd (e : Env S) (ε : ErrTy S) : PSem ε.E Unit := fun _ i =>
  match e.source i with
  | none => .ok (.success (), i)
  | some t => .ok (.failed i [ε.expectedFound [none] (some t) (.location (e.locationAt i))], i)

def qJust (e : Env S) (ε : ErrTy S) (x : S.I) : PSem ε.E S.I := fun _ i =>
  if isTok S (e.source i) x then .ok (.success x, i + 1)
  else .ok (mismatch e ε [some x] i, i)

def qFilter (e : Env S) (ε : ErrTy S) (p : S.I → Bool) : PSem ε.E S.I := fun _ i =>
  match e.source i with
  | some t => if p t then .ok (.success t, i + 1) else .ok (mismatch e ε [] i, i)
  | none => .ok (mismatch e ε [] i, i)

def qFilterMap {α : Type} (e : Env S) (ε : ErrTy S) (f : S.I → Option α) : PSem ε.E α := fun _ i =>
  match (e.source i).bind f with
  | some o => .ok (.success o, i + 1)
  | none => .ok (mismatch e ε [] i, i)

/-- Match a list of tokens from position `i`: `none` if all match, otherwise the
position and the token that does not. -/
def matchSeq (e : Env S) : List S.I → Nat → Option (Nat × S.I)
  | [], _ => none
  | x :: xs, i => if isTok S (e.source i) x then matchSeq e xs (i + 1) else some (i, x)

def qSeq {α : Type} (e : Env S) (ε : ErrTy S) (v : α) (items : List S.I) : PSem ε.E α := fun _ i =>
  match matchSeq e items i with
  | none => .ok (.success v, i + items.length)
  | some (j, x) => .ok (mismatch e ε [some x] j, i)

def qOneOf (e : Env S) (ε : ErrTy S) (items : List S.I) : PSem ε.E S.I := fun _ i =>
  match e.source i with
  | some t =>
    if items.any (fun x => S.eqI t x) then .ok (.success t, i + 1)
    else .ok (mismatch e ε (items.map some) i, i)
  | none => .ok (mismatch e ε (items.map some) i, i)

def qNoneOf (e : Env S) (ε : ErrTy S) (items : List S.I) : PSem ε.E S.I := fun _ i =>
  match e.source i with
  | some t =>
    if items.any (fun x => S.eqI t x) then .ok (mismatch e ε [] i, i)
    else .ok (.success t, i + 1)
  | none => .ok (.failed i [ε.expectedFound [] none (.location (e.locationAt i))], i)

/-! ## Mapping combinators -/

def qMap {E α β : Type} (f : α → β) (q : PSem E α) : PSem E β := fun en i => do
  let (r, j) ← q en i
  .ok (r.map f, j)

def qMapWithSpan {E α β : Type} (e : Env S) (f : α → S.Span → β) (q : PSem E α) : PSem E β :=
  fun en i => do
  let (r, j) ← q en i
  .ok (r.map (fun a => f a (e.spanOf i j)), j)

def qMapErr {E X α : Type} (f : X → E) (q : PSem X α) : PSem E α := fun en i => do
  let (r, j) ← q en i
  .ok (r.mapErr f, j)

def qMapErrWithSpan {E X α : Type} (e : Env S) (f : X → S.Span → E) (q : PSem X α) : PSem E α :=
  fun en i => do
  let (r, j) ← q en i
  .ok (r.mapErr (fun x => f x (e.spanOf i j)), j)

/-- What `try_map`'s function does with an output for the input from `i` to `j`. -/
def tryMapStep {E α β : Type} (e : Env S) (f : α → S.Span → TryMapResult β E) (en : Bool)
    (i j : Nat) (a : α) : Out (Res β E × Nat) :=
  match f a (e.spanOf i j) with
  | .ok o => .ok (.success o, j)
  | .err es =>
    if es.isEmpty then .panic "assertion failed: !es.is_empty()" else .ok (.failed i es, i)
  | .recovered o es =>
    if es.isEmpty then .panic "assertion failed: !es.is_empty()"
    else if en then .ok (.recovered o es, j)
    else .ok (.failed i es, j)

/-- Prepend the child's recovered errors, except to a success. -/
def Res.prependErrs {α E : Type} (es : List E) : Res α E → Res α E
  | .success x => .success x
  | .recovered x es2 => .recovered x (es ++ es2)
  | .failed i es2 => .failed i (es ++ es2)

def qTryMap {E α β : Type} (e : Env S) (f : α → S.Span → TryMapResult β E) (q : PSem E α) :
    PSem E β := fun en i => do
  match ← q en i with
  | (.success a, j) => tryMapStep e f en i j a
  | (.recovered a es, j) => do
    let (r, k) ← tryMapStep e f en i j a
    .ok (r.prependErrs es, k)
  | (.failed x es, j) => .ok (.failed x es, j)

/-! ## Sequencing -/

/-- Result of a completed sequence or repetition. -/
def finishSem {α E : Type} (en : Bool) (o : α) (r : Option (List E)) (j : Nat) :
    Out (Res α E × Nat) :=
  match r with
  | some es => if en then .ok (.recovered o es, j) else .panic "assertion failed: enable_recovery"
  | none => .ok (.success o, j)

def concatRestSem {E α : Type} (en : Bool) (start : Nat) :
    List (PSem E α) → List α → Option (List E) → Nat → Out (Res (List α) E × Nat)
  | [], out, r, i => finishSem en out r i
  | q :: qs, out, r, i => do
    match ← q en i with
    | (.success b, j) => concatRestSem en start qs (out ++ [b]) r j
    | (.recovered b es, j) => concatRestSem en start qs (out ++ [b]) (extendRec r es) j
    | (.failed x es, _) => .ok (.failed x es, start)

def qConcat {E α : Type} (qs : List (PSem E α)) : PSem E (List α) := fun en i =>
  match qs with
  | [] => .ok (.success [], i)
  | q :: qs => do
    match ← q en i with
    | (.success a, j) => concatRestSem en i qs [a] none j
    | (.recovered a es, j) => concatRestSem en i qs [a] (some es) j
    | (.failed x es, j) => .ok (.failed x es, j)

/-- Second and last element of a pair. -/
def concatLastSem {E β γ : Type} (en : Bool) (start : Nat) (f : β → γ) (qb : PSem E β)
    (r : Option (List E)) (i : Nat) : Out (Res γ E × Nat) := do
  match ← qb en i with
  | (.success b, j) => finishSem en (f b) r j
  | (.recovered b es, j) => finishSem en (f b) (extendRec r es) j
  | (.failed x es, _) => .ok (.failed x es, start)

def qConcat2 {E α β γ : Type} (f : α × β → γ) (qa : PSem E α) (qb : PSem E β) : PSem E γ :=
  fun en i => do
  match ← qa en i with
  | (.success a, j) => concatLastSem en i (fun b => f (a, b)) qb none j
  | (.recovered a es, j) => concatLastSem en i (fun b => f (a, b)) qb (some es) j
  | (.failed x es, j) => .ok (.failed x es, j)

/-- Second element of a triple. -/
def concatMidSem {E β γ δ : Type} (en : Bool) (start : Nat) (f : β × γ → δ) (qb : PSem E β)
    (qc : PSem E γ) (r : Option (List E)) (i : Nat) : Out (Res δ E × Nat) := do
  match ← qb en i with
  | (.success b, j) => concatLastSem en start (fun c => f (b, c)) qc r j
  | (.recovered b es, j) => concatLastSem en start (fun c => f (b, c)) qc (extendRec r es) j
  | (.failed x es, _) => .ok (.failed x es, start)

def qConcat3 {E α β γ δ : Type} (f : α × β × γ → δ) (qa : PSem E α) (qb : PSem E β)
    (qc : PSem E γ) : PSem E δ := fun en i => do
  match ← qa en i with
  | (.success a, j) => concatMidSem en i (fun x => f (a, x)) qb qc none j
  | (.recovered a es, j) => concatMidSem en i (fun x => f (a, x)) qb qc (some es) j
  | (.failed x es, j) => .ok (.failed x es, j)

/-! ## Repetition -/

/-- The item part of an iteration: `before` is the position before the separator,
if a separator was tried. -/
def repItemSem {E α : Type} (cfg : RepCfg) (item : PSem E α) (en : Bool) (start : Nat)
    (again : List α → Option (List E) → Nat → Out (Res (List α) E × Nat))
    (out : List α) (r : Option (List E)) (before : Option Nat) (i : Nat) :
    Out (Res (List α) E × Nat) :=
  if cfg.allowTrailing && cfg.atMax out.length then finishSem en out r i
  else do
    match ← item (en && decide (out.length < cfg.minimum)) i with
    | (.success b, j) => again (out ++ [b]) r j
    | (.recovered b es, j) => again (out ++ [b]) (extendRec r es) j
    | (.failed x es, j) =>
      if cfg.minimum ≤ out.length then
        .ok (.success out, match before with
          | some b => if cfg.allowTrailing then j else b
          | none => j)
      else .ok (.failed x es, start)

def repLoopSem {E α β : Type} (cfg : RepCfg) (item : PSem E α) (sep : Option (PSem E β))
    (en : Bool) (start : Nat) :
    Nat → List α → Option (List E) → Nat → Out (Res (List α) E × Nat)
  | 0, _, _, _ => .oof
  | fuel + 1, out, r, i =>
    if !cfg.allowTrailing && cfg.atMax out.length then finishSem en out r i
    else
      let again := repLoopSem cfg item sep en start fuel
      match sep, (!out.isEmpty || cfg.allowLeading) with
      | some sep, true => do
        match ← sep (en && decide (out.length < cfg.minimum) && !out.isEmpty) i with
        | (.success _, j) => repItemSem cfg item en start again out r (some i) j
        | (.recovered _ es, j) => repItemSem cfg item en start again out (extendRec r es) (some i) j
        | (.failed x es, j) =>
          if out.isEmpty then repItemSem cfg item en start again out r (some i) j
          else if cfg.minimum ≤ out.length then .ok (.success out, j)
          else .ok (.failed x es, start)
      | _, _ => repItemSem cfg item en start again out r none i

def qRepeat {E α β : Type} (fuel : Nat) (cfg : RepCfg) (item : PSem E α)
    (sep : Option (PSem E β)) : PSem E (List α) := fun en i =>
  repLoopSem cfg item sep en i fuel [] none i

/-! ## Choice -/

/-- A failed alternative. -/
abbrev FailSem (E α : Type) : Type := Nat × List E × PSem E α

def altFirstSem {E α : Type} : List (PSem E α) → List (FailSem E α) → Nat →
    Out ((α ⊕ List (FailSem E α)) × Nat)
  | [], fails, i => .ok (.inr fails, i)
  | q :: qs, fails, i => do
    match ← q false i with
    | (.success o, j) => .ok (.inl o, j)
    | (.recovered _ _, _) =>
      .panic "internal error: entered unreachable code: parser recovered from an error with recovery disabled"
    | (.failed x es, j) => altFirstSem qs (fails ++ [(x, es, q)]) j

def altRecoverSem {E α : Type} : List (FailSem E α) → Nat → Out (Option (Res α E) × Nat)
  | [], i => .ok (none, i)
  | (_, _, q) :: rest, i => do
    match ← q true i with
    | (.success _, _) =>
      .panic "internal error: entered unreachable code: parser that previously failed now magically succeeded"
    | (.recovered o es, j) => .ok (some (.recovered o es), j)
    | (.failed _ _, j) => altRecoverSem rest j

/-- The failure reported by a choice, from the failures in order of preference. -/
def altCombineSem {α : Type} (ε : ErrTy S) (fails : List (Nat × List ε.E)) (i : Nat) :
    Out (Res α ε.E × Nat) :=
  let second (rest : List (Nat × List ε.E)) : Out (Res α ε.E × Nat) :=
    match rest with
    | (x, es) :: _ => .ok (.failed x es, i)
    | [] => .panic "called `Option::unwrap()` on a `None` value"
  match fails with
  | [] => .panic "called `Option::unwrap()` on a `None` value"
  | (x, es) :: rest =>
    match es with
    | [d] =>
      if ε.isExpectedFound d then .ok (.failed x [mergeAll ε d (rest.flatMap (·.2))], i)
      else second rest
    | _ => second rest

def qAlternate {α : Type} (ε : ErrTy S) (qs : List (PSem ε.E α)) : PSem ε.E α := fun en i => do
  match ← altFirstSem qs [] i with
  | (.inl o, j) => .ok (.success o, j)
  | (.inr fails, j) =>
    if fails.isEmpty then .panic "cannot have zero alternatives for alternate()"
    else
      let sorted := sortDesc fails
      if en then do
        match ← altRecoverSem sorted j with
        | (some r, k) => .ok (r, k)
        | (none, k) => altCombineSem ε (sorted.map fun f => (f.1, f.2.1)) k
      else altCombineSem ε (sorted.map fun f => (f.1, f.2.1)) j

/-! ## Recovery strategies -/

def SSem.orElse {E α : Type} (child act : SSem E α) : SSem E α := fun q st fa es i => do
  match ← child q st fa es i with
  | ((some o, fa', es'), j) => .ok ((some o, fa', es'), j)
  | ((none, fa', es'), j) => act q st fa' es' j

/-- Give up, leaving the cursor at `j`. -/
def giveUp {α E : Type} (fa : Nat) (es : List E) (j : Nat) :
    Out ((Option α × Nat × List E) × Nat) := .ok ((none, fa, es), j)

/-- Does the token at `i` satisfy `p`; `default` at end of input. -/
def Env.tokIs (e : Env S) (p : S.I → Bool) (default : Bool) (i : Nat) : Bool :=
  match e.source i with
  | some t => p t
  | none => default

def findSem (e : Env S) (p : S.I → Bool) : Nat → Nat → Out Nat
  | 0, _ => .oof
  | fuel + 1, i => if e.tokIs p true i then .ok i else findSem e p fuel (e.next i)

def scanSem {E : Type} (e : Env S) (sc : Scanner S E) : Nat → sc.σ → List E → Nat →
    Out (List E × Nat)
  | 0, _, _, _ => .oof
  | fuel + 1, st, es, i =>
    match e.source i with
    | some t =>
      match sc.scan t (e.here i) st es with
      | .error m => .panic m
      | .ok (true, _, es') => .ok (es', i)
      | .ok (false, st', es') => scanSem e sc fuel st' es' (i + 1)
    | none => .ok (sc.eof (e.locationAt i) st es, i)

def whileNotSem {E α : Type} (e : Env S) (p : S.I → Bool) (inner : SSem E α) (q : PSem E α)
    (st : Nat) : Nat → Nat → List E → Nat → Out ((Option α × Nat × List E) × Nat)
  | 0, _, _, _ => .oof
  | fuel + 1, fa, es, i =>
    if e.tokIs p true i then giveUp fa es i
    else do
      match ← inner q st fa es i with
      | ((some o, fa', es'), j) => .ok ((some o, fa', es'), j)
      | ((none, fa', es'), j) => whileNotSem e p inner q st fuel fa' es' (e.next j)

/-- `save_at`: a position before the current one is refused. -/
def saveAtSem (x i : Nat) : Out Nat :=
  if x < i then .panic "assertion failed: index == self.index" else .ok x

def runInSem {E α : Type} (q : PSem E α) (exact silent : Bool) (fa : Nat) (es : List E) (i : Nat) :
    Out ((Option α × Nat × List E) × Nat) := do
  match ← q (!exact) i with
  | (.success o, j) => .ok ((some o, fa, es), j)
  | (.recovered o es', j) => .ok ((some o, fa, if silent then es else es ++ es'), j)
  | (.failed x es', j) => do
    let fa' ← saveAtSem x j
    giveUp fa' (if silent then es else es ++ es') j

/-- End of a recovery from position `j`: the output, or the original failure. -/
def toRecoverEndSem {E α : Type} (last j : Nat) :
    (Option α × Nat × List E) × Nat → Out (Res α E × Nat)
  | ((some o, _, es'), k) => .ok (.recovered o es', k)
  | ((none, _, es'), _) => .ok (.failed last es', j)

def qToRecover {E α : Type} (q : PSem E α) (s : SSem E α) : PSem E α := fun en i => do
  match ← q en i with
  | (.failed last es, j) =>
    if !en then .ok (.failed last es, j)
    else do
      let fa ← saveAtSem last j
      let r ← s q j fa es j
      toRecoverEndSem last j r
  | x => .ok x

/-! ## Grammars -/

/-- Semantics of the recursive parsers. -/
abbrev QEnv (S : Sig) (N : Names S) : Type := (k : N.K) → PSem (N.err k).E (N.out k)

mutual

/-- Positional semantics of a parser. -/
def G.den {S : Sig} {N : Names S} (e : Env S) (ρ : QEnv S N) (n : Nat) :
    {ε : ErrTy S} → {α : Type} → G S N ε α → PSem ε.E α
  | _, _, .empty => qEmpty
  | _, _, .none _ => qNone
  | ε, _, .eof => qEnd e ε
  | ε, _, .just t => qJust e ε t
  | ε, _, .filter p => qFilter e ε p
  | ε, _, .filterMap f => qFilterMap e ε f
  | ε, _, .seq v items => qSeq e ε v items
  | ε, _, .oneOf items => qOneOf e ε items
  | ε, _, .noneOf items => qNoneOf e ε items
  | _, _, .boxed g => g.den e ρ n
  | _, _, .withError g => g.den e ρ n
  | _, _, .to g v => qMap (fun _ => v) (g.den e ρ n)
  | _, _, .some g => qMap Option.some (g.den e ρ n)
  | _, _, .map f g => qMap f (g.den e ρ n)
  | _, _, .mapWithSpan f g => qMapWithSpan e f (g.den e ρ n)
  | _, _, .mapErr f g => qMapErr f (g.den e ρ n)
  | _, _, .mapErrWithSpan f g => qMapErrWithSpan e f (g.den e ρ n)
  | _, _, .tryMap f g => qTryMap e f (g.den e ρ n)
  | _, _, .then_ a b => qConcat2 id (a.den e ρ n) (b.den e ρ n)
  | _, _, .thenIgnore a b => qConcat2 Prod.fst (a.den e ρ n) (b.den e ρ n)
  | _, _, .ignoreThen a b => qConcat2 Prod.snd (a.den e ρ n) (b.den e ρ n)
  | _, _, .delimitedBy l m r =>
    qConcat3 (fun x => x.2.1) (l.den e ρ n) (m.den e ρ n) (r.den e ρ n)
  | _, _, .paddedBy p m => qConcat3 (fun x => x.2.1) (p.den e ρ n) (m.den e ρ n) (p.den e ρ n)
  | _, _, .chain gs => qConcat (gs.den e ρ n)
  | ε, _, .or a b => qAlternate ε [a.den e ρ n, b.den e ρ n]
  | ε, _, .orNot g => qAlternate ε [qMap Option.some (g.den e ρ n), qNone]
  | ε, _, .alters gs => qAlternate ε (gs.den e ρ n)
  | ε, _, .repeated (α := β) cfg item =>
    qRepeat n cfg (item.den e ρ n) (Option.none : Option (PSem ε.E β))
  | _, _, .separatedBy cfg item sep => qRepeat n cfg (item.den e ρ n) (Option.some (sep.den e ρ n))
  | _, _, .toRecover g st => qToRecover (g.den e ρ n) (st.den e ρ n)
  | _, _, .call k => ρ k

/-- Positional semantics of a list of parsers. -/
def GL.den {S : Sig} {N : Names S} (e : Env S) (ρ : QEnv S N) (n : Nat) :
    {ε : ErrTy S} → {α : Type} → GL S N ε α → List (PSem ε.E α)
  | _, _, .nil => []
  | _, _, .cons g gs => g.den e ρ n :: gs.den e ρ n

/-- Positional semantics of an incomplete strategy. -/
def IS.den {S : Sig} {N : Names S} (e : Env S) (ρ : QEnv S N) (n : Nat) :
    {ε : ErrTy S} → {α : Type} → IS S N ε α → SSem ε.E α
  | _, _, .attemptTo => fun _ _ fa es i => giveUp fa es i
  | _, _, .restart s => (s.den e ρ n).orElse fun _ st fa es _ => giveUp fa es st
  | _, _, .seekToFailed s => (s.den e ρ n).orElse fun _ _ fa es _ => giveUp fa es fa
  | _, _, .skip s => (s.den e ρ n).orElse fun _ _ fa es i => giveUp fa es (e.next i)
  | _, _, .skipIf s p => (s.den e ρ n).orElse fun _ _ fa es i =>
      giveUp fa es (if e.tokIs p false i then i + 1 else i)
  | _, _, .find s p => (s.den e ρ n).orElse fun _ _ fa es i => do
      let j ← findSem e p n i
      giveUp fa es j
  | _, _, .scan s sc => (s.den e ρ n).orElse fun _ _ fa es i => do
      let (es', j) ← scanSem e sc n sc.fresh es i
      giveUp fa es' j
  | _, _, .maybe s t => (s.den e ρ n).orElse fun q st fa es i => do
      let (r, j) ← t.den e ρ n q st fa es i
      .ok (r, if r.1.isSome then j else i)
  | _, _, .whileNot s p t => (s.den e ρ n).orElse fun q st fa es i =>
      whileNotSem e p (t.den e ρ n) q st n fa es i
  | _, _, .retry s exact silent => (s.den e ρ n).orElse fun q _ fa es i =>
      runInSem q exact silent fa es i
  | _, _, .tryToParse s g exact silent => (s.den e ρ n).orElse fun _ _ fa es i =>
      runInSem (g.den e ρ n) exact silent fa es i
  | _, _, .pushError s f => (s.den e ρ n).orElse fun _ _ fa es i => giveUp fa (es ++ [f ()]) i
  | _, _, .pushErrorHere s f => (s.den e ρ n).orElse fun _ _ fa es i =>
      giveUp fa (es ++ [f (e.locationAt i)]) i
  | _, _, .pushErrorUpToHere s f => (s.den e ρ n).orElse fun _ st fa es i =>
      giveUp fa (es ++ [f (e.spanOf st i)]) i
  | _, _, .pushErrorForToken s f => (s.den e ρ n).orElse fun _ _ fa es i =>
      giveUp fa (es ++ [f (e.source i) (e.here i)]) i
  | _, _, .updateErrors s f => (s.den e ρ n).orElse fun _ _ fa es i => giveUp fa (f es) i
  | _, _, .updateErrorsHere s f => (s.den e ρ n).orElse fun _ _ fa es i =>
      giveUp fa (f es (e.locationAt i)) i
  | _, _, .updateErrorsUpToHere s f => (s.den e ρ n).orElse fun _ st fa es i =>
      giveUp fa (f es (e.spanOf st i)) i
  | _, _, .updateErrorsForToken s f => (s.den e ρ n).orElse fun _ _ fa es i =>
      giveUp fa (f es (e.source i) (e.here i)) i
  | _, _, .boxed s => s.den e ρ n

/-- Positional semantics of a complete strategy. -/
def CS.den {S : Sig} {N : Names S} (e : Env S) (ρ : QEnv S N) (n : Nat) :
    {ε : ErrTy S} → {α : Type} → CS S N ε α → SSem ε.E α
  | _, _, .ret s o => (s.den e ρ n).orElse fun _ _ fa es i => .ok ((some o, fa, es), i)
  | _, _, .retWith s o => (s.den e ρ n).orElse fun _ _ fa es i => .ok ((some (o ()), fa, es), i)
  | _, _, .retWithSpan s f => (s.den e ρ n).orElse fun _ st fa es i =>
      .ok ((some (f (e.spanOf st i)), fa, es), i)
  | _, _, .orFail s => s.den e ρ n

end

/-- Positional semantics of the recursive parsers, to depth `n`. -/
def callSem {S : Sig} {N : Names S} (e : Env S) (D : Defs S N) : Nat → QEnv S N
  | 0, _, _, _ => .oof
  | n + 1, k, en, i =>
    match D k with
    | some g => g.den e (callSem e D n) n en i
    | none => .panic "recursive parser is not defined"

/-- Positional semantics of a parser whose recursive parsers are defined by `D`,
with fuel `n`. -/
def G.sem {S : Sig} {N : Names S} (e : Env S) (D : Defs S N) (n : Nat) {ε : ErrTy S} {α : Type}
    (g : G S N ε α) : PSem ε.E α :=
  g.den e (callSem e D n) n

end PPC
