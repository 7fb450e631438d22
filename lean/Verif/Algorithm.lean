import Verif.Parser

/-!
# Generic algorithms (src/algorithm.rs)
-/

namespace PPC
open Prog

variable {S : Sig}

/-- Accumulation of recovered errors: `if let Some(es) = &mut recovery {
es.extend(es_b) } else { recovery = Some(es_b) }` (src/algorithm.rs:41-45,
125-129, 208-212, 247-251). -/
def extendRec {E : Type} (r : Option (List E)) (es : List E) : Option (List E) :=
  match r with
  | some es0 => some (es0 ++ es)
  | none => some es

/-- `if let Some(es) = recovery { assert!(enable_recovery); Recovered(o, es) } else
{ Success(o) }` (src/algorithm.rs:65-70, 144-149, 280-285). -/
def finishRec {α E : Type} (en : Bool) (o : α) (r : Option (List E)) : Prog S (Res α E) :=
  match r with
  | some es => if en then return .recovered o es else .panic "assertion failed: enable_recovery"
  | none => return .success o

/-- The last parser of `concatenate!` (src/algorithm.rs:35-70). -/
def concatLast {E β γ : Type} (en : Bool) (initial : SavedState) (f : β → γ) (pb : Parser S E β)
    (r : Option (List E)) : Prog S (Res γ E) := do
  match ← pb en with
  | .success b => finishRec en (f b) r
  | .recovered b es => finishRec en (f b) (extendRec r es)
  | .failed i es =>
    restore initial
    return .failed i es

/-- `concatenate!` (src/algorithm.rs:9-72) at two parsers. -/
def concat2 {E α β γ : Type} (f : α × β → γ) (pa : Parser S E α) (pb : Parser S E β) :
    Parser S E γ := fun en =>
  withSave fun initial => do
    match ← pa en with
    | .success a => concatLast en initial (fun b => f (a, b)) pb none
    | .recovered a es => concatLast en initial (fun b => f (a, b)) pb (some es)
    | .failed i es => return .failed i es

/-- The middle parser of `concatenate!` (src/algorithm.rs:35-60) at three parsers. -/
def concatMid {E β γ δ : Type} (en : Bool) (initial : SavedState) (f : β × γ → δ)
    (pb : Parser S E β) (pc : Parser S E γ) (r : Option (List E)) : Prog S (Res δ E) := do
  match ← pb en with
  | .success b => concatLast en initial (fun c => f (b, c)) pc r
  | .recovered b es => concatLast en initial (fun c => f (b, c)) pc (extendRec r es)
  | .failed i es =>
    restore initial
    return .failed i es

/-- `concatenate!` (src/algorithm.rs:9-72) at three parsers. -/
def concat3 {E α β γ δ : Type} (f : α × β × γ → δ) (pa : Parser S E α) (pb : Parser S E β)
    (pc : Parser S E γ) : Parser S E δ := fun en =>
  withSave fun initial => do
    match ← pa en with
    | .success a => concatMid en initial (fun x => f (a, x)) pb pc none
    | .recovered a es => concatMid en initial (fun x => f (a, x)) pb pc (some es)
    | .failed i es => return .failed i es

/-- The loop over the second and later parsers in `concatenate`
(src/algorithm.rs:120-149). -/
def concatRest {E α : Type} (en : Bool) (initial : SavedState) :
    List (Parser S E α) → List α → Option (List E) → Prog S (Res (List α) E)
  | [], out, r => finishRec en out r
  | p :: ps, out, r => do
    match ← p en with
    | .success b => concatRest en initial ps (out ++ [b]) r
    | .recovered b es => concatRest en initial ps (out ++ [b]) (extendRec r es)
    | .failed i es =>
      restore initial
      return .failed i es

/-- `concatenate` (src/algorithm.rs:76-150). -/
def concatList {E α : Type} (ps : List (Parser S E α)) : Parser S E (List α) := fun en =>
  withSave fun initial => do
    match ps with
    | [] => finishRec en [] none
    | p :: ps =>
      match ← p en with
      | .success a => concatRest en initial ps [a] none
      | .recovered a es => concatRest en initial ps [a] (some es)
      | .failed i es => return .failed i es

/-- Configuration of `SeparatedBy` (src/combinator.rs:590-597). `maximum = none`
is "no limit" (Rust: `usize::MAX`). -/
structure RepCfg where
  minimum : Nat := 0
  maximum : Option Nat := none
  allowLeading : Bool := false
  allowTrailing : Bool := false
deriving Repr, DecidableEq

/-- `output.len() >= max` (src/algorithm.rs:170, 187, 238). -/
def RepCfg.atMax (cfg : RepCfg) (n : Nat) : Bool :=
  match cfg.maximum with
  | some m => decide (m ≤ n)
  | none => false

/-- Drop of the variable `before_separator: Option<SavedState>`. -/
def dropOpt : Option SavedState → Prog S Unit
  | some m => drop m
  | none => return ()

/-- The part of the loop body of `repeat` after the separator
(src/algorithm.rs:236-275); `again` is the next iteration. -/
def repeatItem {E α : Type} (cfg : RepCfg) (item : Parser S E α) (en : Bool)
    (initial : SavedState) (again : List α → Option (List E) → Prog S (Res (List α) E))
    (out : List α) (r : Option (List E)) (before : Option SavedState) :
    Prog S (Res (List α) E) := do
  let recover := en && decide (out.length < cfg.minimum)
  if cfg.allowTrailing && cfg.atMax out.length then
    dropOpt before
    finishRec en out r
  else
    match ← item recover with
    | .success b =>
      dropOpt before
      again (out ++ [b]) r
    | .recovered b es =>
      dropOpt before
      again (out ++ [b]) (extendRec r es)
    | .failed i es =>
      if cfg.minimum ≤ out.length then
        match before with
        | some m =>
          if !cfg.allowTrailing then restore m
          drop m
        | none => pure ()
        return .success out
      else
        restore initial
        dropOpt before
        return .failed i es

/-- The loop of `repeat` (src/algorithm.rs:184-285). The first argument bounds the
number of iterations. -/
def repeatLoop {E α β : Type} (cfg : RepCfg) (item : Parser S E α) (sep : Option (Parser S E β))
    (en : Bool) (initial : SavedState) :
    Nat → List α → Option (List E) → Prog S (Res (List α) E)
  | 0, _, _ => .oof
  | fuel + 1, out, r =>
    if !cfg.allowTrailing && cfg.atMax out.length then finishRec en out r
    else
      let recover := en && decide (out.length < cfg.minimum)
      let again := repeatLoop cfg item sep en initial fuel
      match sep, (!out.isEmpty || cfg.allowLeading) with
      | some sep, true => do
        let before ← save
        match ← sep (recover && !out.isEmpty) with
        | .success _ => repeatItem cfg item en initial again out r (some before)
        | .recovered _ es => repeatItem cfg item en initial again out (extendRec r es) (some before)
        | .failed i es =>
          if out.isEmpty then
            repeatItem cfg item en initial again out r (some before)
          else if cfg.minimum ≤ out.length then
            drop before
            return .success out
          else
            restore initial
            drop before
            return .failed i es
      | _, _ => repeatItem cfg item en initial again out r none

/-- `repeat` (src/algorithm.rs:154-286). -/
def repeatP {E α β : Type} (fuel : Nat) (cfg : RepCfg) (item : Parser S E α)
    (sep : Option (Parser S E β)) : Parser S E (List α) := fun en =>
  withSave fun initial => repeatLoop cfg item sep en initial fuel [] none

/-- One recorded failure of an alternative: `(i, es, parser)`
(src/algorithm.rs:323, 394). -/
abbrev Failure (S : Sig) (E α : Type) : Type := Nat × List E × Parser S E α

/-- First pass of `alternate` (src/algorithm.rs:319-325, 388-396): all alternatives
without recovery. -/
def altFirst {E α : Type} : List (Parser S E α) → List (Failure S E α) →
    Prog S (α ⊕ List (Failure S E α))
  | [], fails => return .inr fails
  | p :: ps, fails => do
    match ← p false with
    | .success o => return .inl o
    | .recovered _ _ =>
      .panic "internal error: entered unreachable code: parser recovered from an error with recovery disabled"
    | .failed i es => altFirst ps (fails ++ [(i, es, p)])

/-- Insertion behind all entries with an equal or greater key. -/
def insertDesc {β : Type _} (x : Nat × β) : List (Nat × β) → List (Nat × β)
  | [] => [x]
  | y :: ys => if y.1 < x.1 then x :: y :: ys else y :: insertDesc x ys

/-- `failures.sort_by_key(|x| Reverse(x.0))` (src/algorithm.rs:330, 406): stable
sort by descending key. -/
def sortDesc {β : Type _} (xs : List (Nat × β)) : List (Nat × β) :=
  xs.foldl (fun acc x => insertDesc x acc) []

/-- Recovery pass of `alternate` (src/algorithm.rs:334-343, 410-418). -/
def altRecover {E α : Type} : List (Failure S E α) → Prog S (Option (Res α E))
  | [] => return none
  | (_, _, p) :: rest => do
    match ← p true with
    | .success _ =>
      .panic "internal error: entered unreachable code: parser that previously failed now magically succeeded"
    | .recovered o es => return some (.recovered o es)
    | .failed _ _ => altRecover rest

/-- The merge loops (src/algorithm.rs:354-360, 429-435). -/
def mergeAll {S : Sig} (ε : ErrTy S) (e : ε.E) (es : List ε.E) : ε.E :=
  es.foldl (fun e e2 =>
    if ε.isExpectedFound e2 && At.beq S (ε.location e2) (ε.location e) then ε.merge e e2 else e) e

/-- The `else` branch at src/algorithm.rs:362-365, 437-440: takes the *next*
element of the partially consumed iterator. -/
def altElse {α : Type} (ε : ErrTy S) (rest : List (Failure S ε.E α)) : Prog S (Res α ε.E) :=
  match rest with
  | (i, es, _) :: _ => return .failed i es
  | [] => .panic "called `Option::unwrap()` on a `None` value"

/-- Error combination at the end of `alternate` (src/algorithm.rs:346-365,
421-440). -/
def altCombine {α : Type} (ε : ErrTy S) (fails : List (Failure S ε.E α)) : Prog S (Res α ε.E) :=
  match fails with
  | [] => .panic "called `Option::unwrap()` on a `None` value"
  | (i, es, _) :: rest =>
    match es with
    | [e] =>
      if ε.isExpectedFound e then
        return .failed i [mergeAll ε e (rest.flatMap fun f => f.2.1)]
      else altElse ε rest
    | _ => altElse ε rest

/-- `alternate!` (src/algorithm.rs:312-367) and `alternate`
(src/algorithm.rs:371-441). They differ only in how the parser of a failure is
looked up (`get!` by position / reference), and in the assertion that there is at
least one alternative. -/
def alternate {α : Type} (ε : ErrTy S) (ps : List (Parser S ε.E α)) : Parser S ε.E α := fun en => do
  match ← altFirst ps [] with
  | .inl o => return .success o
  | .inr fails =>
    if fails.isEmpty then .panic "cannot have zero alternatives for alternate()"
    else
      let fails := sortDesc fails
      if en then
        match ← altRecover fails with
        | some r => return r
        | none => altCombine ε fails
      else altCombine ε fails

end PPC
