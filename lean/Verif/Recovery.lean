import Verif.Combinator
import Verif.Scanner

/-!
# Recovery strategies (src/recovery.rs) and `to_recover` (src/combinator.rs:671-724)
-/

namespace PPC
open Prog

variable {S : Sig}

/-- What `Recover::recover` (src/recovery.rs:53-60) returns: the optional output
and the new values of the `&mut` arguments `failed_at` and `errors`. -/
abbrev RecRes (α E : Type) : Type := Option α × SavedState × List E

/-- A recovery strategy (`Recover`, src/recovery.rs:31-61) for parsers with output
`α`. The arguments are `parser`, `started_at`, `failed_at`, `errors`. -/
abbrev Strat (S : Sig) (E α : Type) : Type :=
  Parser S E α → SavedState → SavedState → List E → Prog S (RecRes α E)

/-- The pattern `self.child.recover(...).or_else(|| ...)` shared by all combinators
(src/recovery.rs:505-510 and so on). -/
def Strat.orElse {E α : Type} (child act : Strat S E α) : Strat S E α :=
  fun parser started failed errors => do
    match ← child parser started failed errors with
    | (some o, failed', errors') => return (some o, failed', errors')
    | (none, failed', errors') => act parser started failed' errors'

/-- `AttemptTo` (src/recovery.rs:437-452). -/
def sAttemptTo {E α : Type} : Strat S E α := fun _ _ failed errors =>
  return (none, failed, errors)

/-- `Restart` (src/recovery.rs:491-512). -/
def sRestart {E α : Type} (child : Strat S E α) : Strat S E α :=
  child.orElse fun _ started failed errors => do
    restore started
    return (none, failed, errors)

/-- `SeekToFailed` (src/recovery.rs:528-549). -/
def sSeekToFailed {E α : Type} (child : Strat S E α) : Strat S E α :=
  child.orElse fun _ _ failed errors => do
    restore failed
    return (none, failed, errors)

/-- `Skip` (src/recovery.rs:574-595). -/
def sSkip {E α : Type} (child : Strat S E α) : Strat S E α :=
  child.orElse fun _ _ failed errors => do
    let _ ← advance
    return (none, failed, errors)

/-- `stream.token().map(|t| predicate(t)).unwrap_or(default)`. -/
def tokenIs {S : Sig} (p : S.I → Bool) (default : Bool) : Prog S Bool := do
  let t ← token
  return match t with
    | some t => p t
    | none => default

/-- `SkipIf` (src/recovery.rs:621-645). -/
def sSkipIf {E α : Type} (child : Strat S E α) (p : S.I → Bool) : Strat S E α :=
  child.orElse fun _ _ failed errors => do
    if ← tokenIs p false then
      let _ ← advance
      return (none, failed, errors)
    else return (none, failed, errors)

/-- The loop of `Find` (src/recovery.rs:691-693), at most `fuel` iterations. -/
def findLoop {S : Sig} (p : S.I → Bool) : Nat → Prog S Unit
  | 0 => .oof
  | fuel + 1 => do
    if ← tokenIs p true then return ()
    else
      let _ ← advance
      findLoop p fuel

/-- `Find` (src/recovery.rs:673-697). -/
def sFind {E α : Type} (fuel : Nat) (child : Strat S E α) (p : S.I → Bool) : Strat S E α :=
  child.orElse fun _ _ failed errors => do
    findLoop p fuel
    return (none, failed, errors)

/-- The loop of `Scan` (src/recovery.rs:745-756). -/
def scanLoop {E : Type} (sc : Scanner S E) : Nat → sc.σ → List E → Prog S (List E)
  | 0, _, _ => .oof
  | fuel + 1, st, errors => do
    match ← token with
    | some t =>
      let sp ← span
      match sc.scan t sp st errors with
      | .error m => .panic m
      | .ok (true, _, errors') => return errors'
      | .ok (false, st', errors') =>
        let _ ← advance
        scanLoop sc fuel st' errors'
    | none =>
      let l ← location
      return sc.eof l st errors

/-- `Scan` (src/recovery.rs:725-760). -/
def sScan {E α : Type} (fuel : Nat) (child : Strat S E α) (sc : Scanner S E) : Strat S E α :=
  child.orElse fun _ _ failed errors => do
    let errors' ← scanLoop sc fuel sc.fresh errors
    return (none, failed, errors')

/-- `Maybe` (src/recovery.rs:790-819). -/
def sMaybe {E α : Type} (child inner : Strat S E α) : Strat S E α :=
  child.orElse fun parser started failed errors =>
    attempt do
      let r ← inner parser started failed errors
      return (r.1.isSome, r)

/-- The loop of `WhileNot` (src/recovery.rs:867-876). -/
def whileNotLoop {E α : Type} (p : S.I → Bool) (inner : Strat S E α) (parser : Parser S E α)
    (started : SavedState) : Nat → SavedState → List E → Prog S (RecRes α E)
  | 0, _, _ => .oof
  | fuel + 1, failed, errors => do
    if ← tokenIs p true then return (none, failed, errors)
    else
      match ← inner parser started failed errors with
      | (some o, failed', errors') => return (some o, failed', errors')
      | (none, failed', errors') =>
        let _ ← advance
        whileNotLoop p inner parser started fuel failed' errors'

/-- `WhileNot` (src/recovery.rs:848-879). -/
def sWhileNot {E α : Type} (fuel : Nat) (child : Strat S E α) (p : S.I → Bool)
    (inner : Strat S E α) : Strat S E α :=
  child.orElse fun parser started failed errors =>
    whileNotLoop p inner parser started fuel failed errors

/-- Running a parser inside a strategy: the common body of `Retry`
(src/recovery.rs:948-963) and `TryToParse` (src/recovery.rs:1032-1047). The old
value of `*failed_at` is dropped after the new state was saved. -/
def runIn {E α : Type} (parser : Parser S E α) (exact silent : Bool) (failed : SavedState)
    (errors : List E) : Prog S (RecRes α E) := do
  match ← parser (!exact) with
  | .success o => return (some o, failed, errors)
  | .recovered o es => return (some o, failed, if silent then errors else errors ++ es)
  | .failed i es =>
    let failed' ← saveAt i
    drop failed
    return (none, failed', if silent then errors else errors ++ es)

/-- `Retry` (src/recovery.rs:932-965). -/
def sRetry {E α : Type} (child : Strat S E α) (exact silent : Bool) : Strat S E α :=
  child.orElse fun parser _ failed errors => runIn parser exact silent failed errors

/-- `TryToParse` (src/recovery.rs:1015-1049). -/
def sTryToParse {E α : Type} (child : Strat S E α) (other : Parser S E α) (exact silent : Bool) :
    Strat S E α :=
  child.orElse fun _ _ failed errors => runIn other exact silent failed errors

/-- `PushError` (src/recovery.rs:1077-1099). -/
def sPushError {E α : Type} (child : Strat S E α) (e : Unit → E) : Strat S E α :=
  child.orElse fun _ _ failed errors => return (none, failed, errors ++ [e ()])

/-- `PushErrorHere` (src/recovery.rs:1127-1151). -/
def sPushErrorHere {E α : Type} (child : Strat S E α) (f : S.Loc → E) : Strat S E α :=
  child.orElse fun _ _ failed errors => do
    let l ← location
    return (none, failed, errors ++ [f l])

/-- `PushErrorUpToHere` (src/recovery.rs:1183-1207). -/
def sPushErrorUpToHere {E α : Type} (child : Strat S E α) (f : S.Span → E) : Strat S E α :=
  child.orElse fun _ started failed errors => do
    let sp ← spanningBackTo started
    return (none, failed, errors ++ [f sp])

/-- `PushErrorForToken` (src/recovery.rs:1239-1266). -/
def sPushErrorForToken {E α : Type} (child : Strat S E α) (f : Option S.I → S.Span → E) :
    Strat S E α :=
  child.orElse fun _ _ failed errors => do
    let sp ← span
    let t ← token
    return (none, failed, errors ++ [f t sp])

/-- `UpdateErrors` (src/recovery.rs:1299-1321); the updater returns the new list. -/
def sUpdateErrors {E α : Type} (child : Strat S E α) (f : List E → List E) : Strat S E α :=
  child.orElse fun _ _ failed errors => return (none, failed, f errors)

/-- `UpdateErrorsHere` (src/recovery.rs:1349-1374). -/
def sUpdateErrorsHere {E α : Type} (child : Strat S E α) (f : List E → S.Loc → List E) :
    Strat S E α :=
  child.orElse fun _ _ failed errors => do
    let l ← location
    return (none, failed, f errors l)

/-- `UpdateErrorsUpToHere` (src/recovery.rs:1408-1433). -/
def sUpdateErrorsUpToHere {E α : Type} (child : Strat S E α) (f : List E → S.Span → List E) :
    Strat S E α :=
  child.orElse fun _ started failed errors => do
    let sp ← spanningBackTo started
    return (none, failed, f errors sp)

/-- `UpdateErrorsForToken` (src/recovery.rs:1467-1494). -/
def sUpdateErrorsForToken {E α : Type} (child : Strat S E α)
    (f : List E → Option S.I → S.Span → List E) : Strat S E α :=
  child.orElse fun _ _ failed errors => do
    let sp ← span
    let t ← token
    return (none, failed, f errors t sp)

/-- `Boxed` (src/recovery.rs:1544-1560). -/
def sBoxed {E α : Type} (child : Strat S E α) : Strat S E α := child

/-- `Return` (src/recovery.rs:1576-1595). -/
def sReturn {E α : Type} (child : Strat S E α) (o : α) : Strat S E α :=
  child.orElse fun _ _ failed errors => return (some o, failed, errors)

/-- `ReturnWith` (src/recovery.rs:1623-1642). -/
def sReturnWith {E α : Type} (child : Strat S E α) (o : Unit → α) : Strat S E α :=
  child.orElse fun _ _ failed errors => return (some (o ()), failed, errors)

/-- `ReturnWithSpan` (src/recovery.rs:1670-1691). -/
def sReturnWithSpan {E α : Type} (child : Strat S E α) (f : S.Span → α) : Strat S E α :=
  child.orElse fun _ started failed errors => do
    let sp ← spanningBackTo started
    return (some (f sp), failed, errors)

/-- `OrFail` (src/recovery.rs:1722-1739). -/
def sOrFail {E α : Type} (child : Strat S E α) : Strat S E α := child

/-- What `ToRecover` does with the answer of the strategy (src/combinator.rs:703-717);
`failed_at` and `started_at` go out of scope at the end of the block. -/
def toRecoverEnd {E α : Type} (last : Nat) (started : SavedState) :
    RecRes α E → Prog S (Res α E)
  | (some o, failed', errors') => do
    drop failed'
    drop started
    return .recovered o errors'
  | (none, failed', errors') => do
    restore started
    drop failed'
    drop started
    return .failed last errors'

/-- `ToRecover::parse_internal` (src/combinator.rs:687-723). -/
def pToRecover {E α : Type} (parser : Parser S E α) (strategy : Strat S E α) : Parser S E α :=
  fun en => do
    match ← parser en with
    | .failed last errors =>
      if !en then return .failed last errors
      else
        let started ← save
        let failed ← saveAt last
        let r ← strategy parser started failed errors
        toRecoverEnd last started r
    | r => return r

end PPC
