import Verif.Grammar
import Verif.Location

/-!
# Entry points (src/parser.rs:160-250, 534-592)
-/

namespace PPC
open Prog

variable {S : Sig} {α : Type}

/-- `parse_with_recovery_and_location` (src/parser.rs:163-175);
`parse_with_recovery` (195-203) is the same with the default start location. The
stream is dropped afterwards. -/
def parseWithRecovery {E : Type} (p : Parser S E α) (al : Alloc) (source : Nat → Option S.I)
    (start : S.L) : Out (Res α E) := do
  let (r, _) ← (p true).run Stream.step (Stream.newWithLocation al source start)
  .ok r

/-- `parse_with_location` (src/parser.rs:179-191) and `parse` (207-215). -/
def parse (ε : ErrTy S) (p : Parser S ε.E α) (al : Alloc) (source : Nat → Option S.I)
    (start : S.L) : Out (Except ε.E α) :=
  (parseWithRecovery p al source start).map (Res.toExcept ε)

/-- `parser::Stream::next` (src/parser.rs:551-557). -/
def streamNext {E : Type} (p : Parser S E α) : Prog S (Option (Res α E)) := do
  if ← eof then return none
  else
    let r ← p true
    return some r

/-- `Tail::next` (src/parser.rs:587-591). -/
def tailNext : Prog S (Option S.I) := do
  let t ← token
  let _ ← advance
  return t

/-- Calling `next` of an iterator `k` times, collecting the answers. -/
def collect (next : Prog S α) : Nat → Prog S (List α)
  | 0 => return []
  | k + 1 => do
    let x ← next
    let xs ← collect next k
    return x :: xs

/-- `parser.stream(source)` (src/parser.rs:219-250), `k` calls of `next`, then
`tail()` (566-568), `m` calls of `next`. -/
def streamThenTail {E : Type} (p : Parser S E α) (k m : Nat) :
    Prog S (List (Option (Res α E)) × List (Option S.I)) := do
  let rs ← collect (streamNext p) k
  let ts ← collect tailNext m
  return (rs, ts)

end PPC
