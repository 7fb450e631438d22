import Verif.Stream

/-!
# Clients of the stream API

`Prog S α` is an arbitrary adaptive client of `stream::Stream`: it issues API
calls and continues depending on the answers. All parsers of the crate are
modelled as such clients, so that statements about every client apply to every
parser.
-/

namespace PPC

/-- The stream API calls (src/stream.rs), as far as they touch the stream.
`index_at` (254-256) only reads the saved state and needs no call; `eof`
(313-315), `attempt` (139-148) are derived below. -/
inductive Op (S : Sig) : Type where
  | save
  | saveAt (i : Nat)
  | drop (m : SavedState)
  | restore (m : SavedState)
  | token
  | tokenAt (m : SavedState)
  | index
  | location
  | locationAt (m : SavedState)
  | span
  | spanningBackTo (m : SavedState)
  | advance
  | advanceTo (i : Nat)

/-- Type of the answer to an API call. -/
@[reducible] def Op.Resp {S : Sig} : Op S → Type
  | .save => SavedState
  | .saveAt _ => SavedState
  | .drop _ => Unit
  | .restore _ => Unit
  | .token => Option S.I
  | .tokenAt _ => Option S.I
  | .index => Nat
  | .location => S.Loc
  | .locationAt _ => S.Loc
  | .span => S.Span
  | .spanningBackTo _ => S.Span
  | .advance => Bool
  | .advanceTo _ => Bool

/-- Client programs: return, panic (Rust `assert!`/`unreachable!`/...), run out of
fuel (see `Grammar.lean`), or issue a call and continue with the answer. -/
inductive Prog (S : Sig) (α : Type) : Type where
  | ret (a : α)
  | panic (m : String)
  | oof
  | op (o : Op S) (k : o.Resp → Prog S α)

namespace Prog

variable {S : Sig}

/-- Sequential composition. -/
def bind {α β : Type} : Prog S α → (α → Prog S β) → Prog S β
  | ret a, f => f a
  | panic m, _ => panic m
  | oof, _ => oof
  | op o k, f => op o fun x => (k x).bind f

instance : Monad (Prog S) where
  pure := ret
  bind := bind

/-- Run a client against an implementation of the API calls. -/
def run {α σ : Type} (step : (o : Op S) → σ → Out (o.Resp × σ)) :
    Prog S α → σ → Out (α × σ)
  | ret a, s => .ok (a, s)
  | panic m, _ => .panic m
  | oof, _ => .oof
  | op o k, s => step o s >>= fun x => (k x.1).run step x.2

/-- `stream.save()` -/
def save : Prog S SavedState := op .save ret
/-- `stream.save_at(i)` -/
def saveAt (i : Nat) : Prog S SavedState := op (.saveAt i) ret
/-- end of scope of a saved state -/
def drop (m : SavedState) : Prog S Unit := op (.drop m) ret
/-- `stream.restore(&m)` -/
def restore (m : SavedState) : Prog S Unit := op (.restore m) ret
/-- `stream.token()` -/
def token : Prog S (Option S.I) := op .token ret
/-- `stream.token_at(&m)` -/
def tokenAt (m : SavedState) : Prog S (Option S.I) := op (.tokenAt m) ret
/-- `stream.index()` -/
def index : Prog S Nat := op .index ret
/-- `stream.location()` -/
def location : Prog S S.Loc := op .location ret
/-- `stream.location_at(&m)` -/
def locationAt (m : SavedState) : Prog S S.Loc := op (.locationAt m) ret
/-- `stream.span()` -/
def span : Prog S S.Span := op .span ret
/-- `stream.spanning_back_to(&m)` -/
def spanningBackTo (m : SavedState) : Prog S S.Span := op (.spanningBackTo m) ret
/-- `stream.advance()` -/
def advance : Prog S Bool := op .advance ret
/-- `stream.advance_to(i)` -/
def advanceTo (i : Nat) : Prog S Bool := op (.advanceTo i) ret

/-- `stream.eof()` (src/stream.rs:313-315). -/
def eof : Prog S Bool := do
  let t ← token
  return t.isNone

/-- The Rust idiom `let m = stream.save(); ...body...` where `m` is dropped when
the enclosing block returns. -/
def withSave {α : Type} (body : SavedState → Prog S α) : Prog S α := do
  let m ← save
  let r ← body m
  drop m
  return r

/-- `Stream::attempt` (src/stream.rs:139-148): the closure's `Ok(r)`/`Err(r)` is
the pair of a flag and `r`. -/
def attempt {α : Type} (f : Prog S (Bool × α)) : Prog S α :=
  withSave fun saved => do
    let (ok, r) ← f
    if ok then return r
    else
      restore saved
      return r

end Prog

/-- API calls against the concrete stream. -/
def Stream.step {S : Sig} : (o : Op S) → Stream S → Out (o.Resp × Stream S)
  | .save, s => .ok s.save
  | .saveAt i, s => s.saveAt i
  | .drop m, s => .ok ((), s.dropState m)
  | .restore m, s => do let s' ← s.restore m; .ok ((), s')
  | .token, s => s.token
  | .tokenAt m, s => s.tokenAt m
  | .index, s => .ok (s.index, s)
  | .location, s => .ok (s.location, s)
  | .locationAt m, s => do let l ← s.locationAt m; .ok (l, s)
  | .span, s => s.span
  | .spanningBackTo m, s => do let x ← s.spanningBackTo m; .ok (x, s)
  | .advance, s => s.advance
  | .advanceTo i, s => s.advanceTo i

end PPC
