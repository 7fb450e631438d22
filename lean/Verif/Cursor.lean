import Verif.Prog

/-!
# Specification of the stream: an ideal cursor

No buffer, no markers, no capacities: a position `pos` in the token sequence, the
examined frontier `hi` (number of `next()` calls the examined positions require),
and the saved states the client still owns.
-/

namespace PPC

/-- What the stream is created from: the token source and the start location. -/
structure Env (S : Sig) where
  source : Nat → Option S.I
  start : S.L

/-- Tracker state before token `n`: fold of `advance` over the first `n` tokens. -/
def Env.trackerAt {S : Sig} (e : Env S) : Nat → S.L
  | 0 => e.start
  | n + 1 =>
    match e.source n with
    | some t => S.advance (e.trackerAt n) t
    | none => e.trackerAt n

/-- Location of position `n`. -/
def Env.locationAt {S : Sig} (e : Env S) (n : Nat) : S.Loc := S.location (e.trackerAt n) n

/-- Span between two positions. -/
def Env.spanOf {S : Sig} (e : Env S) (a b : Nat) : S.Span :=
  S.spanningTo (e.trackerAt a) a (e.trackerAt b) b

/-- The position after the token at `n`; `n` itself at end of input. -/
def Env.next {S : Sig} (e : Env S) (n : Nat) : Nat :=
  if (e.source n).isSome then n + 1 else n

/-- Ideal stream state. -/
structure Cursor where
  /-- index of the next token -/
  pos : Nat
  /-- number of tokens (including a final end-of-input answer) requested from the
  source so far -/
  hi : Nat
  /-- number of saved states created so far -/
  nextId : Nat
  /-- which saved states are still owned by the client -/
  live : SavedState → Bool

namespace Cursor

/-- A fresh cursor. -/
def init : Cursor := ⟨0, 0, 0, fun _ => false⟩

/-- Examining the token at the current position. -/
def look (c : Cursor) : Cursor := { c with hi := max c.hi (c.pos + 1) }

/-- Save at index `i`. -/
def saveIdx (c : Cursor) (i : Nat) : SavedState × Cursor :=
  let m : SavedState := ⟨c.nextId, i⟩
  (m, { c with nextId := c.nextId + 1, live := fun x => x = m || c.live x })

/-- Has the end of input been examined? -/
def sawEof {S : Sig} (e : Env S) (c : Cursor) : Bool :=
  c.hi ≠ 0 && (e.source (c.hi - 1)).isNone

/-- Number of positions up to the examined frontier that are real positions (the
end-of-input answer does not create one). -/
def limit {S : Sig} (e : Env S) (c : Cursor) : Nat :=
  if c.sawEof e then c.hi - 1 else c.hi

/-- Advance by at most `k` tokens, stopping at end of input; says whether all `k`
were there. -/
def advanceBy {S : Sig} (e : Env S) : Nat → Cursor → Bool × Cursor
  | 0, c => (true, c)
  | k + 1, c =>
    if (e.source c.pos).isSome then
      advanceBy e k { c.look with pos := c.pos + 1 }
    else (false, c.look)

/-- Ideal behaviour of the API calls. `stuck` marks the calls about which the
specification says nothing:
* using a saved state that is not owned (impossible in Rust);
* `save_at` beyond the examined frontier (see C08);
* `advance_to` beyond an end of input that was examined already (see C08). -/
def step {S : Sig} (e : Env S) : (o : Op S) → Cursor → Out (o.Resp × Cursor)
  | .save, c => .ok (c.saveIdx c.pos)
  | .saveAt i, c =>
    if i < c.pos then .panic "assertion failed: index == self.index"
    else if i ≤ c.limit e then .ok (c.saveIdx i)
    else .stuck
  | .drop m, c =>
    if c.live m then .ok ((), { c with live := fun x => x ≠ m && c.live x }) else .stuck
  | .restore m, c => if c.live m then .ok ((), { c with pos := m.index }) else .stuck
  | .token, c => .ok (e.source c.pos, c.look)
  | .tokenAt m, c =>
    if c.live m then
      if m.index = c.pos then .ok (e.source c.pos, c.look)
      else if m.index < c.hi then .ok (e.source m.index, c)
      else .panic msgBounds
    else .stuck
  | .index, c => .ok (c.pos, c)
  | .location, c => .ok (e.locationAt c.pos, c)
  | .locationAt m, c =>
    if c.live m then
      if m.index = c.pos ∨ m.index < c.hi then .ok (e.locationAt m.index, c)
      else .panic msgBounds
    else .stuck
  | .span, c => .ok (e.spanOf c.pos (e.next c.pos), c.look)
  | .spanningBackTo m, c =>
    if c.live m then
      if m.index = c.pos ∨ m.index < c.hi then .ok (e.spanOf m.index c.pos, c)
      else .panic msgBounds
    else .stuck
  | .advance, c =>
    if (e.source c.pos).isSome then .ok (true, { c.look with pos := c.pos + 1 })
    else .ok (false, c.look)
  | .advanceTo i, c =>
    if i < c.pos then .panic "assertion failed: index == self.index"
    else if c.sawEof e && decide (c.hi ≤ i) then .stuck
    else .ok (advanceBy e (i - c.pos) c)

end Cursor

end PPC
