import Verif.Basic

/-!
# The concrete stream (src/stream.rs)

A line-by-line model of `stream::Stream`. Mutation is state passing, and every
assertion, out-of-bounds access or underflow is an explicit `Out.panic`.
-/

namespace PPC

/-- `SavedState` (src/stream.rs:7-9). The Rust value owns an `Rc<usize>`; the
model gives each such `Rc` a unique `id` and keeps its contents `index`. -/
structure SavedState where
  /-- identity of the `Rc` allocation -/
  id : Nat
  /-- contents of the `Rc`: the saved token index -/
  index : Nat
deriving DecidableEq, Repr

/-- Allocation policy of `VecDeque`/`Vec` (not in the crate; standard library).
`cap0`/`mcap0` are the initial capacities of the token buffer and of the marker
vector, `growB`/`growM` choose the new capacity on reallocation. Nothing is
assumed about them, so every real allocator is covered. -/
structure Alloc where
  cap0 : Nat
  mcap0 : Nat
  growB : Nat → Nat
  growM : Nat → Nat

/-- `Stream` (src/stream.rs:13-43).

* `source` is the boxed iterator: `source k` is the answer of its `k`-th
  `next()` call (finite, infinite and non-fused iterators are all covered);
  `pulled` counts the calls made so far.
* `markers` are the weak pointers `backtrack_markers`; `live m` says whether the
  `Rc` behind a marker still has its strong owner (`strong_count() > 0`).
* `bufCap`, `markCap` are the capacities of `buffer` and `backtrack_markers`. -/
structure Stream (S : Sig) where
  source : Nat → Option S.I
  pulled : Nat
  sourceAtEof : Bool
  sourceLocation : S.L
  buffer : List (Option S.I × S.L)
  bufCap : Nat
  indexInBuffer : Nat
  index : Nat
  markers : List SavedState
  markCap : Nat
  live : SavedState → Bool
  nextId : Nat
  alloc : Alloc

/-- Message of a Rust integer underflow panic (debug profile). -/
def msgUnderflow : String := "attempt to subtract with overflow"
/-- Message of a Rust index-out-of-bounds panic. -/
def msgBounds : String := "Out of bounds access"

namespace Stream

variable {S : Sig}

/-- `Stream::new_with_location` (src/stream.rs:70-84); `Stream::new` (52-67) is the
same with the default start location. -/
def newWithLocation (al : Alloc) (source : Nat → Option S.I) (start : S.L) : Stream S where
  source := source
  pulled := 0
  sourceAtEof := false
  sourceLocation := start
  buffer := []
  bufCap := al.cap0
  indexInBuffer := 0
  index := 0
  markers := []
  markCap := al.mcap0
  live := fun _ => false
  nextId := 0
  alloc := al

/-- The loop at src/stream.rs:94-99: scanning from the back, overwrite the first
marker whose owner is gone. `none` if all are alive. -/
def replaceLastDead (live : SavedState → Bool) (new : SavedState) :
    List SavedState → Option (List SavedState)
  | [] => none
  | m :: ms =>
    match replaceLastDead live new ms with
    | some ms' => some (m :: ms')
    | none => if live m then none else some (new :: ms)

/-- `self.backtrack_markers.push(..)` (src/stream.rs:101) with `Vec` growth. -/
def pushMarker (s : Stream S) (m : SavedState) : Stream S :=
  { s with
    markers := s.markers ++ [m]
    markCap := if s.markers.length = s.markCap
      then max (s.alloc.growM s.markCap) (s.markers.length + 1) else s.markCap }

/-- `Stream::save` (src/stream.rs:87-103). -/
def save (s : Stream S) : SavedState × Stream S :=
  let st : SavedState := ⟨s.nextId, s.index⟩
  let s1 : Stream S :=
    { s with live := fun m => m = st || s.live m, nextId := s.nextId + 1 }
  if s.markers.length = s.markCap then
    match replaceLastDead s.live st s.markers with
    | some ms => (st, { s1 with markers := ms })
    | none => (st, s1.pushMarker st)
  else (st, s1.pushMarker st)

/-- Dropping a `SavedState` (end of its scope in Rust): the strong count of its
`Rc` becomes 0, observable through the weak markers. -/
def dropState (s : Stream S) (m : SavedState) : Stream S :=
  { s with live := fun x => x ≠ m && s.live x }

/-- `start_of_buffer` (src/stream.rs:151-153). -/
def startOfBuffer (s : Stream S) : Out Nat :=
  if s.indexInBuffer ≤ s.index then .ok (s.index - s.indexInBuffer) else .panic msgUnderflow

/-- `Stream::restore` (src/stream.rs:116-132). -/
def restore (s : Stream S) (m : SavedState) : Out (Stream S) := do
  let start ← s.startOfBuffer
  if m.index ≤ start + s.buffer.length then
    if m.index < s.index then
      let amount := s.index - m.index
      if amount ≤ s.indexInBuffer then
        .ok { s with indexInBuffer := s.indexInBuffer - amount, index := s.index - amount }
      else .panic "assertion failed: amount <= self.index_in_buffer"
    else if m.index = s.index then .ok s
    else
      let amount := m.index - s.index
      .ok { s with indexInBuffer := s.indexInBuffer + amount, index := s.index + amount }
  else .panic "assertion failed: *saved_state.index <= self.start_of_buffer() + self.buffer.len()"

/-- `self.buffer.push_back(..)` (src/stream.rs:212, 216) with `VecDeque` growth. -/
def pushBuffer (s : Stream S) (x : Option S.I × S.L) : Stream S :=
  { s with
    buffer := s.buffer ++ [x]
    bufCap := if s.buffer.length = s.bufCap
      then max (s.alloc.growB s.bufCap) (s.buffer.length + 1) else s.bufCap }

/-- `.min().unwrap_or(default)` over marker indices (src/stream.rs:187-193). -/
def minIndex (d : Nat) : List SavedState → Nat
  | [] => d
  | m :: ms => ms.foldl (fun a x => min a x.index) m.index

/-- The block at src/stream.rs:181-209: if the buffer is at capacity, forget dead
markers and drop the tokens nobody can backtrack to. -/
def dropOld (s : Stream S) : Out (Stream S) :=
  if s.buffer.length = s.bufCap then do
    let markers := s.markers.filter s.live
    let s := { s with markers := markers }
    -- `upgrade()` succeeds for all markers that are left
    let backtrackIndex := minIndex s.index markers
    let start ← s.startOfBuffer
    if start ≤ backtrackIndex then
      if start < backtrackIndex then
        let remove := backtrackIndex - start
        if remove ≤ s.buffer.length then
          if remove ≤ s.indexInBuffer then
            .ok { s with
              buffer := s.buffer.drop remove
              indexInBuffer := s.indexInBuffer - remove }
          else .panic "assertion failed: self.index_in_buffer >= remove"
        else .panic "range end index out of range"
      else .ok s
    else .panic "assertion failed: backtrack_index >= start_of_buffer"
  else .ok s

/-- `make_next_available` (src/stream.rs:158-220). -/
def makeNextAvailable (s : Stream S) : Out (Bool × Stream S) :=
  if s.indexInBuffer < s.buffer.length then
    if s.indexInBuffer = s.buffer.length - 1 then .ok (!s.sourceAtEof, s) else .ok (true, s)
  else
    match s.source s.pulled with
    | some t => do
      let loc := s.sourceLocation
      let s := { s with pulled := s.pulled + 1, sourceLocation := S.advance s.sourceLocation t }
      let s ← s.dropOld
      .ok (true, s.pushBuffer (some t, loc))
    | none =>
      let s := { s with pulled := s.pulled + 1 }
      .ok (false, { s.pushBuffer (none, s.sourceLocation) with sourceAtEof := true })

/-- `self.buffer[i]`: panics when out of bounds. -/
def bufferAt (s : Stream S) (i : Nat) : Out (Option S.I × S.L) :=
  match s.buffer[i]? with
  | some x => .ok x
  | none => .panic msgBounds

/-- `Stream::token` (src/stream.rs:224-230). -/
def token (s : Stream S) : Out (Option S.I × Stream S) := do
  let (_, s) ← s.makeNextAvailable
  let x ← s.bufferAt s.indexInBuffer
  .ok (x.1, s)

/-- `Stream::token_at` (src/stream.rs:235-246). -/
def tokenAt (s : Stream S) (m : SavedState) : Out (Option S.I × Stream S) :=
  if m.index = s.index then s.token
  else do
    let start ← s.startOfBuffer
    if start ≤ m.index then
      let x ← s.bufferAt (m.index - start)
      .ok (x.1, s)
    else .panic "assertion failed: *saved_state.index >= self.start_of_buffer()"

/-- `location_tracker` (src/stream.rs:260-265). -/
def locationTracker (s : Stream S) : S.L :=
  match s.buffer[s.indexInBuffer]? with
  | some x => x.2
  | none => s.sourceLocation

/-- `location_tracker_at` (src/stream.rs:269-278). -/
def locationTrackerAt (s : Stream S) (m : SavedState) : Out S.L :=
  if m.index = s.index then .ok s.locationTracker
  else do
    let start ← s.startOfBuffer
    if start ≤ m.index then
      let x ← s.bufferAt (m.index - start)
      .ok x.2
    else .panic "assertion failed: *saved_state.index >= self.start_of_buffer()"

/-- `Stream::location` (src/stream.rs:281-283). -/
def location (s : Stream S) : S.Loc := S.location s.locationTracker s.index

/-- `Stream::location_at` (src/stream.rs:286-289). -/
def locationAt (s : Stream S) (m : SavedState) : Out S.Loc := do
  let l ← s.locationTrackerAt m
  .ok (S.location l m.index)

/-- `Stream::span` (src/stream.rs:292-301). -/
def span (s : Stream S) : Out (S.Span × Stream S) := do
  let endT := s.locationTracker
  let endIndex := s.index
  let (tok, s) ← s.token
  let (endT, endIndex) := match tok with
    | some t => (S.advance endT t, endIndex + 1)
    | none => (endT, endIndex)
  .ok (S.spanningTo s.locationTracker s.index endT endIndex, s)

/-- `Stream::spanning_back_to` (src/stream.rs:304-310). -/
def spanningBackTo (s : Stream S) (m : SavedState) : Out S.Span := do
  let l ← s.locationTrackerAt m
  .ok (S.spanningTo l m.index s.locationTracker s.index)

/-- `Stream::advance` (src/stream.rs:319-329). -/
def advance (s : Stream S) : Out (Bool × Stream S) := do
  let (more, s) ← s.makeNextAvailable
  if more then
    .ok (true, { s with index := s.index + 1, indexInBuffer := s.indexInBuffer + 1 })
  else .ok (false, s)

/-- The loop at src/stream.rs:356-363. -/
def advanceLoop : Nat → Stream S → Out (Bool × Stream S)
  | 0, s => .ok (true, s)
  | amount + 1, s => do
    let (more, s) ← s.advance
    if more then advanceLoop amount s else .ok (false, s)

/-- `Stream::advance_to` (src/stream.rs:335-364). -/
def advanceTo (s : Stream S) (i : Nat) : Out (Bool × Stream S) :=
  if i ≤ s.index then
    if i = s.index then .ok (true, s) else .panic "assertion failed: index == self.index"
  else if s.indexInBuffer ≤ s.buffer.length then
    let amount := i - s.index
    let buffered := min (s.buffer.length - s.indexInBuffer) amount
    let s := { s with index := s.index + buffered, indexInBuffer := s.indexInBuffer + buffered }
    let amount := amount - buffered
    if amount = 0 then .ok (true, s) else advanceLoop amount s
  else .panic msgUnderflow

/-- `Stream::save_at` (src/stream.rs:107-113). -/
def saveAt (s : Stream S) (i : Nat) : Out (SavedState × Stream S) := do
  let index := s.index
  let indexInBuffer := s.indexInBuffer
  let (_, s) ← s.advanceTo i
  let (m, s) := s.save
  .ok (m, { s with index := index, indexInBuffer := indexInBuffer })

end Stream

end PPC
