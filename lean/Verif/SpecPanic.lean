import Verif.Reach

/-!
# Panics in the middle of a parse (specification of C61)

A function of the user that panics (a predicate, a function given to `map`, the token source, …) ends a parse at an
arbitrary point. If the panic is caught, the stream is left in the state that it had then, and the saved states that the
parser owned are dropped while the stack is unwound.
-/

namespace PPC

variable {S : Sig}

/-- `s'` is `s` after some successful calls of `advance`. -/
inductive Advanced : Stream S → Stream S → Prop
  | refl {s : Stream S} : Advanced s s
  | step {s s' s'' : Stream S} (h : Advanced s s') (hs : Stream.step .advance s' = .ok (true, s'')) : Advanced s s''

/-- A call that panics before it returns may leave `s'` behind, if it is not the location tracker that panics while a
token is read (see `Stream.loseToken`). Calls to functions of the user in src/stream.rs: `source.next()` (172), before
anything was changed, and in `save_at` (107) and `advance_to` (335-364) also after some tokens; the location tracker
in `location` (281) and `spanning_back_to` (304), which change nothing, and in `span` (292) after `token()`. -/
inductive BreaksOff : Op S → Stream S → Stream S → Prop
  | unchanged {o : Op S} {s : Stream S} : BreaksOff o s s
  | span {s s' : Stream S} {t : Option S.I} (h : Stream.step .token s = .ok (t, s')) : BreaksOff .span s s'
  | saveAt {s s' : Stream S} {i : Nat} (h : Advanced s s') : BreaksOff (.saveAt i) s s'
  | advanceTo {s s' : Stream S} {i : Nat} (h : Advanced s s') : BreaksOff (.advanceTo i) s s'

/-- A client that panics may leave `s'` behind: between two calls, or in the middle of one. -/
inductive StopsAt {α : Type} : Prog S α → Stream S → Stream S → Prop
  | between {p : Prog S α} {s : Stream S} : StopsAt p s s
  | within {o : Op S} {k : o.Resp → Prog S α} {s s' : Stream S} (h : BreaksOff o s s') : StopsAt (.op o k) s s'
  | later {o : Op S} {k : o.Resp → Prog S α} {s s' s'' : Stream S} {r : o.Resp} (hs : Stream.step o s = .ok (r, s'))
      (h : StopsAt (k r) s' s'') : StopsAt (.op o k) s s''

/-- Unwinding: the saved states that are owned and were not `given` are dropped, in any order. -/
inductive UnwindsTo (given : SavedState → Bool) : Stream S → Stream S → Prop
  | done {s : Stream S} (h : ∀ m, s.live m = true → given m = true) : UnwindsTo given s s
  | drop {s s' s'' : Stream S} {m : SavedState} (hm : s.live m = true) (hg : given m = false)
      (hs : Stream.step (.drop m) s = .ok ((), s')) (h : UnwindsTo given s' s'') : UnwindsTo given s s''

/-- The stream after the location tracker panicked in `make_next_available`, in the call of `advance`
(src/stream.rs:172-179): the token was taken from the source and is lost. The location tracker itself is assumed not to
have changed. -/
def Stream.loseToken (s : Stream S) : Stream S := { s with pulled := s.pulled + 1 }

end PPC
