import Verif.SemMemory4
import Verif.PropsStream
import Verif.ExGrammars

/-!
# C53: streaming takes memory that does not grow with the input
-/

namespace PPC

variable {S : Sig} {N : Names S} {al : Alloc} {e : Env S} {s : Stream S} {ε : ErrTy S} {α : Type}

/-! ## Saved states -/

/-- **C53.** While a parser runs, it owns at most as many saved states as parsers that have to go back are nested in it. For
recursive parsers each level of the recursion adds at most `b`, where `b` bounds the nesting in the definitions of the
recursive parsers in `F`, which are the only ones that are called. The input does not matter. -/
theorem C53_owned_states_bounded {D : Defs S N} {F : N.K → Prop} {b : Nat} {g : G S N ε α}
    (hD : ∀ k (g' : G S N (N.err k) (N.out k)), F k → D k = some g' → g'.All (callsL F) ∧ g'.saves 0 ≤ b)
    (hg : g.All (callsL F)) (h : Reach al e s) (hno : ∀ m, s.live m = false) (n : Nat) (en : Bool) :
    (g.prog D n en).Through (Stream.OwnedAtMost (g.saves 0 + b * n)) s :=
  (G.prog_bal hD g hg n en).through Tidy.prog h hno

/-- **C53.** The same while a stream of results is taken from a parser, and then the tokens that are left. -/
theorem C53_owned_states_streaming {D : Defs S N} {F : N.K → Prop} {b : Nat} {g : G S N ε α}
    (hD : ∀ k (g' : G S N (N.err k) (N.out k)), F k → D k = some g' → g'.All (callsL F) ∧ g'.saves 0 ≤ b)
    (hg : g.All (callsL F)) (h : Reach al e s) (hno : ∀ m, s.live m = false) (n k m : Nat) :
    (streamThenTail (g.prog D n) k m).Through (Stream.OwnedAtMost (g.saves 0 + b * n)) s :=
  (streamThenTail_bal (G.prog_bal hD g hg n)).through Tidy.streamThenTail h hno

/-- Nested brackets with recovery: two saved states for each level of nesting. -/
example (xs : List Nat) (n : Nat) : (exNestedG.prog exNested n true).Through (Stream.OwnedAtMost (2 * n)) (exStart xs) := by
  have h := C53_owned_states_bounded (al := rustAlloc) (e := exEnv xs) (D := exNested) (F := fun _ => True) (b := 2)
    (g := exNestedG) ?_ trivial .new (fun _ => rfl) n true
  · rw [show exNestedG.saves 0 + 2 * n = 2 * n from Nat.zero_add _] at h
    exact h
  · rintro k g' - ⟨⟩
    exact ⟨by simp [G.All, CS.All, IS.All, callsL, G.CallsIn], Nat.le_refl 2⟩

/-! ## Markers -/

/-- **C53.** The list of markers does not grow with the number of states that are saved, but only with the number of those
that are owned at the same time. This holds for every client of the stream. -/
theorem C53_markers_bounded {p : Prog S α} {K M : Nat} (h0 : al.mcap0 ≤ M) (hK : K ≤ M) (hg : ∀ k, k < K → al.growM k ≤ M)
    (h : p.Through (Stream.OwnedAtMost K) (Stream.newWithLocation al e.source e.start)) :
    p.Through (fun s => s.markers.length ≤ M) (Stream.newWithLocation al e.source e.start) :=
  (MarkOk.through hK hg (MarkOk.new h0) h).imp fun _ h => Nat.le_trans h.len h.cap

/-- `filter` saves a state for each of any number of tokens; four markers are enough. -/
example (xs : List Nat) (k m : Nat) : (streamThenTail ((.filter fun t => t < 5 : ExG Nat).prog exNoDefs 0) k m).Through
    (fun s => s.markers.length ≤ 4) (exStart xs) :=
  C53_markers_bounded (al := rustAlloc) (e := exEnv xs) (K := 1) (by simp [rustAlloc]) (by omega)
    (fun k hk => by simp only [rustAlloc]; omega)
    (C53_owned_states_streaming (S := exSig) (N := exNames) (al := rustAlloc) (e := exEnv xs) (D := exNoDefs)
      (F := fun _ => False) (b := 0) (g := (.filter fun t => t < 5 : ExG Nat)) (fun _ _ h => h.elim)
      (by simp [G.All, callsL, G.CallsIn]) .new (fun _ => rfl) 0 k m)

/-! ## Tokens -/

/-- **C53.** If each result that is taken from a stream of results is found with the next `W` tokens, then the buffer never has
more than `B + 1` tokens, where `B` only has to cover the initial capacity, `W + 1` and the capacities that the allocator
chooses for buffers of `W` tokens. -/
theorem C53_streaming_buffer {D : Defs S N} {g : G S N ε α} {W B n k m : Nat} (h0 : al.cap0 ≤ B) (hWB : W + 1 ≤ B)
    (hg : ∀ k, k ≤ W → al.growB k ≤ B)
    (hl : LooksAhead W (streamNext (g.prog D n)) k (Stream.newWithLocation al e.source e.start)) :
    (streamThenTail (g.prog D n) k m).Through (fun s => s.buffer.length ≤ B + 1)
      (Stream.newWithLocation al e.source e.start) :=
  (streamThenTail_through .new (fun _ => rfl) hl).imp fun _ h => (C03_buffer_bounded h0 hWB hg h).1

/-- **C53.** Parsers without recursion and without repetitions that have no maximum look at a fixed number of tokens for each
result, on every input. -/
theorem C53_look_ahead {D : Defs S N} {g : G S N ε α} (hg : g.All (finiteL S N)) (n k : Nat) :
    LooksAhead (max 1 g.ahead) (streamNext (g.prog D n)) k (Stream.newWithLocation al e.source e.start) :=
  streamNext_looksAhead (fun _ => (G.close g hg).le (Nat.le_max_right _ _)) (Nat.le_max_left _ _) .new (fun _ => rfl)
    (Nat.zero_le _)

/-- Pairs, with a parser that looks for a second pair. -/
abbrev exPairs : ExG (Nat × Nat) :=
  .toRecover (.or (.then_ (.just 1) (.just 2)) (.then_ (.just 1) (.filter fun _ => true)))
    (.orFail (.retry (.skip .attemptTo) true false))

theorem exPairs_finite : exPairs.All (finiteL exSig exNames) := by
  simp [G.All, IS.All, CS.All, finiteL, G.Finite, IS.Finite]

/-- They look at most five tokens ahead, on an endless source. -/
example (n k : Nat) : LooksAhead 5 (streamNext (exPairs.prog exNoDefs n)) k
    (Stream.newWithLocation exAlloc (fun i => some i) () : Stream exSig) :=
  C53_look_ahead (S := exSig) (al := exAlloc) (e := ⟨fun i => some i, ()⟩) (D := exNoDefs) exPairs_finite n k

/-! ## Both -/

/-- **C53.** Memory of a stream of results from such a parser, and of the tokens that are left: in every state that the token
stream goes through there are at most `B + 1` tokens in the buffer and at most `M` markers. Neither the input (which may
be endless), nor the number of results that are taken from it, nor the bound on loops matters. -/
theorem C53_streaming_memory {D : Defs S N} {g : G S N ε α} (hg : g.All (finiteL S N)) {B M : Nat} (h0 : al.cap0 ≤ B)
    (hB : max 1 g.ahead + 1 ≤ B) (hgB : ∀ k, k ≤ max 1 g.ahead → al.growB k ≤ B) (h0' : al.mcap0 ≤ M)
    (hM : g.saves 0 ≤ M) (hgM : ∀ k, k < g.saves 0 → al.growM k ≤ M) (n k m : Nat) :
    (streamThenTail (g.prog D n) k m).Through (fun s => s.buffer.length ≤ B + 1 ∧ s.markers.length ≤ M)
      (Stream.newWithLocation al e.source e.start) := by
  refine (C53_streaming_buffer h0 hB hgB (C53_look_ahead hg n k)).and (C53_markers_bounded h0' hM hgM ?_)
  have h := C53_owned_states_streaming (D := D) (F := fun _ => False) (b := 0) (fun _ _ h => h.elim)
    (G.All.imp (L := finiteL S N) (M := callsL fun _ => False) (fun g h => by cases g <;> first | exact h | trivial)
      (fun _ _ => trivial) g hg) (.new (al := al) (e := e)) (fun _ => rfl) n k m
  rw [Nat.zero_mul] at h
  exact h

/-- **C53.** With the growth policy of the Rust standard library: at most `2 W + 5` tokens are in the buffer, where `W` is the
number of tokens that the parser looks at, and there are at most `2 d + 4` markers, where `d` is the nesting depth. -/
theorem C53_streaming_memory_rust {D : Defs S N} {g : G S N ε α} (hg : g.All (finiteL S N)) (n k m : Nat) :
    (streamThenTail (g.prog D n) k m).Through
      (fun s => s.buffer.length ≤ 2 * g.ahead + 5 ∧ s.markers.length ≤ 2 * g.saves 0 + 4)
      (Stream.newWithLocation rustAlloc e.source e.start) :=
  C53_streaming_memory hg (B := 2 * g.ahead + 4) (M := 2 * g.saves 0 + 4) (by simp [rustAlloc]) (by omega)
    (fun k hk => by simp only [rustAlloc]; omega) (by simp [rustAlloc]) (by omega)
    (fun k hk => by simp only [rustAlloc]; omega) n k m

/-- The pairs again: never more than 15 tokens and 12 markers, on an endless source. -/
example (n k m : Nat) : (streamThenTail (exPairs.prog exNoDefs n) k m).Through
    (fun s => s.buffer.length ≤ 15 ∧ s.markers.length ≤ 12)
    (Stream.newWithLocation rustAlloc (fun i => some i) () : Stream exSig) :=
  C53_streaming_memory_rust (S := exSig) (e := ⟨fun i => some i, ()⟩) (D := exNoDefs) exPairs_finite n k m

end PPC
