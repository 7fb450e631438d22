import Verif.SemCost10
import Verif.SemDepth2
import Verif.PropsTerm
import Verif.PropsCost

/-!
# C57: how much work recursive parsers do, at most

The work is the number of calls on the stream (`Verif.SpecCost`). That it can be exponential is `C51_nested_calls`.
-/

namespace PPC

variable {S : Sig} {N : Names S} {D : Defs S N} {ε : ErrTy S} {α : Type} {g : G S N ε α} {ν : Bool → N.K → Bool}

/-- **C57**, where at most `R` recursive parsers can be entered before a token is consumed, and loops over the input are
nested at most `w` deep in the parser and in each definition: the number of calls for an input of `L` tokens is at most
`(c * (L + 1) ^ w) ^ ((L + 1) * R + 1)`, for a number `c` that depends on the grammar only. This holds whether the parse
returns, panics or is cut off, with and without recovery, for every allocator and location tracker. -/
theorem C57_ranked (ks : List N.K) (hks : ∀ k, k ∈ ks) (hν : Nullable D ν) (hD : D.All (progressL S N ν))
    (hC : D.All (noErrSpanL S N)) (hg : g.All (progressL S N ν)) (hgC : g.All (noErrSpanL S N))
    {rank : Bool → N.K → Nat} {R : Nat} (hR : Ranked D ν rank R) {w : Nat} (hw : ∀ k h, D k = some h → h.loops ≤ w)
    (hgw : g.loops ≤ w) :
    ∃ c, ∀ (n : Nat) (en : Bool) (al : Alloc) (source : Nat → Option S.I) (start : S.L) (L : Nat),
      (∀ i, i < L → (source i).isSome) → source L = none →
      (g.prog D n en).calls Stream.step (Stream.newWithLocation al source start) ≤
        (c * (L + 1) ^ w) ^ ((L + 1) * R + 1) := by
  obtain ⟨c, h0, h1, h2⟩ := cost_const (g := g) ks hw hgw
  refine ⟨2 * c, fun n en al source start L h3 h4 => ?_⟩
  have hs := Sim.init ⟨source, start⟩ al
  rw [G.calls_stream D n g en hs, Nat.mul_assoc]
  exact prog_calls_le (e := ⟨source, start⟩) ⟨h3, h4⟩ hν hD hC hg hgC (Nat.mul_pos h0 (Nat.pow_pos (Nat.succ_pos _)))
    (fun k h hk => h2 k (hks k) h hk L) (h1 L) hR n en hs.wf

/-- **C57**, for a grammar without left recursion, endless repetition and `map_err_with_span`, with recursive parsers
`ks`: a parse of a list of tokens makes a number of calls that is bounded in terms of the number of tokens. -/
theorem C57_bound (ks : List N.K) (hks : ∀ k, k ∈ ks) (hν : Nullable D ν) (hlr : NoLeftRecursion D ν)
    (hD : D.All (progressL S N ν)) (hC : D.All (noErrSpanL S N)) (hg : g.All (progressL S N ν))
    (hgC : g.All (noErrSpanL S N)) {w : Nat} (hw : ∀ k h, D k = some h → h.loops ≤ w) (hgw : g.loops ≤ w) :
    ∃ c, ∀ (n : Nat) (al : Alloc) (start : S.L) (ts : List S.I),
      parseCalls (g.prog D n) al (fun i => ts[i]?) start ≤
        (c * (ts.length + 1) ^ w) ^ (2 * ks.length * (ts.length + 1) + 1) := by
  obtain ⟨rank, hR⟩ := Ranked.of_list ks hks hlr
  obtain ⟨c, h⟩ := C57_ranked ks hks hν hD hC hg hgC hR hw hgw
  refine ⟨c, fun n al start ts => ?_⟩
  rw [Nat.mul_comm (2 * ks.length)]
  exact h n true al _ start ts.length (fun i hi => by simp [hi]) (List.getElem?_eq_none (Nat.le_refl _))

/-- **C57.** Without loops over the input, as with alternatives and recursion only, it is exponential. -/
theorem C57_exponential (ks : List N.K) (hks : ∀ k, k ∈ ks) (hν : Nullable D ν) (hlr : NoLeftRecursion D ν)
    (hD : D.All (progressL S N ν)) (hC : D.All (noErrSpanL S N)) (hg : g.All (progressL S N ν))
    (hgC : g.All (noErrSpanL S N)) (hw : ∀ k h, D k = some h → h.loops = 0) (hgw : g.loops = 0) :
    ∃ c, ∀ (n : Nat) (al : Alloc) (start : S.L) (ts : List S.I),
      parseCalls (g.prog D n) al (fun i => ts[i]?) start ≤ c ^ (ts.length + 1) := by
  obtain ⟨c, h⟩ := C57_bound ks hks hν hlr hD hC hg hgC (w := 0) (fun k h hk => Nat.le_of_eq (hw k h hk))
    (Nat.le_of_eq hgw)
  refine ⟨(c + 1) ^ (2 * ks.length + 1), fun n al start ts => Nat.le_trans (h n al start ts) ?_⟩
  rw [Nat.pow_zero, Nat.mul_one, ← Nat.pow_mul]
  refine Nat.le_trans (Nat.pow_le_pow_left (Nat.le_succ c) _) (Nat.pow_le_pow_right (Nat.succ_pos c) ?_)
  rw [Nat.add_mul, Nat.one_mul]
  omega

/-! ## The hypotheses can be met -/

/-- Nested brackets, with recovery, and lists of them. -/
example : ∃ c, ∀ (n : Nat) (al : Alloc) (ts : List Nat),
    parseCalls ((G.separatedBy { allowTrailing := true } exNestedG (.just 3)).prog exNested n) al (fun i => ts[i]?) () ≤
      (c * (ts.length + 1) ^ 2) ^ (2 * (ts.length + 1) + 1) := by
  obtain ⟨h1, h2, h3, h4⟩ := exNested_terminates
  obtain ⟨c, hc⟩ := C57_bound (w := 2) [()] (fun _ => by simp) h1 h2 h3
    (by intro k g h; cases h; simp [G.All, CS.All, IS.All, noErrSpanL, G.NoErrSpan]) h4
    (by simp [exNestedG, G.All, noErrSpanL, G.NoErrSpan]) (by rintro k h ⟨⟩; simp [G.loops, CS.loops, IS.loops]) (by decide)
  exact ⟨c, fun n al ts => hc n al () ts⟩

/-- Nested brackets, without recovery: `e ::= 1 e 2 | 1 e 3 | 0`, which tries the first alternative for a bracket that
is closed by `3`. -/
def exBrackets : Defs exSig exRecNames := fun _ => some
  (.or (.delimitedBy (.just 1) (.call ()) (.just 2)) (.or (.delimitedBy (.just 1) (.call ()) (.just 3)) (.just 0)))

example : ∃ c, ∀ (n : Nat) (al : Alloc) (ts : List Nat),
    parseCalls ((G.call () : G exSig exRecNames (simpleErr exSig) Nat).prog exBrackets n) al (fun i => ts[i]?) () ≤
      c ^ (ts.length + 1) := by
  obtain ⟨c, hc⟩ := C57_exponential (D := exBrackets) (g := (G.call () : G exSig exRecNames (simpleErr exSig) Nat))
    (ν := fun _ _ => false) [()] (fun _ => by simp)
    (by intro k g en h; cases h; simp [G.mayEmpty])
    ⟨fun x => ⟨x, by rintro y ⟨g, h, h'⟩; cases h; simp [G.MayCall, G.mayEmpty] at h'⟩⟩
    (by intro k g h; cases h; simp [G.All, progressL, G.Progresses])
    (by intro k g h; cases h; simp [G.All, noErrSpanL, G.NoErrSpan])
    (by simp [G.All, progressL, G.Progresses]) (by simp [G.All, noErrSpanL, G.NoErrSpan])
    (by rintro k h ⟨⟩; simp [G.loops]) rfl
  exact ⟨c, fun n al ts => hc n al () ts⟩

/-- The numbers of calls for `0`, `1 0 3`, `1 1 0 3 3` and `1 1 1 0 3 3 3`. -/
example : ([[0], [1, 0, 3], [1, 1, 0, 3, 3], [1, 1, 1, 0, 3, 3, 3]].map fun ts : List Nat =>
    parseCalls ((G.call () : G exSig exRecNames (simpleErr exSig) Nat).prog exBrackets 20) rustAlloc (fun i => ts[i]?) ()) =
      [12, 38, 90, 194] := by
  decide +kernel

end PPC

namespace PPC.Pangram

open PPC

variable {Sp : Type}

/-- **C57.** For grammar files: at most `(c * (L + 1)) ^ (5 * (L + 1) + 1)` calls for `L` tokens. -/
theorem C57_grammar_files (patterns : TerminalPatterns Sp) (x : NT) :
    ∃ c, ∀ (n : Nat) (al : Alloc) (ts : List (TerminalToken TokenType Sp)),
      parseCalls ((parser x).prog (defs patterns) n) al (fun i => ts[i]?) () ≤
        (c * (ts.length + 1)) ^ (5 * (ts.length + 1) + 1) := by
  have h1 : (defs patterns).All (noErrSpanL _ _) := by
    intro k g hk
    cases k <;> cases hk <;> unfold_def <;> simp [G.All, noErrSpanL, G.NoErrSpan]
  have h2 : ∀ k h, defs patterns k = some h → h.loops ≤ 1 := by
    intro k g hk
    cases k <;> cases hk <;> unfold_def <;> simp [G.loops]
  have h3 : (parser (Sp := Sp) x).loops ≤ 1 := Nat.zero_le _
  obtain ⟨c, h⟩ := C57_ranked (g := parser x) (D := defs patterns) (w := 1)
    [.grammar, .rule, .alternation, .firstAlter, .subseqAlter, .alterName, .concatenation, .repetition, .singular]
    (fun k => by cases k <;> simp) defs_nullable defs_progress h1 parser_progress
    (by simp [parser, G.All, noErrSpanL, G.NoErrSpan]) defs_ranked h2 h3
  refine ⟨c, fun n al ts => ?_⟩
  have := h n true al (fun i => ts[i]?) () ts.length (fun i hi => by simp [hi]) (List.getElem?_eq_none (Nat.le_refl _))
  rwa [Nat.pow_one, Nat.mul_comm _ 5] at this

end PPC.Pangram
