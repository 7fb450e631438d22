import Verif.SemCost2
import Verif.SemCost4
import Verif.ExGrammars
import Verif.PropsPangram

/-!
# C51: how much work a parse does

The work is the number of calls on the stream (`Verif.SpecCost`).
-/

namespace PPC

section

variable {S : Sig} {N : Names S} {ε : ErrTy S} {α : Type} {g : G S N ε α}

/-- **C51**, for parsers that are not recursive, do not call `map_err_with_span` and do not repeat something that
consumes nothing: the number of calls is bounded by a polynomial in the number of tokens. Its degree is the depth to
which loops are nested in the parser. The bound holds whether the parse returns, panics or is cut off, with and without
recovery, for every allocator and location tracker.

Missing: recursive parsers and `map_err_with_span`, for which it is false (`C51_grammar_files_fails`,
`C51_map_err_with_span_fails`). -/
theorem C51_polynomial_partial (hd : g.All (directL S N)) (hp : g.All (progressL S N fun _ _ => true)) :
    ∃ c, ∀ (D : Defs S N) (n : Nat) (en : Bool) (al : Alloc) (source : Nat → Option S.I) (start : S.L) (L : Nat),
      (∀ i, i < L → (source i).isSome) → source L = none →
      (g.prog D n en).calls Stream.step (Stream.newWithLocation al source start) ≤ c * (L + 1) ^ g.loops := by
  obtain ⟨c, hc⟩ := g.poly (Kc := 0)
  refine ⟨c, fun D n en al source start L h1 h2 => Nat.le_trans ?_ (hc L)⟩
  have hs := Sim.init ⟨source, start⟩ al
  rw [G.calls_stream D n g en hs]
  exact G.up_direct (e := ⟨source, start⟩) ⟨h1, h2⟩ (callRec_ref D n) (callSem_mq (fun _ _ _ _ _ => rfl) n) g hd hp en _ hs.wf

/-- **C51**, the same for `parse` and `parse_with_recovery` of a list of tokens. -/
theorem C51_parse_partial (hd : g.All (directL S N)) (hp : g.All (progressL S N fun _ _ => true)) :
    ∃ c, ∀ (D : Defs S N) (n : Nat) (al : Alloc) (start : S.L) (ts : List S.I),
      parseCalls (g.prog D n) al (fun i => ts[i]?) start ≤ c * (ts.length + 1) ^ g.loops := by
  obtain ⟨c, h⟩ := C51_polynomial_partial hd hp
  exact ⟨c, fun D n al start ts => h D n true al _ start ts.length (fun i hi => by simp [hi])
    (List.getElem?_eq_none (Nat.le_refl _))⟩

end

/-! ## The hypotheses can be met -/

/-- Any number of `1`s and a `2`; if that fails, it is tried again at every later token up to a `3`. -/
def exQuadratic : ExG (List Nat × Nat) :=
  .toRecover (.then_ (.repeated {} (.just 1)) (.just 2))
    (.ret (.whileNot .attemptTo (fun t => t == 3) (.retry .attemptTo true true)) ([], 0))

/-- The hypotheses of `C51_polynomial_partial` and `C51_parse_partial`. -/
example : exQuadratic.All (directL exSig exNames) ∧ exQuadratic.All (progressL exSig exNames fun _ _ => true) ∧
    exQuadratic.loops = 2 := by
  refine ⟨?_, ?_, rfl⟩
  · simp [exQuadratic, G.All, IS.All, CS.All, directL, G.Direct]
  · simp [exQuadratic, G.All, IS.All, CS.All, progressL, G.Progresses, IS.Progresses, IS.Forward, G.mayEmpty]

/-- It makes so many calls for 3 and for 6 tokens. -/
example : parseCalls (exQuadratic.prog exNoDefs 20) rustAlloc (fun i => [1, 1, 1][i]?) () = 79 ∧
    parseCalls (exQuadratic.prog exNoDefs 20) rustAlloc (fun i => [1, 1, 1, 1, 1, 1][i]?) () = 160 := by
  decide +kernel

end PPC

namespace PPC.Pangram

open PPC

variable {Sp : Type} {d : Sp} {ts : List (TerminalToken TokenType Sp)} {n : Nat}

theorem next_of_types {i : Nat} {x : TokenType} (h : (ts.map (·.tokenType))[i]? = some x) : Next (tokEnv ts) i x := by
  rw [List.getElem?_map] at h
  obtain ⟨t, h1, h2⟩ := Option.map_eq_some_iff.1 h
  exact ⟨t, h1, h2⟩

theorem nestedTypes_get {i : Nat} : (nestedTypes n)[i]? =
    if i = 0 then some .symbol else if i = 1 then some .colEqEq else if i < n + 2 then some .lp
    else if i = n + 2 then some .symbol else if i < 2 * n + 3 then some .rp else if i = 2 * n + 3 then some .sem
    else none := by
  unfold nestedTypes
  simp only [List.getElem?_append, List.length_append, List.length_replicate, List.length_cons, List.length_nil]
  split
  · split
    · split
      · split
        · rcases i with _ | _ | i
          · rfl
          · rfl
          · omega
        · rw [if_neg (by omega), if_neg (by omega), if_pos (by omega), List.getElem?_replicate, if_pos (by omega)]
      · rw [if_neg (by omega), if_neg (by omega), if_neg (by omega), if_pos (by omega)]
        rw [show i - (0 + 1 + 1 + n) = 0 by omega]; rfl
    · rw [if_neg (by omega), if_neg (by omega), if_neg (by omega), if_neg (by omega), if_pos (by omega),
        List.getElem?_replicate, if_pos (by omega)]
  · rw [if_neg (by omega), if_neg (by omega), if_neg (by omega), if_neg (by omega), if_neg (by omega)]
    split
    · rw [show i - (0 + 1 + 1 + n + (0 + 1) + n) = 0 by omega]; rfl
    · exact List.getElem?_eq_none (by simp; omega)

theorem nestAt_of_types (hts : ts.map (·.tokenType) = nestedTypes n) : ∀ k j, j + k = n →
    NestAt (tokEnv ts) k (j + 2)
  | 0, j, h => next_of_types (by
      rw [hts, nestedTypes_get, if_neg (by omega), if_neg (by omega), if_neg (by omega), if_pos (by omega)])
  | k + 1, j, h => ⟨next_of_types (by
      rw [hts, nestedTypes_get, if_neg (by omega), if_neg (by omega), if_pos (by omega)]),
    by
      have := nestAt_of_types hts k (j + 1) (by omega)
      rwa [show j + 1 + 2 = j + 2 + 1 by omega] at this,
    next_of_types (by
      rw [hts, nestedTypes_get, if_neg (by omega), if_neg (by omega), if_neg (by omega), if_neg (by omega),
        if_pos (by omega)])⟩

/-- **C51.** A grammar file with one rule, whose expression is a symbol inside `n` pairs of parentheses, is
accepted … -/
theorem C51_nested_accepted (hts : ts.map (·.tokenType) = nestedTypes n) (d : Sp) (al : Alloc) :
    ∃ m x, parse (simpleErr _) ((parser .grammar).prog (defs (.default d)) m) al (fun i => ts[i]?) () = .ok (.ok x) := by
  obtain ⟨s, h1, h2⟩ := Next.pt (next_of_types (ts := ts) (i := 0) (x := .symbol) (by rw [hts]; rfl))
  obtain ⟨c, h3, h4⟩ := Next.pt (next_of_types (ts := ts) (i := 1) (x := .colEqEq) (by rw [hts]; rfl))
  obtain ⟨y, h5, h6⟩ := (nestAt_of_types hts n 0 (by omega)).tree
  obtain ⟨m, h7, h8⟩ := Next.pt (next_of_types (ts := ts) (i := 2 * n + 3) (x := .sem) (by
    rw [hts, nestedTypes_get, if_neg (by omega), if_neg (by omega), if_neg (by omega), if_neg (by omega),
      if_neg (by omega), if_pos rfl]))
  let x : PtGrammar Sp := ⟨[.tokenRule none s c (.mk (.mk [.one y]) []) m]⟩
  have hx : Complete (k := .grammar) x := by
    refine ⟨by simp [x], fun r hr => ?_⟩
    rw [List.mem_singleton.1 hr]
    exact .tokenRule (by rintro _ ⟨⟩) h1 h3 (.mk (.mk (by simp) (.cons (.one h5) .nil)) .nil) h7
  have hr : Reads (tokEnv ts) 0 (leaves (k := .grammar) x) (2 * n + 4) := by
    have hl : leaves (k := .grammar) x = s.leaves ++ (c.leaves ++ (y.leaves ++ m.leaves)) := by
      simp [x, leaves, PtGrammar.leaves, rowLeaves, PtRule.leaves, PtAlternation.leaves, PtConcatenation.leaves, repsLeaves,
        PtRepetition.leaves, barsLeaves, optLeaves]
    rw [hl]
    refine reads_append.2 ⟨_, h2, reads_append.2 ⟨_, h4, reads_append.2 ⟨_, h6, ?_⟩⟩⟩
    rw [show 0 + 2 + 2 * n + 1 = 2 * n + 3 by omega]
    exact h8
  have he : (tokEnv ts).source (2 * n + 4) = none := by
    refine List.getElem?_eq_none ?_
    have := congrArg List.length hts
    simp [nestedTypes] at this
    omega
  obtain ⟨m', h9⟩ := (C45_parse (d := d) (k := .grammar) (x := x) al).2 ⟨hx, (reads_all.1 ⟨hr, he⟩).1⟩
  exact ⟨m', x, h9⟩

/-- … but every parse of it that returns makes at least `4 ^ (n + 1)` calls on the stream. -/
theorem C51_nested_calls (hts : ts.map (·.tokenType) = nestedTypes n) {al : Alloc} {m : Nat}
    {r : Res (PtGrammar Sp) _}
    (h : parseWithRecovery ((parser .grammar).prog (defs (.default d)) m) al (fun i => ts[i]?) () = .ok r) :
    4 ^ (n + 1) ≤ parseCalls ((parser .grammar).prog (defs (.default d)) m) al (fun i => ts[i]?) () := by
  have h1 := parseWithRecovery_sem (e := tokEnv ts) (D := defs (.default d)) (n := m) (g := parser .grammar) al
  have h2 : (parser .grammar).sem (tokEnv ts) (defs (.default d)) m true 0 ≠ .oof := by
    intro h3
    rw [h3] at h1
    cases h.symm.trans h1
  refine Nat.le_trans (low_grammar (next_of_types ?_) (next_of_types ?_) (nestAt_of_types hts n 0 (by omega))
    (next_of_types ?_) h2 Cursor.init (Sim.init (tokEnv ts) al).wf rfl) (Nat.le_of_eq ?_)
  · rw [hts]; rfl
  · rw [hts]; rfl
  · rw [hts, nestedTypes_get, if_neg (by omega), if_neg (by omega), if_neg (by omega), if_neg (by omega),
      if_neg (by omega), if_pos rfl]
  · exact (G.calls_stream _ _ _ _ (Sim.init (tokEnv ts) al)).symm

theorem exponential (c k : Nat) : ∃ n, c * (2 * n + 4 + 1) ^ k < 4 ^ (n + 1) := by
  have h1 : ∀ a, a < 2 ^ a := fun a => Nat.lt_two_pow_self
  generalize hs : c + 3 * k = s
  refine ⟨2 ^ (2 * s), ?_⟩
  have h2 : 2 * 2 ^ (2 * s) + 4 + 1 ≤ 2 ^ (2 * s + 3) := by
    have := Nat.one_le_two_pow (n := 2 * s)
    rw [Nat.pow_add]; omega
  have h3 : (s + 1) * (s + 1) ≤ 2 ^ (2 * s) := by
    rw [Nat.two_mul, Nat.pow_add]; exact Nat.mul_le_mul (h1 s) (h1 s)
  have h4 : c + (2 * s + 3) * k < 2 * (2 ^ (2 * s) + 1) := by
    have h5 : 2 * s * k ≤ 2 * s * s := Nat.mul_le_mul_left _ (by omega)
    have h6 : (2 * s + 3) * k = 2 * s * k + 3 * k := by rw [Nat.add_mul]
    have h7 : (s + 1) * (s + 1) = s * s + 2 * s + 1 := by
      rw [Nat.add_mul, Nat.mul_add]; omega
    have h8 : 2 * s * s = 2 * (s * s) := Nat.mul_assoc _ _ _
    omega
  calc c * (2 * 2 ^ (2 * s) + 4 + 1) ^ k ≤ 2 ^ c * (2 ^ (2 * s + 3)) ^ k :=
        Nat.mul_le_mul (Nat.le_of_lt (h1 c)) (Nat.pow_le_pow_left h2 k)
    _ = 2 ^ (c + (2 * s + 3) * k) := by rw [← Nat.pow_mul, ← Nat.pow_add]
    _ < 2 ^ (2 * (2 ^ (2 * s) + 1)) := Nat.pow_lt_pow_right (by omega) h4
    _ = 4 ^ (2 ^ (2 * s) + 1) := by rw [Nat.pow_mul]

/-- **C51**, the negation for grammar files: no polynomial bounds the number of calls that a successful parse of a
grammar file makes, in terms of the number of its tokens. -/
theorem C51_grammar_files_fails (d : Sp) (al : Alloc) : ¬∃ c k : Nat,
    ∀ (ts : List (TerminalToken TokenType Sp)) (m : Nat) (x : PtGrammar Sp),
      parse (simpleErr _) ((parser .grammar).prog (defs (.default d)) m) al (fun i => ts[i]?) () = .ok (.ok x) →
      parseCalls ((parser .grammar).prog (defs (.default d)) m) al (fun i => ts[i]?) () ≤ c * (ts.length + 1) ^ k := by
  rintro ⟨c, k, h⟩
  obtain ⟨n, hn⟩ := exponential c k
  have hts : ((nestedTypes n).map fun t => (⟨t, some [], d⟩ : TerminalToken TokenType Sp)).map (·.tokenType) = nestedTypes n := by
    rw [List.map_map]; exact List.map_id _
  obtain ⟨m, x, h1⟩ := C51_nested_accepted hts d al
  have h2 := h _ m x h1
  have h3 : ∃ r, parseWithRecovery ((parser .grammar).prog (defs (.default d)) m) al
      (fun i => ((nestedTypes n).map fun t => (⟨t, some [], d⟩ : TerminalToken TokenType Sp))[i]?) () = .ok r := by
    exact ⟨_, (C32_parse_ok _ _ _ _ _).1 h1⟩
  obtain ⟨r, h3⟩ := h3
  have h4 := C51_nested_calls hts h3
  have h5 : ((nestedTypes n).map fun t => (⟨t, some [], d⟩ : TerminalToken TokenType Sp)).length = 2 * n + 4 := by
    simp [nestedTypes]; omega
  rw [h5] at h2
  omega

/-! ## The hypotheses can be met -/

/-- `a :== ( ( ( b ) ) ) ;` -/
example : ([.symbol, .colEqEq, .lp, .lp, .lp, .symbol, .rp, .rp, .rp, .sem].map exTok).map (·.tokenType) =
    nestedTypes 3 := rfl

end PPC.Pangram
