import Verif.SemPangram4
import Verif.PropsFlag
import Verif.PropsTokenizer
import Verif.PropsPrimitive

/-!
# C45: what the parsers of grammar files return

Statements about `PtGrammar::parser` and the eight parsers like it (src/test_pangram.rs), in terms of the
parse trees. `Complete x` (`Verif.SpecPangram`) says that the tree `x` is made by the rules of the
notation, `leaves x` lists its tokens from left to right with the indices stored for them, and
`numbered 0 ts` lists the tokens of the input with their indices.
-/

namespace PPC.Pangram

open PPC

variable {Sp : Type} {d : Sp} {k : NT} {x : NT.out Sp k} {ts : List (TerminalToken TokenType Sp)}

theorem tokEnv_end : (tokEnv ts).source ts.length = none := List.getElem?_eq_none (Nat.le_refl _)

/-- **C45.** A parse of a list of tokens, with recovery or without, succeeds exactly with the tree that is
made by the rules and has these tokens in this order, and is then at the end of the list. -/
theorem C45_accepts {en : Bool} {j : Nat} : Finishes (tokEnv ts) (defs (.default d)) (parser k) en 0 (.success x) j ↔
    Complete x ∧ leaves x = numbered 0 ts ∧ j = ts.length := by
  rw [← accepts_all (d := d), ← C34_accepts defs_plain parser_plain .zero]
  cases en with
  | false => exact Iff.rfl
  | true => exact (C15_no_recovery_same rec_free parser_noRec .zero).1

/-- **C45.** A parse of a list of tokens always returns. It succeeds, or it fails and consumes nothing; it
does not panic and does not recover. -/
theorem C45_returns (d : Sp) (k : NT) (ts : List (TerminalToken TokenType Sp)) (en : Bool) :
    (∃ x j, Finishes (tokEnv ts) (defs (.default d)) (parser k) en 0 (.success x) j) ∨
      ∃ n es, Finishes (tokEnv ts) (defs (.default d)) (parser k) en 0 (.failed n es) 0 := by
  obtain ⟨r, j, h⟩ := C35_returns (g := parser k) (en := en) (F := fun _ => True) tokEnv_end
    (defs_nullable (patterns := .default d)) defs_not_left_recursive defs_progress parser_progress rec_free defs_safe
    defs_defined parser_safe (.zero : Valid (tokEnv ts) 0)
  cases r with
  | success x => exact .inl ⟨x, j, h⟩
  | failed n es =>
    have h1 : Finishes (tokEnv ts) (defs (.default d)) (parser k) false 0 (.failed n es) j := by
      cases en with
      | false => exact h
      | true => exact (C15_no_recovery_same rec_free parser_noRec .zero).1.1 h
    cases C34_stays defs_plain parser_plain parser_tidy .zero h1
    exact .inr ⟨n, es, h⟩
  | recovered x es => exact (C15_no_recovery_never_recovers rec_free parser_noRec .zero h).elim

/-- **C45.** `PtGrammar::parser(&patterns).parse(&tokens)`, and the same for the other types of trees:
the result is `Ok(x)` exactly if `x` is made by the rules and its tokens are `tokens`. -/
theorem C45_parse (al : Alloc) :
    (∃ n, parse (simpleErr _) ((parser k).prog (defs (.default d)) n) al (fun i => ts[i]?) () = .ok (.ok x)) ↔
      Complete x ∧ leaves x = numbered 0 ts := by
  constructor
  · rintro ⟨n, h⟩
    rw [C32_parse_ok, C32_parse_with_recovery] at h
    obtain ⟨j, h⟩ := h
    obtain ⟨h1, h2, -⟩ := C45_accepts.1 ⟨n, h⟩
    exact ⟨h1, h2⟩
  · rintro ⟨h1, h2⟩
    obtain ⟨n, h⟩ := (C45_accepts (d := d) (en := true)).2 ⟨h1, h2, rfl⟩
    exact ⟨n, by rw [C32_parse_ok, C32_parse_with_recovery]; exact ⟨_, h⟩⟩

/-- **C45.** `parse` returns an error exactly if no tree that is made by the rules has these tokens. -/
theorem C45_rejects (al : Alloc) :
    (∃ n err, parse (simpleErr _) ((parser k).prog (defs (.default d)) n) al (fun i => ts[i]?) () = .ok (.error err)) ↔
      ¬∃ x : NT.out Sp k, Complete x ∧ leaves x = numbered 0 ts := by
  constructor
  · rintro ⟨n, err, h⟩ ⟨x, h1, h2⟩
    obtain ⟨es, h3, -⟩ := (C32_parse_err _ _ _ _ _).1 h
    have h4 := (C45_accepts (d := d) (en := true)).2 ⟨h1, h2, rfl⟩
    rcases h3 with ⟨o, h3⟩ | ⟨f, h3⟩ <;> rw [C32_parse_with_recovery] at h3 <;> obtain ⟨j, h3⟩ := h3 <;>
      cases (C33_unique .zero ⟨n, h3⟩ h4).1
  · intro h
    rcases C45_returns d k ts true with ⟨x, j, h1⟩ | ⟨f, es, n, h1⟩
    · obtain ⟨h2, h3, -⟩ := C45_accepts.1 h1
      exact (h ⟨x, h2, h3⟩).elim
    · have h2 : parseWithRecovery ((parser k).prog (defs (.default d)) n) al (fun i => ts[i]?) () = .ok (.failed f es) :=
        (C32_parse_with_recovery _ _ _).2 ⟨0, h1⟩
      cases es with
      | nil => exact ⟨n, _, (C32_parse_err _ _ _ _ _).2 ⟨[], .inr ⟨f, h2⟩, .inr ⟨rfl, rfl⟩⟩⟩
      | cons x es => exact ⟨n, _, (C32_parse_err _ _ _ _ _).2 ⟨x :: es, .inr ⟨f, h2⟩, .inl rfl⟩⟩

/-- A tree that is made by the rules has at least one token. -/
theorem C45_nonempty (hx : Complete x) : leaves x ≠ [] := by
  have pt : ∀ {c : TokenType} {y : Pt c Sp}, y.Complete → y.leaves ≠ [] := by
    rintro c ⟨y⟩ ⟨z, rfl, h⟩
    simp [Pt.leaves]
  have sing : ∀ {y : PtSingular Sp}, y.Complete → y.leaves ≠ [] := by
    intro y h
    cases h <;> rename_i h <;> simp [PtSingular.leaves, pt h]
  have rep : ∀ {y : PtRepetition Sp}, y.Complete → y.leaves ≠ [] := by
    intro y h
    cases h with
    | maybe h | any h | many h | one h => simp [PtRepetition.leaves, sing h]
  have con : ∀ {y : PtConcatenation Sp}, y.Complete → y.leaves ≠ [] := by
    rintro _ ⟨h1, h2⟩
    cases h2 with
    | nil => exact (h1 rfl).elim
    | cons h3 _ => simp [PtConcatenation.leaves, repsLeaves, rep h3]
  have rule : ∀ {y : PtRule Sp}, y.Complete → y.leaves ≠ [] := by
    intro y h
    cases h <;> rename_i h <;> simp [PtRule.leaves, pt h]
  cases k with
  | grammar =>
    obtain ⟨rs⟩ := x
    obtain ⟨h1, h2⟩ := hx
    cases rs with
    | nil => exact (h1 rfl).elim
    | cons r rs => simp [leaves, PtGrammar.leaves, rowLeaves, rule (h2 r (List.mem_cons_self ..))]
  | rule => exact rule hx
  | alternation =>
    obtain ⟨h, _⟩ := hx
    simp [leaves, PtAlternation.leaves, con h]
  | firstAlter => simp [leaves, PtFirstAlter.leaves, pt hx.2.1]
  | subseqAlter => simp [leaves, PtSubseqAlter.leaves, pt hx.2.1]
  | alterName => simp [leaves, PtAlterName.leaves, pt hx.1]
  | concatenation => exact con hx
  | repetition => exact rep hx
  | singular => exact sing hx

/-- **C45.** The notation is unambiguous: trees that are made by the rules and have the same tokens are
the same, wherever these tokens are. -/
theorem C45_unambiguous {y : NT.out Sp k} {i : Nat} (hx : Complete x) (hy : Complete y)
    (h : leaves x = numbered i ts) (h' : leaves y = numbered i ts) : x = y := by
  cases ts with
  | nil => exact (C45_nonempty hx h).elim
  | cons t ts =>
    have h1 : Reads (tokEnv (List.replicate i t ++ t :: ts)) i (numbered i (t :: ts)) (i + (t :: ts).length) :=
      reads_numbered fun a u hu => by
        simp only [tokEnv]
        rw [List.getElem?_append_right (by simp)]
        simpa using hu
    have h2 : (tokEnv (List.replicate i t ++ t :: ts)).source (i + (t :: ts).length) = none :=
      List.getElem?_eq_none (by simp)
    rw [← h] at h1
    have h3 := nt_complete (d := t.span) hx h1 (free_end h2)
    rw [h, ← h'] at h1
    have h4 := nt_complete (d := t.span) hy h1 (free_end h2)
    exact (C34_deterministic defs_plain (by simp [G.All, plainL, G.Plain]) h4 h3).1

/-- **C45.** Anywhere in any source of tokens: what one of the nine parsers consumes, when it succeeds, are
the tokens of the tree that it returns, which is made by the rules. -/
theorem C45_consumes {e : Env (tokSig Sp)} {i j : Nat} (hi : Valid e i) {en : Bool}
    (h : Finishes e (defs (.default d)) (.call k) en i (.success x) j) : Complete x ∧ Reads e i (leaves x) j := by
  have hc : (.call (N := names Sp) k : P Sp (NT.out Sp k)).All (noRecL fun _ => True) := by simp [G.All, noRecL, G.NoRecovery]
  have h1 : Finishes e (defs (.default d)) (.call k) false i (.success x) j := by
    cases en with
    | false => exact h
    | true => exact (C15_no_recovery_same rec_free hc hi).1.1 h
  exact nt_sound ((C34_accepts defs_plain (by simp [G.All, plainL, G.Plain]) hi).1 h1)

/-- **C45.** Anywhere in any source of tokens: a tree whose tokens come next is what the parser returns,
unless the token after them is one that could belong to the tree. -/
theorem C45_next {e : Env (tokSig Sp)} {i j : Nat} (hi : Valid e i) (hx : Complete x)
    (h : Reads e i (leaves x) j) (hj : Free e j (continues k)) (en : Bool) :
    Finishes e (defs (.default d)) (.call k) en i (.success x) j := by
  have hc : (.call (N := names Sp) k : P Sp (NT.out Sp k)).All (noRecL fun _ => True) := by simp [G.All, noRecL, G.NoRecovery]
  have h1 := (C34_accepts defs_plain (by simp [G.All, plainL, G.Plain]) hi).2 (nt_complete (d := d) hx h hj)
  cases en with
  | false => exact h1
  | true => exact (C15_no_recovery_same rec_free hc hi).1.2 h1

/-- **C45.** The assertion in `PtColEqEq::new` and its likes never fires: they are given the token that
`one_of(&patterns.X)` returns, and that has type `X`. -/
theorem C45_assertions {e : Env (tokSig Sp)} {D : Defs (tokSig Sp) (names Sp)} {i j : Nat} (hi : Valid e i) {en : Bool}
    {t : TerminalToken TokenType Sp} {c : TokenType} {r : Res (TerminalToken TokenType Sp) _}
    (h : Finishes e D (Build.oneOf ((TerminalPatterns.default d).pattern c) : P Sp _) en i r j) (ht : r = .success t ∨ ∃ es, r = .recovered t es) :
    Pt.Asserts c t := by
  obtain ⟨n, h⟩ := h
  rcases (C24_one_of hi).1 h with ⟨u, _, ⟨y, h1, h2⟩, rfl, _⟩ | ⟨_, rfl, _⟩
  · rcases ht with ht | ⟨es, ht⟩ <;> cases ht
    cases List.mem_singleton.1 h1
    exact eq_of_beq h2
  · rcases ht with ht | ⟨es, ht⟩ <;> cases ht

/-! ## The hypotheses can be met -/

/-- A token of the given type. -/
def exTok (c : TokenType) : TerminalToken TokenType Unit := ⟨c, some [], ()⟩

/-- A terminal node for it. -/
def exPt (c : TokenType) (i : Nat) : Pt c Unit := ⟨some ⟨exTok c, i⟩⟩

/-- `a ::= ( b | "c" ) * -> d ;` -/
def exTree : PtGrammar Unit :=
  ⟨[.grammarRule none (exPt .symbol 0)
    ⟨none, exPt .colColEq 1, .mk [.any (.nested (exPt .lp 2) (.mk (.mk [.one (.symbol (exPt .symbol 3))])
      [(exPt .bar 4, .mk [.one (.stringLiteral (exPt .stringLiteral 5))])]) (exPt .rp 6)) (exPt .ast 7)],
      some ⟨exPt .minGt 8, exPt .symbol 9⟩⟩ [] (exPt .sem 10)]⟩

theorem exPt_complete (c : TokenType) (i : Nat) : (exPt c i).Complete := ⟨_, rfl, rfl⟩

theorem exTree_complete : Complete (k := .grammar) exTree := by
  refine ⟨by simp [exTree], fun r hr => ?_⟩
  rw [List.mem_singleton.1 hr]
  refine .grammarRule (by rintro _ ⟨⟩) (exPt_complete _ _) ⟨by rintro _ ⟨⟩, exPt_complete _ _, ?_, ?_⟩
    (by rintro _ ⟨⟩) (exPt_complete _ _)
  · refine .mk (by simp) (.cons (.any (.nested (exPt_complete _ _) (.mk (.mk (by simp) (.cons (.one ?_) .nil))
      (.cons (exPt_complete _ _) (.mk (by simp) (.cons (.one ?_) .nil)) .nil)) (exPt_complete _ _)) (exPt_complete _ _)) .nil)
    · exact .symbol (exPt_complete _ _)
    · exact .stringLiteral (exPt_complete _ _)
  · rintro _ ⟨⟩
    exact ⟨exPt_complete _ _, exPt_complete _ _⟩

/-- The hypotheses of `C45_parse`, `C45_accepts` and `C45_unambiguous`. -/
theorem exTree_leaves : leaves (k := .grammar) exTree = numbered 0 ([.symbol, .colColEq, .lp, .symbol, .bar,
    .stringLiteral, .rp, .ast, .minGt, .symbol, .sem].map exTok) := rfl

/-- The hypotheses of `C45_next`: the expression of that rule, followed by `->`. -/
example : ∃ x : NT.out Unit .concatenation, Complete x ∧
    Reads (tokEnv ([.symbol, .colColEq, .lp, .symbol, .bar,
      .stringLiteral, .rp, .ast, .minGt, .symbol, .sem].map exTok)) 2 (leaves x) 8 ∧
    Free (tokEnv ([.symbol, .colColEq, .lp, .symbol, .bar,
      .stringLiteral, .rp, .ast, .minGt, .symbol, .sem].map exTok)) 8 (continues .concatenation) := by
  obtain ⟨-, h⟩ := exTree_complete
  have h1 := h _ (List.mem_singleton.2 rfl)
  cases h1 with
  | grammarRule _ _ hf _ _ =>
    refine ⟨_, hf.2.2.1, ?_, ?_⟩
    · simp [leaves, PtConcatenation.leaves, repsLeaves, PtRepetition.leaves, PtSingular.leaves, PtAlternation.leaves,
        barsLeaves, Reads, tokEnv, Pt.leaves, exPt]
    · rintro y hy ⟨t, h1, h2⟩
      cases h1
      subst h2
      revert hy
      decide

/-- The parse fails. -/
def failed {α E : Type} : Out (Res α E × Nat) → Bool
  | .ok (.failed _ _, _) => true
  | _ => false

/-- The other side of `C45_rejects`: the rule `a :== b` without a semicolon. -/
example : ¬∃ x : NT.out Unit .rule, Complete x ∧ leaves x = numbered 0 ([.symbol, .colEqEq, .symbol].map exTok) := by
  have h : failed ((parser (Sp := Unit) .rule).sem (tokEnv ([.symbol, .colEqEq, .symbol].map exTok))
    (defs (.default ())) 30 false 0) = true := by decide +kernel
  rintro ⟨x, h1, h2⟩
  obtain ⟨n, h3⟩ := (C45_accepts (d := ()) (en := false)).2 ⟨h1, h2, rfl⟩
  cases h4 : (parser (Sp := Unit) .rule).sem (tokEnv ([.symbol, .colEqEq, .symbol].map exTok)) (defs (.default ())) 30 false 0 with
  | ok r =>
    obtain ⟨r, j⟩ := r
    cases r with
    | failed f es => cases (C33_unique .zero ⟨30, (parsesAt_iff .zero).2 h4⟩ ⟨n, h3⟩).1
    | _ => rw [h4] at h; cases h
  | _ => rw [h4] at h; cases h

end PPC.Pangram
