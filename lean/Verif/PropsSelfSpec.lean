import Verif.SemSelfSpec3
import Verif.PropsPipeline

/-!
# The grammar of grammar files in its own notation (C55)

Statements about the parsers of grammar files and `pangram/self-spec.ebnf`. The notation, what it means and the file are
in `SpecEbnf`.
-/

namespace PPC.Pangram

open PPC Ebnf

variable {Sp : Type} {d : Sp} {k : NT} {ts : List (TerminalToken TokenType Sp)}

/-! ## Tokens -/

theorem call_noRec : (.call (N := names Sp) k : P Sp (NT.out Sp k)).All (noRecL fun _ => True) := by
  simp [G.All, noRecL, G.NoRecovery]

theorem finishes_call {en : Bool} {i j : Nat} {e : Env (tokSig Sp)} {r : Res (NT.out Sp k) (simpleErr (tokSig Sp)).E}
    (hi : Valid e i) :
    Finishes e (defs (.default d)) (.call (N := names Sp) k) en i r j ↔
      Finishes e (defs (.default d)) (.call (N := names Sp) k) false i r j := by
  cases en with
  | false => exact Iff.rfl
  | true => exact (C15_no_recovery_same rec_free call_noRec hi).1

/-- **C55.** The parsers match as the self-specification says, with alternatives tried in order and greedy repetitions:
a match with the rest `v` is a success that leaves these tokens. -/
theorem C55_matches {en : Bool} {v : List TokenType} : SelfMatches k (ts.map (·.tokenType)) (some v) ↔
    ∃ x j, Finishes (tokEnv ts) (defs (.default d)) (.call (N := names Sp) k) en 0 (.success x) j ∧
      v = (ts.drop j).map (·.tokenType) := by
  refine (selfMatches_some (d := d) (ts := ts) (i := 0)).trans ?_
  refine exists_congr fun x => exists_congr fun j => and_congr_left fun _ => ?_
  rw [finishes_call .zero, C34_accepts defs_plain call_plain .zero]

/-- **C55.** There is no match by the self-specification exactly if the parser fails. -/
theorem C55_no_match {en : Bool} : SelfMatches k (ts.map (·.tokenType)) none ↔
    ∃ n es j, Finishes (tokEnv ts) (defs (.default d)) (.call (N := names Sp) k) en 0 (.failed n es) j := by
  refine (selfMatches_none (d := d) (ts := ts) (i := 0)).trans ?_
  rw [← C34_rejects defs_plain call_plain .zero]
  simp only [finishes_call (en := en) .zero]

/-- **C55.** `PtGrammar::parser(&patterns).parse(&tokens)`, and the same for the other types of trees, returns a tree
exactly if the self-specification, read as a context-free grammar, describes the tokens. -/
theorem C55_parse (al : Alloc) :
    (∃ n x, parse (simpleErr _) ((parser k).prog (defs (.default d)) n) al (fun i => ts[i]?) () = .ok (.ok x)) ↔
      SelfDerives k (ts.map (·.tokenType)) := by
  rw [selfDerives_iff 0]
  constructor
  · rintro ⟨n, x, h⟩
    exact ⟨x, (C45_parse al).1 ⟨n, h⟩⟩
  · rintro ⟨x, h⟩
    obtain ⟨n, h1⟩ := (C45_parse (d := d) al).2 h
    exact ⟨n, x, h1⟩

/-- **C55.** It does not matter in which of the two ways the self-specification is read: a sequence of token types is
described if it matches as a whole, and the other way round. -/
theorem C55_order (w : List TokenType) : SelfMatches k w (some []) ↔ SelfDerives k w := by
  obtain ⟨ts, rfl⟩ : ∃ ts : List (TerminalToken TokenType Unit), ts.map (·.tokenType) = w :=
    ⟨w.map fun t => ⟨t, none, ()⟩, by simp [Function.comp_def]⟩
  rw [selfDerives_iff 0]
  constructor
  · intro h
    obtain ⟨x, j, h1, h2⟩ := (selfMatches_some (d := ()) (ts := ts) (i := 0)).1 h
    obtain ⟨h3, h4⟩ := nt_sound h1
    have h5 : ts.length ≤ j := List.drop_eq_nil_iff.1 (List.map_eq_nil_iff.1 h2.symm)
    have h6 := reads_tokEnv h4 (Nat.zero_le _)
    refine ⟨x, h3, (reads_all.1 ⟨h4, ?_⟩).1⟩
    exact List.getElem?_eq_none h5
  · rintro ⟨x, h1, h2⟩
    have h3 := (accepts_all (d := ()) (ts := ts)).2 ⟨h1, h2, rfl⟩
    unfold parser at h3
    rw [acc_boxed] at h3
    obtain ⟨m, _, h4, h5⟩ := accepts_iff.1 h3
    refine (selfMatches_some (d := ()) (ts := ts) (i := 0)).2 ⟨x, m, h4, ?_⟩
    obtain ⟨-, rfl⟩ := accepts_iff.1 h5
    simp [rest]

/-! ## Words -/

theorem selfWord_other {c : TokenClass TokenType} {w : List Char} (hc : c ≠ .normal .stringLiteral) :
    SelfWord c w ↔ Word c w := by
  cases c with
  | error => exact Iff.rfl
  | whitespace => exact (same_comment w).trans lang_whitespace
  | normal k =>
    cases k
    case stringLiteral => exact (hc rfl).elim
    case symbol => exact (same_symbol w).trans lang_symbol
    case characterSet => exact (same_characterSet w).trans lang_set
    case characterLiteral => exact (derives_name.trans (same_hash w)).trans lang_hash
    case doc => exact (same_doc w).trans lang_doc
    all_goals exact Iff.rfl

/-- **C55.** Every word of every class, and of whitespace, is described by the self-specification, and nothing else is
described, except for strings in which a line feed follows a `#`. -/
theorem C55_words_partial {c : TokenClass TokenType} {w : List Char} :
    (Word c w → SelfWord c w) ∧ (SelfWord c w → c ≠ .normal .stringLiteral ∨ NoEscapedLineFeed w → Word c w) := by
  by_cases hc : c = .normal .stringLiteral
  · subst hc
    constructor
    · rintro ⟨q, b, h1, h2, h3, rfl⟩
      exact string_iff.2 ⟨q, b, h1, h2, .of h3, rfl⟩
    · intro h h'
      obtain ⟨q, b, h1, h2, h3, rfl⟩ := string_iff.1 h
      refine ⟨q, b, h1, h2, h3.to ?_, rfl⟩
      rcases h' with h' | h'
      · exact (h' rfl).elim
      · exact h'.of_infix ⟨[q], [q], by simp⟩
  · rw [selfWord_other hc]
    exact ⟨id, fun h _ => h⟩

theorem quote_class {c : TokenClass TokenType} (h : kind '"' ∈ kinds c) : c = .normal .stringLiteral := by
  revert h
  cases c with
  | error => decide
  | whitespace => decide
  | normal k => cases k <;> decide

/-- C55 fails for strings: the self-specification allows a line feed after a `#` in a string, the tokenizer does not. -/
theorem C55_words_fails : SelfWord (.normal .stringLiteral) ['"', '#', '\n', '"'] ∧
    ∀ c, ¬ Word c ['"', '#', '\n', '"'] := by
  constructor
  · exact string_iff.2 ⟨'"', ['#', '\n'], .inr rfl, by simp, .escape .nil, rfl⟩
  · intro c h
    obtain ⟨x, t, h1, h2⟩ := word_head h
    cases h1
    cases quote_class h2
    obtain ⟨q, b, h1, h2, h3, h4⟩ := h
    simp only [List.cons.injEq] at h4
    obtain ⟨rfl, h4⟩ := h4
    cases h3 with
    | nil => exact h2 rfl
    | plain h5 h6 h7 => simp at h4; exact h6 h4.1.symm
    | escape h5 h6 => simp at h4; exact h5 h4.1.symm

/-! ## Texts -/

theorem selfToken_of {rest w : List Char} {c : TokenClass TokenType}
    (hr : ∀ c v, v <+: rest → (SelfWord c v ↔ Word c v)) : SelfToken rest c w ↔ RightToken rest c w := by
  unfold SelfToken RightToken
  refine and_congr_right fun hw => ?_
  rw [hr c w hw]
  refine or_congr (and_congr_right fun _ => ?_) (and_congr_right fun _ => and_congr_right fun _ => ?_)
  · exact ⟨fun h c v hv hp => h c v ((hr c v hp).2 hv) hp, fun h c v hv hp => h c v ((hr c v hp).1 hv) hp⟩
  · exact ⟨fun h c v hv hp => h c v ((hr c v hp).2 hv) hp, fun h c v hv hp => h c v ((hr c v hp).1 hv) hp⟩

theorem selfTokens_iff {text : List Char} {ps : List (TokenClass TokenType × List Char)} (ht : NoEscapedLineFeed text) :
    SelfTokens text ps ↔ RightTokens text ps [] := by
  have hr : ∀ {r : List Char}, NoEscapedLineFeed r → ∀ c v, v <+: r → (SelfWord c v ↔ Word c v) := fun h c v hv =>
    ⟨fun h' => C55_words_partial.2 h' (.inr (h.of_infix hv.isInfix)), C55_words_partial.1⟩
  constructor
  · intro h
    induction h with
    | nil => exact .nil
    | @cons c w t ps h1 _ ih =>
      exact .cons ((selfToken_of (hr ht)).1 h1) (ih (ht.of_infix (List.suffix_append ..).isInfix))
  · intro h
    generalize he : ([] : List Char) = e at h
    induction h with
    | nil => subst he; exact .nil
    | @cons c w t r ps h1 _ ih =>
      exact .cons ((selfToken_of (hr ht)).2 h1) (ih (ht.of_infix (List.suffix_append ..).isInfix) he)

theorem tokenTypes_eq (ps : List (TokenClass TokenType × List Char)) : tokenTypes ps = (normals ps).map Prod.fst := by
  induction ps with
  | nil => rfl
  | cons p ps ih => obtain ⟨c, w⟩ := p; cases c <;> simpa [tokenTypes, normals] using ih

variable {S : Sig} {conv : List Char → S.I} {al : Alloc} {loc : S.L}

theorem terminals_types (ps : List (TokenClass TokenType × List Char)) :
    (terminals (place conv loc 0 ps)).map (·.tokenType) = tokenTypes ps := by
  have h := congrArg (List.map Prod.fst) (terminals_normals (conv := conv) ps loc 0)
  rw [tokenTypes_eq]
  simpa [List.map_map, Function.comp_def] using h

/-- **C55.** A text is parsed into a tree without errors exactly if the self-specification describes it as a grammar
file, as long as no line feed follows a `#`. -/
theorem C55_texts_partial {c : S.Span} {text : List Char} (ht : NoEscapedLineFeed text) :
    (∃ n m x, parseText conv c al n m loc text = .ok ([], .success x)) ↔ SelfDescribes text := by
  constructor
  · rintro ⟨n, m, x, h⟩
    obtain ⟨ps, h1, h2, h3, h4⟩ := C49_accepts.1 ⟨n, m, h⟩
    refine ⟨ps, (selfTokens_iff ht).2 h1, h2, ?_⟩
    rw [← terminals_types (conv := conv) (loc := loc)]
    exact (selfDerives_iff (k := .grammar) 0).2 ⟨x, h3, h4⟩
  · rintro ⟨ps, h1, h2, h3⟩
    rw [← terminals_types (conv := conv) (loc := loc)] at h3
    obtain ⟨x, h4, h5⟩ := (selfDerives_iff (k := .grammar) 0).1 h3
    obtain ⟨n, m, h6⟩ := (C49_accepts (conv := conv) (d := c) (al := al) (loc := loc)).2
      ⟨ps, (selfTokens_iff ht).1 h1, h2, h4, h5⟩
    exact ⟨n, m, x, h6⟩

theorem derives_string : SelfDerives .concatenation [.stringLiteral] :=
  .name (.plus (u := [TokenType.stringLiteral]) (v := [])
    (.name (.altRight (.name (.altLeft (.altLeft (.altRight (.tok rfl))))))) .starNone)

/-- The text `a:=="#⏎";`. -/
def exEscaped : List Char := ['a', ':', '=', '=', '"', '#', '\n', '"', ';']

theorem selfToken_head {a : Char} {t w : List Char} {c : TokenClass TokenType} (ha : a ≠ '\'' ∧ a ≠ '"') :
    SelfToken (a :: t) c w ↔ RightToken (a :: t) c w := by
  refine selfToken_of fun c v hv => ?_
  by_cases hc : c = .normal .stringLiteral
  · subst hc
    refine ⟨fun h => ?_, C55_words_partial.1⟩
    obtain ⟨q, b, h1, h2, h3, rfl⟩ := string_iff.1 h
    obtain ⟨s, hs⟩ := hv
    cases hs
    rcases h1 with h1 | h1
    · exact (ha.1 h1).elim
    · exact (ha.2 h1).elim
  · exact selfWord_other hc

/-- C55 fails for some texts: the self-specification describes `a:=="#⏎";` as a grammar file, and it is not parsed
without errors. -/
theorem C55_texts_fails (conv : List Char → S.I) (c : S.Span) (al : Alloc) (loc : S.L) : SelfDescribes exEscaped ∧
    ¬ ∃ n m x, parseText conv c al n m loc exEscaped = .ok ([], .success x) := by
  have sym : RightToken exEscaped (.normal .symbol) ['a'] := by
    refine right_of_written (w := ['a']) (s := exEscaped.tail) ⟨'a', [], rfl, ⟨by decide, by decide⟩, by simp⟩ ?_
    intro c hc
    cases hc
    rintro (h | h | h)
    · exact absurd h.1 (by decide)
    · exact absurd h.2 (by decide)
    · exact absurd h (by decide)
  have col : RightToken (exEscaped.drop 1) (.normal .colEqEq) [':', '=', '='] :=
    right_of_written (w := [':', '=', '=']) (s := exEscaped.drop 4) rfl trivial
  have sem : RightToken (exEscaped.drop 8) (.normal .sem) [';'] :=
    right_of_written (w := [';']) (s := []) rfl trivial
  constructor
  · refine ⟨[(.normal .symbol, ['a']), (.normal .colEqEq, [':', '=', '=']),
      (.normal .stringLiteral, ['"', '#', '\n', '"']), (.normal .sem, [';'])], ?_, by simp, ?_⟩
    · refine .cons (w := ['a']) ((selfToken_head (by decide)).2 sym) (.cons (w := [':', '=', '='])
        ((selfToken_head (by decide)).2 col) (.cons (w := ['"', '#', '\n', '"']) ?_
          (.cons (w := [';']) (t := []) ((selfToken_head (by decide)).2 sem) .nil)))
      refine ⟨⟨[';'], rfl⟩, .inl ⟨C55_words_fails.1, fun c v hv hp => ?_⟩⟩
      by_cases hc : c = .normal .stringLiteral
      · subst hc
        obtain ⟨q, b, h1, h2, h3, rfl⟩ := string_iff.1 hv
        obtain ⟨s, hs⟩ := hp
        simp only [List.cons_append, List.append_assoc, List.nil_append, List.cons.injEq] at hs
        obtain ⟨rfl, hs⟩ := hs
        cases h3 with
        | nil => exact (h2 rfl).elim
        | plain h5 h6 h7 =>
          simp only [List.cons_append, List.cons.injEq] at hs
          exact (h6 hs.1).elim
        | escape h5 =>
          simp only [List.cons_append, List.cons.injEq] at hs
          obtain ⟨-, -, hs⟩ := hs
          cases h5 with
          | nil => simp
          | plain h6 h7 h8 =>
            simp only [List.cons_append, List.cons.injEq] at hs
            exact (h6 hs.1).elim
          | escape h6 =>
            simp only [List.cons_append, List.cons.injEq] at hs
            exact absurd hs.1 (by decide)
      · obtain ⟨x, t, rfl, h2⟩ := word_head ((selfWord_other hc).1 hv)
        obtain ⟨s, hs⟩ := hp
        simp only [List.cons_append, List.cons.injEq] at hs
        obtain ⟨rfl, -⟩ := hs
        exact (hc (quote_class h2)).elim
    · have con := derives_string
      have alt : SelfDerives .alternation [.stringLiteral] := .name (.seq (u := [TokenType.stringLiteral]) (v := []) con .starNone)
      have rule : SelfDerives .rule [.symbol, .colEqEq, .stringLiteral, .sem] :=
        .name (.altLeft (.altLeft (.seq (u := [TokenType.symbol, TokenType.colEqEq, TokenType.stringLiteral]) (.seq (u := [TokenType.symbol, TokenType.colEqEq])
          (.seq (u := [TokenType.symbol]) (.seq (u := []) .optNone (.tok rfl)) (.tok rfl)) alt) (.tok rfl))))
      exact .name (.plus (u := [TokenType.symbol, TokenType.colEqEq, TokenType.stringLiteral, TokenType.sem]) (v := []) rule .starNone)
  · rintro ⟨n, m, x, h⟩
    obtain ⟨ps, h1, h2, -, -⟩ := C49_accepts.1 ⟨n, m, h⟩
    have unique : ∀ {w t : List Char} {c : TokenClass TokenType} {qs : List (TokenClass TokenType × List Char)},
        w ≠ [] → RightToken (w ++ t) c w → RightTokens (w ++ t) qs [] → (∀ p ∈ qs, p.1 ≠ .error) →
        ∃ qs', RightTokens t qs' [] ∧ ∀ p ∈ qs', p.1 ≠ .error := by
      intro w t c qs hw h3 h4 h5
      obtain ⟨rs, h6⟩ := exists_rights (t.length + 1) t (by omega)
      cases h4.end_unique (.cons h3 h6)
      exact ⟨rs, h6, fun p hp => h5 p (List.mem_cons_of_mem _ hp)⟩
    obtain ⟨ps, h1, h2⟩ := unique (w := ['a']) (by simp) sym h1 h2
    obtain ⟨ps, h1, h2⟩ := unique (w := [':', '=', '=']) (by simp) col h1 h2
    generalize ht : (['"', '#', '\n', '"', ';'] : List Char) = text at h1
    cases h1 with
    | nil => cases ht
    | @cons c w t _ ps h3 h4 =>
      obtain ⟨-, ⟨h5, -⟩ | ⟨rfl, -⟩⟩ := h3
      · obtain ⟨y, u, rfl, h6⟩ := word_head h5
        simp only [List.cons_append, List.cons.injEq] at ht
        obtain ⟨rfl, ht⟩ := ht
        cases quote_class h6
        obtain ⟨q, b, -, h8, h9, h10⟩ := h5
        simp only [List.cons.injEq] at h10
        obtain ⟨rfl, rfl⟩ := h10
        cases h9 with
        | nil => exact h8 rfl
        | plain g1 g2 g3 =>
          simp only [List.cons_append, List.cons.injEq] at ht
          exact g2 ht.1.symm
        | escape g1 g2 =>
          simp only [List.cons_append, List.cons.injEq] at ht
          exact g1 ht.2.1.symm
      · exact h2 _ (List.mem_cons_self ..) rfl

/-! ## Concrete cases -/

/-- The self-specification describes `a ::= 'x' ;`, and the reading that takes its operators in order reads all of it. -/
example : SelfDerives .grammar [.symbol, .colColEq, .stringLiteral, .sem] ∧
    SelfMatches .grammar [.symbol, .colColEq, .stringLiteral, .sem] (some []) := by
  rw [C55_order]
  refine (and_self_iff).2 ?_
  have fst : SelfDerives .firstAlter [.colColEq, .stringLiteral] :=
    .name (.seq (u := [TokenType.colColEq, TokenType.stringLiteral]) (v := []) (.seq (u := [TokenType.colColEq]) (.seq (u := []) .optNone (.tok rfl))
      derives_string) .optNone)
  have rule : SelfDerives .rule [.symbol, .colColEq, .stringLiteral, .sem] :=
    .name (.altRight (.seq (u := [TokenType.symbol, TokenType.colColEq, TokenType.stringLiteral]) (.seq (u := [TokenType.symbol, TokenType.colColEq, TokenType.stringLiteral])
      (v := []) (.seq (u := [TokenType.symbol]) (.seq (u := []) .optNone (.tok rfl)) fst) .starNone) (.tok rfl)))
  exact .name (.plus (u := [TokenType.symbol, TokenType.colColEq, TokenType.stringLiteral, TokenType.sem]) (v := []) rule .starNone)

/-- The text `a ::= 'x';/* c */` meets the condition of `C55_texts_partial`, and is described. -/
example (al : Alloc) : NoEscapedLineFeed "a ::= 'x';/* c */".toList ∧ SelfDescribes "a ::= 'x';/* c */".toList := by
  have h : NoEscapedLineFeed "a ::= 'x';/* c */".toList := fun h => absurd (h.subset (List.mem_cons_self ..)) (by decide)
  refine ⟨h, (C55_texts_partial (S := simpleSig (List Char) (· == ·)) (conv := id) (c := (0, 0)) (al := al)
    (loc := ()) h).1 ?_⟩
  have h := C49_written (S := simpleSig (List Char) (· == ·)) id (0, 0) al () exGrammar_complete exPieces_written
    (by
      simp [exGrammar, exPieces, normals, PtGrammar.leaves, rowLeaves, PtRule.leaves, optLeaves, PtFirstAlter.leaves,
        PtConcatenation.leaves, repsLeaves, PtRepetition.leaves, PtSingular.leaves, Pt.leaves, exNode])
  rw [show (exPieces.map Prod.snd).flatten = "a ::= 'x';/* c */".toList by decide] at h
  obtain ⟨n, m, y, h, -⟩ := h
  exact ⟨n, m, y, h⟩

/-- A string with an escaped quote is described, and is a word. -/
example : SelfWord (.normal .stringLiteral) ['"', '#', '"', '"'] ∧ Word (.normal .stringLiteral) ['"', '#', '"', '"'] := by
  have h : SelfWord (.normal .stringLiteral) ['"', '#', '"', '"'] :=
    string_iff.2 ⟨'"', ['#', '"'], .inr rfl, by simp, .escape .nil, rfl⟩
  exact ⟨h, C55_words_partial.2 h (.inr (by unfold NoEscapedLineFeed; decide))⟩

end PPC.Pangram
