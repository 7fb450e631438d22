import Verif.SemPipeline
import Verif.PropsPangram
import Verif.PropsLexer

/-!
# From the text of a grammar file to its tree (C49)

Statements about `parseText`, which is what `test_self_spec` and `test_simple` do with their files. The
reading of a text (`RightTokens`) is specified in `SpecLexer`, trees in `SpecPangram`.
-/

namespace PPC.Pangram

open PPC

variable {S : Sig} {conv : List Char → S.I} {d : S.Span} {al al' : Alloc} {loc : S.L}

/-! ## Specification -/

/-- The tokens that the parser sees: those of the language, in order. -/
def terminals (xs : List (Token S TokenType)) : List (TerminalToken TokenType S.Span) :=
  xs.filterMap fun x =>
    match x.cls with
    | .normal t => some ⟨t, some x.text, x.span⟩
    | _ => none

/-- The types and texts of the words of the language among the given ones. -/
def normals (ps : List (TokenClass TokenType × List Char)) : List (TokenType × List Char) :=
  ps.filterMap fun p =>
    match p.1 with
    | .normal t => some (t, p.2)
    | _ => none

/-- The unknown characters among the given words. -/
def unknowns (ps : List (TokenClass TokenType × List Char)) : List Char :=
  (ps.filterMap fun p =>
    match p.1 with
    | .error => some p.2
    | _ => none).flatten

/-! ## Lemmas -/

theorem filter_terminals (xs : List (Token S TokenType)) : (filterTokens xs).1 = terminals xs := by
  rw [(C38_filter xs).1, terminals]
  congr 1
  funext x
  cases x.cls <;> rfl

theorem terminals_normals (ps : List (TokenClass TokenType × List Char)) : ∀ (l : S.L) (k : Nat),
    (terminals (place conv l k ps)).map (fun t => (t.tokenType, t.text)) =
      (normals ps).map fun p => (p.1, some p.2) := by
  induction ps with
  | nil => intro l k; rfl
  | cons p ps ih =>
    intro l k
    obtain ⟨c, w⟩ := p
    have := ih (S.advance l (conv w)) (k + 1)
    cases c <;> simpa [terminals, normals, place] using this

theorem numbered_erase (ts : List (TerminalToken TokenType S.Span)) : ∀ i,
    (numbered i ts).map TokenData.erase = ts.map fun t => ⟨⟨t.tokenType, t.text, ()⟩, 0⟩ := by
  induction ts with
  | nil => intro i; rfl
  | cons t ts ih => intro i; simp [numbered, TokenData.erase, ih]

theorem errors_nil {ps : List (TokenClass TokenType × List Char)} (l : S.L) (k : Nat) :
    (filterTokens (place conv l k ps)).2 = [] ↔ ∀ p ∈ ps, p.1 ≠ .error := by
  rw [(C38_filter _).2]
  induction ps generalizing l k with
  | nil => simp [place]
  | cons p ps ih =>
    obtain ⟨c, w⟩ := p
    have := ih (S.advance l (conv w)) (k + 1)
    cases c <;> simp [place, this]

theorem parseText_ok {n m : Nat} {text : List Char}
    {r : List (TokenizerError S.Span) × Res (PtGrammar S.Span) (simpleErr (tokSig S.Span)).E} :
    parseText conv d al n m loc text = .ok r ↔ ∃ xs, (tokenizeFrom loc text).collect conv n = .ok xs ∧
      (∃ j, ParsesAt (tokEnv (terminals xs)) (defs (.default d)) m (parser .grammar) true 0 r.2 j) ∧
      r.1 = (filterTokens xs).2 := by
  unfold parseText
  rw [Out.bind_eq_ok]
  refine exists_congr fun xs => and_congr_right fun _ => ?_
  rw [Out.bind_eq_ok]
  constructor
  · rintro ⟨q, h1, h2⟩
    cases h2
    obtain ⟨j, h3⟩ := (C32_parse_with_recovery _ _ _).1 h1
    rw [filter_terminals] at h3
    exact ⟨⟨j, h3⟩, rfl⟩
  · rintro ⟨⟨j, h1⟩, h2⟩
    refine ⟨r.2, (C32_parse_with_recovery _ _ _).2 ⟨j, ?_⟩, ?_⟩
    · rw [filter_terminals]; exact h1
    · rw [← h2]

/-! ## C49 -/

/-- C49: no errors and the tree `x` come out exactly if the text reads as words of the language, blanks
and comments, without unknown characters, and `x` is made by the rules of the notation from these words
in this order. -/
theorem C49_accepts {text : List Char} {x : PtGrammar S.Span} :
    (∃ n m, parseText conv d al n m loc text = .ok ([], .success x)) ↔
      ∃ ps, RightTokens text ps [] ∧ (∀ p ∈ ps, p.1 ≠ .error) ∧ x.Complete ∧
        x.leaves = numbered 0 (terminals (place conv loc 0 ps)) := by
  constructor
  · rintro ⟨n, m, h⟩
    obtain ⟨xs, h1, ⟨j, h2⟩, h3⟩ := parseText_ok.1 h
    obtain ⟨g1, g2⟩ := C48_tokens h1
    obtain ⟨f1, f2, -⟩ := (C45_accepts (k := .grammar)).1 ⟨m, h2⟩
    refine ⟨xs.map piece, g1, ?_, f1, ?_⟩
    · rw [g2] at h3
      exact (errors_nil loc 0).1 h3.symm
    · rw [← g2]; exact f2
  · rintro ⟨ps, h1, h2, h3, h4⟩
    have h5 := C48_determined (conv := conv) loc h1 (fun w hw => (h2 _ hw rfl).elim) (text.length + 1) (by omega)
    obtain ⟨m, h6⟩ := (C45_accepts (d := d) (k := .grammar) (x := x) (en := true)).2 ⟨h3, h4, rfl⟩
    exact ⟨_, m, parseText_ok.2 ⟨_, h5, ⟨_, h6⟩, ((errors_nil loc 0).2 h2).symm⟩⟩

/-- C49: it panics exactly if the tokenizer gets to a character of more than one byte outside of strings,
sets and comments; the parser never panics. -/
theorem C49_panics_iff {text : List Char} {n : Nat} (hn : text.length < n) :
    (∃ m msg, parseText conv d al n m loc text = .panic msg) ↔
      ∃ ps c rest, RightTokens text ps (c :: rest) ∧ 1 < c.utf8Size := by
  rw [← C48_panics_iff (conv := conv) loc text n hn]
  constructor
  · rintro ⟨m, msg, h⟩
    unfold parseText at h
    cases h1 : (tokenizeFrom loc text).collect conv n with
    | panic msg' => exact ⟨msg', rfl⟩
    | ok xs =>
      exfalso
      rw [h1, Out.ok_bind] at h
      have hr : Reach al (tokEnv (filterTokens xs).1) (Stream.newWithLocation al (tokEnv (filterTokens xs).1).source ()) :=
        .new
      rcases C17_outcomes_partial (n := m) (en := true) hr (rec_free (patterns := .default d)) defs_safe defs_defined
        (parser_safe (n := .grammar)) with ⟨r, s', h2⟩ | h2
      · have h3 : parseWithRecovery ((parser .grammar).prog (defs (.default d)) m) al
            (fun i => (filterTokens xs).1[i]?) () = .ok r := by
          unfold parseWithRecovery
          rw [Out.bind_eq_ok]
          exact ⟨(r, s'), h2, rfl⟩
        rw [h3] at h
        cases h
      · have h3 : parseWithRecovery ((parser .grammar).prog (defs (.default d)) m) al
            (fun i => (filterTokens xs).1[i]?) () = .oof := by
          unfold parseWithRecovery
          have h2' : (((parser .grammar).prog (defs (.default d)) m) true).run Stream.step
            (Stream.newWithLocation al (fun i => (filterTokens xs).1[i]?) ()) = .oof := h2
          rw [h2']
          rfl
        rw [h3] at h
        cases h
    | oof => rw [h1] at h; cases h
    | stuck => rw [h1] at h; cases h
  · rintro ⟨msg, h⟩
    exact ⟨0, msg, by unfold parseText; rw [h]; rfl⟩

/-- C49: in all other cases it returns. The errors of the tokenizer are the unknown characters of the
reading, in order; the parser succeeds without errors, or it fails. -/
theorem C49_returns (d : S.Span) (al : Alloc) {text : List Char} {ps : List (TokenClass TokenType × List Char)}
    (h : RightTokens text ps []) (hb : ∀ w, (.error, w) ∈ ps → bytes w = 1) :
    ∃ n m errs r, parseText conv d al n m loc text = .ok (errs, r) ∧ errs.map (·.invalidChar) = unknowns ps ∧
      ((∃ x, r = .success x) ∨ ∃ i es, r = .failed i es) := by
  have h5 := C48_determined (conv := conv) loc h hb (text.length + 1) (by omega)
  have he : ∀ {qs : List (TokenClass TokenType × List Char)} {t rest : List Char}, RightTokens t qs rest →
      ∀ (l : S.L) (k : Nat), (filterTokens (place conv l k qs)).2.map (·.invalidChar) = unknowns qs := by
    intro qs t rest hq
    induction hq with
    | nil => intro l k; rfl
    | @cons c w t rest qs h1 _ ih =>
      intro l k
      have := ih (S.advance l (conv w)) (k + 1)
      rw [(C38_filter _).2] at this ⊢
      cases c with
      | normal t => simpa [place, unknowns] using this
      | whitespace => simpa [place, unknowns] using this
      | error =>
        obtain ⟨-, ⟨h2, -⟩ | ⟨-, h2, -⟩⟩ := h1
        · exact h2.elim
        · obtain ⟨a, rfl⟩ := List.length_eq_one_iff.1 h2
          simpa [place, unknowns] using this
  rcases C45_returns d .grammar (terminals (place conv loc 0 ps)) true with ⟨x, j, m, h6⟩ | ⟨i, es, m, h6⟩
  · exact ⟨_, m, _, _, parseText_ok.2 ⟨_, h5, ⟨_, h6⟩, rfl⟩, he h loc 0, .inl ⟨x, rfl⟩⟩
  · exact ⟨_, m, _, _, parseText_ok.2 ⟨_, h5, ⟨_, h6⟩, rfl⟩, he h loc 0, .inr ⟨i, es, rfl⟩⟩

/-- C49: the bounds of the model and the sizes of buffers do not matter for what is returned. -/
theorem C49_unique {text : List Char} {n m n' m' : Nat}
    {r r' : List (TokenizerError S.Span) × Res (PtGrammar S.Span) (simpleErr (tokSig S.Span)).E}
    (h : parseText conv d al n m loc text = .ok r) (h' : parseText conv d al' n' m' loc text = .ok r') : r = r' := by
  obtain ⟨xs, h1, ⟨j, h2⟩, h3⟩ := parseText_ok.1 h
  obtain ⟨xs', h1', ⟨j', h2'⟩, h3'⟩ := parseText_ok.1 h'
  obtain ⟨g1, g2⟩ := C48_tokens h1
  obtain ⟨g1', g2'⟩ := C48_tokens h1'
  have hx : xs = xs' := by rw [g2, g2', g1.end_unique g1']
  subst hx
  exact Prod.ext (h3.trans h3'.symm) (C33_unique .zero ⟨m, h2⟩ ⟨m', h2'⟩).1

/-- C49: a tree that is made by the rules comes back from every text in which its words are written in
order, with any blanks and comments in between, as long as words do not run together. Only the places of
its tokens depend on the text. -/
theorem C49_written (conv : List Char → S.I) (d : S.Span) (al : Alloc) (loc : S.L) {Sp : Type} {x : PtGrammar Sp}
    (hx : x.Complete) {ps : List (TokenClass TokenType × List Char)} (h : Written ps)
    (hp : (normals ps).map (fun p => (p.1, some p.2)) = x.leaves.map fun y => (y.token.tokenType, y.token.text)) :
    ∃ n m y, parseText conv d al n m loc (ps.map Prod.snd).flatten = .ok ([], .success y) ∧ y.erase = x.erase := by
  have hl : (numbered 0 (terminals (place conv loc 0 ps))).map TokenData.erase = x.leaves.map TokenData.erase := by
    have h1 := (terminals_normals (conv := conv) ps loc 0).trans hp
    rw [numbered_erase]
    have h2 := congrArg (List.map fun q : TokenType × Option (List Char) =>
      (⟨⟨q.1, q.2, ()⟩, 0⟩ : TokenData Unit)) h1
    rw [List.map_map, List.map_map] at h2
    exact h2
  obtain ⟨y, h1, h2, h3⟩ := grammar_relabel hx _ hl
  have hne : ∀ p ∈ ps, p.1 ≠ .error := by
    clear hl hp h2
    induction h with
    | nil => intro p hp; cases hp
    | cons h1 _ _ ih =>
      intro p hp
      rcases List.mem_cons.1 hp with rfl | hp
      · intro hc; simp only at hc; rw [hc] at h1; exact h1
      · exact ih p hp
  obtain ⟨n, m, h4⟩ := (C49_accepts (conv := conv) (d := d) (al := al) (loc := loc)).2 ⟨ps, h.right, hne, h1, h2⟩
  exact ⟨n, m, y, h4, h3⟩

/-- C49: printing a tree and parsing the text gives the tree back. -/
theorem C49_print (conv : List Char → S.I) (d : S.Span) (al : Alloc) (loc : S.L) {Sp : Type} {x : PtGrammar Sp}
    (hx : x.Complete) (hw : x.Words) :
    ∃ n m y, parseText conv d al n m loc x.print = .ok ([], .success y) ∧ y.erase = x.erase := by
  have key : ∀ ds : List (TokenData Sp),
      (∀ y ∈ ds, ∃ w, y.token.text = some w ∧ Word (.normal y.token.tokenType) w) →
      ∃ ps, Written ps ∧ (ps.map Prod.snd).flatten = ds.flatMap (fun y => y.chars ++ [' ']) ∧
        (normals ps).map (fun p => (p.1, some p.2)) = ds.map (fun y => (y.token.tokenType, y.token.text)) ∧
        ∀ c, (ps.map Prod.snd).flatten.head? = some c → ¬ BlankChar c := by
    intro ds
    induction ds with
    | nil => intro _; exact ⟨[], .nil, rfl, rfl, fun c hc => by cases hc⟩
    | cons y ds ih =>
      intro h
      obtain ⟨ps, h1, h2, h3, h4⟩ := ih fun z hz => h z (List.mem_cons_of_mem _ hz)
      obtain ⟨w, g1, g2⟩ := h y (by simp)
      obtain ⟨a, w', rfl, hk⟩ := word_head g2
      refine ⟨(.normal y.token.tokenType, a :: w') :: (.whitespace, [' ']) :: ps,
        .cons g2 ?_ (.cons (.inr ⟨by simp, by simp [BlankChar]⟩) ⟨by decide, fun _ => h4⟩ h1), ?_, ?_, ?_⟩
      · generalize y.token.tokenType = t
        cases t <;> try trivial
        intro c hc
        cases hc
        rintro (h | h | h)
        · exact absurd h.1 (by decide)
        · exact absurd h.1 (by decide)
        · exact absurd h (by decide)
      · simp [h2, TokenData.chars, g1]
      · simpa [normals, g1] using h3
      · intro c hc
        simp only [List.map_cons, List.flatten_cons, List.cons_append, List.head?_cons, Option.some.injEq] at hc
        subst hc
        intro hb
        rw [kind_blank hb] at hk
        revert hk
        generalize y.token.tokenType = t
        cases t <;> decide
  obtain ⟨ps, h1, h2, h3, -⟩ := key x.leaves hw
  rw [PtGrammar.print, ← h2]
  exact C49_written conv d al loc hx h1 h3

/-- C49: blanks and comments do not matter: texts with the same words in the same order give the same
tree, up to the places of the tokens. -/
theorem C49_layout {text text' : List Char} {ps qs : List (TokenClass TokenType × List Char)}
    (h : RightTokens text ps []) (h' : RightTokens text' qs []) (hn : normals ps = normals qs)
    (hq : ∀ q ∈ qs, q.1 ≠ .error) {x : PtGrammar S.Span}
    (hx : ∃ n m, parseText conv d al n m loc text = .ok ([], .success x)) :
    ∃ n m y, parseText conv d al n m loc text' = .ok ([], .success y) ∧ y.erase = x.erase := by
  obtain ⟨ps', h1, h2, h3, h4⟩ := C49_accepts.1 hx
  cases h1.end_unique h
  have hl : (numbered 0 (terminals (place conv loc 0 qs))).map TokenData.erase = x.leaves.map TokenData.erase := by
    have h5 := terminals_normals (conv := conv) qs loc 0
    rw [← hn, ← terminals_normals (conv := conv) ps loc 0] at h5
    rw [h4, numbered_erase, numbered_erase]
    have h6 := congrArg (List.map fun q : TokenType × Option (List Char) =>
      (⟨⟨q.1, q.2, ()⟩, 0⟩ : TokenData Unit)) h5
    simpa [List.map_map, Function.comp_def] using h6
  obtain ⟨y, g1, g2, g3⟩ := grammar_relabel h3 _ hl
  obtain ⟨n, m, h5⟩ := (C49_accepts (conv := conv) (d := d) (al := al) (loc := loc)).2 ⟨qs, h', hq, g1, g2⟩
  exact ⟨n, m, y, h5, g3⟩

/-! ## Concrete cases -/

/-- A node with a word. -/
def exNode (c : TokenType) (w : List Char) : Pt c Unit := ⟨some ⟨⟨c, some w, ()⟩, 0⟩⟩

theorem exNode_complete (c : TokenType) (w : List Char) : (exNode c w).Complete := ⟨_, rfl, rfl⟩

/-- The tree of `a ::= 'x';`. -/
def exGrammar : PtGrammar Unit :=
  ⟨[.grammarRule none (exNode .symbol ['a'])
    ⟨none, exNode .colColEq [':', ':', '='], .mk [.one (.stringLiteral (exNode .stringLiteral ['\'', 'x', '\'']))], none⟩
    [] (exNode .sem [';'])]⟩

theorem exGrammar_complete : exGrammar.Complete := by
  refine ⟨by simp [exGrammar], fun r hr => ?_⟩
  simp only [exGrammar, List.mem_singleton] at hr
  subst hr
  refine .grammarRule (fun y hy => by cases hy) (exNode_complete _ _) ⟨(fun y hy => by cases hy), exNode_complete _ _,
    .mk (by simp) (.cons (.one (.stringLiteral (exNode_complete _ _))) .nil), fun y hy => by cases hy⟩
    (fun a ha => by cases ha) (exNode_complete _ _)

/-- The tree and the words of `a ::= 'x';/* c */` meet the conditions of `C49_written`. -/
example (al : Alloc) : ∃ n m y, parseText (S := simpleSig (List Char) (· == ·)) id (0, 0) al n m ()
    "a ::= 'x';/* c */".toList = .ok ([], .success y) ∧ y.erase = exGrammar.erase := by
  have h := C49_written (S := simpleSig (List Char) (· == ·)) id (0, 0) al () exGrammar_complete exPieces_written
    (by
      simp [exGrammar, exPieces, normals, PtGrammar.leaves, rowLeaves, PtRule.leaves, optLeaves, PtFirstAlter.leaves,
        PtConcatenation.leaves, repsLeaves, PtRepetition.leaves, PtSingular.leaves, Pt.leaves, exNode])
  rw [show (exPieces.map Prod.snd).flatten = "a ::= 'x';/* c */".toList by decide] at h
  exact h

/-- The tree can be printed. -/
example : exGrammar.Words ∧ exGrammar.print = "a ::= 'x' ; ".toList := by
  have hl : exGrammar.leaves = [⟨⟨.symbol, some ['a'], ()⟩, 0⟩, ⟨⟨.colColEq, some [':', ':', '='], ()⟩, 0⟩,
      ⟨⟨.stringLiteral, some ['\'', 'x', '\''], ()⟩, 0⟩, ⟨⟨.sem, some [';'], ()⟩, 0⟩] := by
    simp [exGrammar, PtGrammar.leaves, rowLeaves, PtRule.leaves, optLeaves, PtFirstAlter.leaves,
      PtConcatenation.leaves, repsLeaves, PtRepetition.leaves, PtSingular.leaves, Pt.leaves, exNode]
  constructor
  · intro y hy
    rw [hl] at hy
    simp only [List.mem_cons, List.not_mem_nil, or_false] at hy
    rcases hy with rfl | rfl | rfl | rfl
    · exact ⟨_, rfl, 'a', [], rfl, ⟨by decide, by decide⟩, by simp⟩
    · exact ⟨_, rfl, rfl⟩
    · exact ⟨_, rfl, '\'', ['x'], .inl rfl, by simp, .plain (by decide) (by decide) .nil, rfl⟩
    · exact ⟨_, rfl, rfl⟩
  · rw [PtGrammar.print, hl]
    decide

/-- The empty text reads as nothing, and there is no tree without words: the parser fails. -/
example (al : Alloc) : ¬ ∃ n m x, parseText (S := simpleSig (List Char) (· == ·)) id (0, 0) al n m () [] =
    .ok ([], .success x) := by
  rintro ⟨n, m, x, h⟩
  obtain ⟨ps, h1, -, h3, h4⟩ := C49_accepts.1 ⟨n, m, h⟩
  cases h1.end_unique .nil
  exact C45_nonempty (k := .grammar) h3 h4

end PPC.Pangram
