import Verif.SemLexer3

/-!
# The tokens of grammar files (C48)

The tokenizer with the regular expressions of the grammar-file language. The words of the language
are specified in `SpecLexer`.
-/

namespace PPC.Pangram

open Re

variable {S : Sig} {conv : List Char → S.I}

/-! ## Specification -/

/-- The class and the text of a token. -/
def piece (x : Token S TokenType) : TokenClass TokenType × List Char := (x.cls, x.text)

/-- The tokens with the given classes and texts, with their spans: the first one starts at tracker
`l` and index `k`, and each one starts where the one before it ends. -/
def place (conv : List Char → S.I) : S.L → Nat → List (TokenClass TokenType × List Char) → List (Token S TokenType)
  | _, _, [] => []
  | l, k, (c, w) :: ps =>
    ⟨c, w, S.spanningTo l k (S.advance l (conv w)) (k + 1)⟩ :: place conv (S.advance l (conv w)) (k + 1) ps

/-- `n` is the length in bytes of the longest word of class `c` at the start of `t`, or 0 if there is
none. -/
def LongestAt (c : TokenClass TokenType) (t : List Char) (n : Nat) : Prop :=
  (∃ w, Word c w ∧ w <+: t ∧ n = bytes w ∧ ∀ v, Word c v → v <+: t → v.length ≤ w.length) ∨
    ((∀ w, Word c w → ¬ w <+: t) ∧ n = 0)

/-! ## Lemmas -/

theorem LongestWord.at {c : TokenClass TokenType} {t : List Char} {n : Nat} (h : LongestWord c t n) :
    LongestAt c t n := by
  rcases h with ⟨p, s, h1, h2, h3, h4⟩ | ⟨h1, h2⟩
  · exact .inl ⟨p, h2, ⟨s, h1.symm⟩, h3, fun v hv ⟨s', hs⟩ => h4 v s' hs.symm hv⟩
  · exact .inr ⟨fun w hw ⟨s, hs⟩ => h1 w s hs.symm hw, h2⟩

theorem map_piece_place (ps : List (TokenClass TokenType × List Char)) :
    ∀ (l : S.L) (k : Nat), (place conv l k ps).map piece = ps := by
  induction ps with
  | nil => intro l k; rfl
  | cons p ps ih => intro l k; obtain ⟨c, w⟩ := p; simp [place, piece, ih]

theorem length_place (ps : List (TokenClass TokenType × List Char)) (l : S.L) (k : Nat) :
    (place conv l k ps).length = ps.length := by
  have := congrArg List.length (map_piece_place (conv := conv) ps l k)
  simpa using this

/-- A word does not start with a character of more than one byte. -/
theorem word_wide {c : TokenClass TokenType} {w : List Char} {a : Char} {t : List Char} (h : Word c w)
    (ha : 1 < a.utf8Size) : ¬ w <+: a :: t := by
  rintro ⟨s, hs⟩
  cases w with
  | nil => exact word_ne_nil h rfl
  | cons b w =>
    simp only [List.cons_append, List.cons.injEq] at hs
    obtain ⟨rfl, -⟩ := hs
    obtain ⟨x, t', hx, hk⟩ := word_head h
    simp only [List.cons.injEq] at hx
    obtain ⟨rfl, -⟩ := hx
    have : kind b = .other := by
      have hn : ∀ {d : Char}, d.utf8Size = 1 → b ≠ d := by rintro d hd rfl; omega
      have hl : ¬ ('a' ≤ b ∧ b ≤ 'z') := by
        rintro ⟨_, h2⟩
        have : b.utf8Size = 1 := by
          unfold Char.utf8Size
          rw [if_pos]
          exact UInt32.le_trans (Char.le_def.1 h2) (by decide)
        omega
      simp [kind, hn (d := ':') rfl, hn (d := ';') rfl, hn (d := '_') rfl, hl,
        hn (d := '|') rfl, hn (d := '-') rfl, hn (d := '?') rfl, hn (d := '*') rfl,
        hn (d := '+') rfl, hn (d := '(') rfl, hn (d := ')') rfl, hn (d := '\'') rfl,
        hn (d := '"') rfl, hn (d := '[') rfl, hn (d := '#') rfl, hn (d := '/') rfl,
        hn (d := ' ') rfl, hn (d := '\t') rfl, hn (d := '\n') rfl, hn (d := '\r') rfl]
    rw [this] at hk
    cases c with
    | normal k => cases k <;> simp [kinds] at hk
    | whitespace => simp [kinds] at hk
    | error => exact h

theorem exists_right {t : List Char} (h : t ≠ []) : ∃ c w s, t = w ++ s ∧ RightToken t c w := by
  rcases fold_first t regexes (.error, 0) with ⟨-, h2⟩ | ⟨bf, m, cls, af, h1, h2, -, h4, h5⟩
  · obtain ⟨a, s, rfl⟩ := List.exists_cons_of_ne_nil h
    refine ⟨.error, [a], s, rfl, ⟨s, rfl⟩, .inr ⟨rfl, rfl, fun c v hv hp => ?_⟩⟩
    obtain ⟨s', hs⟩ := hp
    obtain ⟨m, hm⟩ := regexes_mem hv
    have h3 := (regexes_longest hm _).le hv hs.symm
    have h4 := h2 _ hm
    have := bytes_pos (word_ne_nil hv)
    simp only at h3 h4
    omega
  · have hm : (m, cls) ∈ regexes := by rw [h1]; simp
    obtain ⟨w, s, hw, hb⟩ := regexes_prefix hm t
    simp only at hb h2
    refine ⟨cls, w, s, hw, ((firstLongest_iff hw cls).1 (.inl ⟨bf, m, af, h1, hb, h2, h4, h5⟩)).1⟩

theorem exists_rights (n : Nat) : ∀ t : List Char, t.length < n → ∃ ps, RightTokens t ps [] := by
  induction n with
  | zero => intro t h; omega
  | succ n ih =>
    intro t h
    by_cases ht : t = []
    · subst ht; exact ⟨[], .nil⟩
    · obtain ⟨c, w, s, rfl, hr⟩ := exists_right ht
      have := List.length_pos_iff.2 hr.ne_nil
      obtain ⟨ps, hps⟩ := ih s (by rw [List.length_append] at h; omega)
      exact ⟨_, .cons hr hps⟩

/-- One step, if the right token is not a character of more than one byte. -/
theorem next_right {t : Tokenizer S TokenType} (hr : t.regexes = regexes) {c : TokenClass TokenType}
    {w s : List Char} (ht : t.remain = w ++ s) (h : RightToken (w ++ s) c w) (hb : c = .error → bytes w = 1) :
    t.next conv = .ok (some ⟨c, w, S.spanningTo t.location t.index (S.advance t.location (conv w)) (t.index + 1)⟩,
      { t with location := S.advance t.location (conv w), index := t.index + 1, remain := s }) := by
  have h4 := ((firstLongest_iff rfl c).2 ⟨h, hb⟩).fold
  rw [← hr, ← ht] at h4
  unfold Tokenizer.next
  rw [if_neg (by rw [ht]; simp [h.ne_nil])]
  simp only
  rw [h4.2]
  have h5 : splitBytes t.remain (bytes w) = some (w, s) := by rw [ht]; exact splitBytes_append _ _
  rw [h5]
  simp only
  rw [h4.1]

/-- One step on a character of more than one byte. -/
theorem next_wide {t : Tokenizer S TokenType} (hr : t.regexes = regexes) {a : Char} {s : List Char}
    (ht : t.remain = a :: s) (ha : 1 < a.utf8Size) : ∃ m, t.next conv = .panic m := by
  refine next_panics t ht ha fun r h => ?_
  rw [hr] at h
  rcases regexes_longest h t.remain with ⟨p, s', h1, h2, -⟩ | ⟨-, h2⟩
  · exact (word_wide h2 ha ⟨s', by rw [← ht, h1]⟩).elim
  · exact h2

theorem collect_rights {t0 : List Char} {ps : List (TokenClass TokenType × List Char)} {rest : List Char}
    (h : RightTokens t0 ps rest) : rest = [] → (∀ w, (.error, w) ∈ ps → bytes w = 1) →
    ∀ (n : Nat) (t : Tokenizer S TokenType), t.regexes = regexes → t.remain = t0 → ps.length < n →
      t.collect conv n = .ok (place conv t.location t.index ps) := by
  induction h with
  | nil =>
    rintro rfl _ n t _ ht hn
    cases n with
    | zero => omega
    | succ n =>
      have : t.next conv = .ok (none, t) := by unfold Tokenizer.next; rw [ht]; rfl
      rw [Tokenizer.collect, this]; rfl
  | @cons c w s rest ps h1 _ ih =>
    intro hrest hb n t hr ht hn
    cases n with
    | zero => omega
    | succ n =>
      have h3 := next_right (conv := conv) hr ht h1 fun hc => hb w (by rw [← hc]; simp)
      rw [Tokenizer.collect, h3, Out.ok_bind]
      simp only
      rw [ih hrest (fun v hv => hb v (List.mem_cons_of_mem _ hv)) n { t with
        location := S.advance t.location (conv w), index := t.index + 1, remain := s } hr rfl
        (by simp only [List.length_cons] at hn; omega)]
      rfl

theorem rights_of_collect (n : Nat) : ∀ (t : Tokenizer S TokenType), t.regexes = regexes →
    ∀ {xs : List (Token S TokenType)}, t.collect conv n = .ok xs → RightTokens t.remain (xs.map piece) [] ∧
      (∀ x ∈ xs, x.cls = .error → bytes x.text = 1) ∧ xs = place conv t.location t.index (xs.map piece) := by
  induction n with
  | zero => intro t _ xs h; cases h
  | succ n ih =>
    intro t hr xs h
    rw [Tokenizer.collect] at h
    cases h1 : t.next conv with
    | ok y =>
      obtain ⟨o, t'⟩ := y
      rw [h1, Out.ok_bind] at h
      cases o with
      | none =>
        have := Out.ok.inj h
        subst this
        obtain ⟨h2, -⟩ := next_none h1
        exact ⟨by rw [h2]; exact .nil, (fun x hx => by cases hx), rfl⟩
      | some x =>
        simp only at h
        obtain ⟨n1, -, n3, n4, n5, n6, n7⟩ := next_some h1
        cases h2 : t'.collect conv n with
        | ok ys =>
          rw [h2] at h
          have := Out.ok.inj h
          subst this
          obtain ⟨g1, g2, g3⟩ := ih t' (n4.trans hr) h2
          rw [hr] at n3
          obtain ⟨f1, f2⟩ := (firstLongest_iff n1 x.cls).1 n3
          refine ⟨?_, ?_, ?_⟩
          · rw [n1] at f1 ⊢
            exact .cons f1 g1
          · intro y hy
            rcases List.mem_cons.1 hy with rfl | hy
            · exact f2
            · exact g2 y hy
          · rw [List.map_cons]
            show x :: ys = place conv t.location t.index ((x.cls, x.text) :: ys.map piece)
            rw [place, ← n6, ← n5, ← g3, ← n7]
        | panic m => rw [h2] at h; cases h
        | oof => rw [h2] at h; cases h
        | stuck => rw [h2] at h; cases h
    | panic m => rw [h1] at h; cases h
    | oof => rw [h1] at h; cases h
    | stuck => rw [h1] at h; cases h

theorem collect_wide {t0 : List Char} {ps : List (TokenClass TokenType × List Char)} {rest : List Char}
    (h : RightTokens t0 ps rest) : ∀ {a : Char} {s : List Char}, rest = a :: s → 1 < a.utf8Size →
    ∀ (n : Nat) (t : Tokenizer S TokenType), t.regexes = regexes → t.remain = t0 → t0.length < n →
      ∃ m, t.collect conv n = .panic m := by
  induction h with
  | nil =>
    rintro a s rfl ha n t hr ht hn
    cases n with
    | zero => omega
    | succ n =>
      obtain ⟨m, hm⟩ := next_wide (conv := conv) hr ht ha
      exact ⟨m, by rw [Tokenizer.collect, hm]; rfl⟩
  | @cons c w s0 rest ps h1 _ ih =>
    intro a s hrest ha n t hr ht hn
    cases n with
    | zero => omega
    | succ n =>
      have hlen := List.length_pos_iff.2 h1.ne_nil
      by_cases hc : c = .error → bytes w = 1
      · have h3 := next_right (conv := conv) hr ht h1 hc
        obtain ⟨m, hm⟩ := ih hrest ha n { t with
          location := S.advance t.location (conv w), index := t.index + 1, remain := s0 } hr rfl
          (by rw [List.length_append] at hn; omega)
        exact ⟨m, by rw [Tokenizer.collect, h3, Out.ok_bind]; simp only; rw [hm]; rfl⟩
      · simp only [Classical.not_imp] at hc
        obtain ⟨rfl, hb⟩ := hc
        rcases h1 with ⟨_, ⟨h4, _⟩ | ⟨_, h4, _⟩⟩
        · exact h4.elim
        · obtain ⟨b, rfl⟩ := List.length_eq_one_iff.1 h4
          have := b.utf8Size_pos
          have hb' : 1 < b.utf8Size := by
            simp only [bytes, List.map_cons, List.map_nil, List.sum_cons, List.sum_nil] at hb
            omega
          obtain ⟨m, hm⟩ := next_wide (conv := conv) hr (ht.trans rfl) hb'
          exact ⟨m, by rw [Tokenizer.collect, hm]; rfl⟩

theorem wide_of_collect (n : Nat) : ∀ (t : Tokenizer S TokenType), t.regexes = regexes → ∀ {m : String},
    t.collect conv n = .panic m → ∃ ps c rest, RightTokens t.remain ps (c :: rest) ∧ 1 < c.utf8Size := by
  induction n with
  | zero => intro t _ m h; cases h
  | succ n ih =>
    intro t hr m h
    rw [Tokenizer.collect] at h
    cases h1 : t.next conv with
    | ok y =>
      obtain ⟨o, t'⟩ := y
      rw [h1, Out.ok_bind] at h
      cases o with
      | none => cases h
      | some x =>
        simp only at h
        obtain ⟨n1, -, n3, n4, -⟩ := next_some h1
        cases h2 : t'.collect conv n with
        | panic m' =>
          obtain ⟨ps, c, rest, g1, g2⟩ := ih t' (n4.trans hr) h2
          rw [hr] at n3
          have f1 := ((firstLongest_iff n1 x.cls).1 n3).1
          refine ⟨(x.cls, x.text) :: ps, c, rest, ?_, g2⟩
          rw [n1] at f1 ⊢
          exact .cons f1 g1
        | ok ys => rw [h2] at h; cases h
        | oof => rw [h2] at h; cases h
        | stuck => rw [h2] at h; cases h
    | panic m' =>
      obtain ⟨c, rest, h2, h3, -⟩ := next_panic t (by rw [hr]; exact fun r h => regexes_prefix h) m' h1
      exact ⟨[], c, rest, by rw [h2]; exact .nil, h3⟩
    | oof => rw [h1] at h; cases h
    | stuck => rw [h1] at h; cases h

/-! ## C48 -/

/-- C48: all the regular expressions of the language are well formed. -/
theorem C48_regexes_compile : (∀ k : TokenType, (Re.parse k.regex).isSome = true) ∧
    (Re.parse TokenType.whitespace).isSome = true :=
  ⟨fun k => by rw [parse_token]; rfl, by rw [parse_whitespace]; rfl⟩

/-- C48: the expression of each token type, and that of whitespace, matches the longest word of its
class at the start of the text. (The engine prefers the first match, not the longest one.) -/
theorem C48_match (t : List Char) : (∀ k : TokenType, LongestAt (.normal k) t (Re.compile k.regex t)) ∧
    LongestAt .whitespace t (Re.compile TokenType.whitespace t) :=
  ⟨fun k => (longest_token k t).at, (longest_whitespace t).at⟩

/-- C48: no text is a word of two classes, and none is empty: the order of the token types does not
matter. -/
theorem C48_classes {c d : TokenClass TokenType} {w : List Char} (h : Word c w) (h' : Word d w) :
    c = d ∧ w ≠ [] :=
  ⟨word_disjoint h h', word_ne_nil h⟩

/-- C48: each text has exactly one reading as right tokens. -/
theorem C48_reading (text : List Char) : ∃ ps, RightTokens text ps [] ∧ ∀ qs, RightTokens text qs [] → qs = ps := by
  obtain ⟨ps, h⟩ := exists_rights (text.length + 1) text (by omega)
  exact ⟨ps, h, fun qs h' => h'.end_unique h⟩

/-- C48: the tokens that the tokenizer returns are the right ones, with consecutive spans. -/
theorem C48_tokens {loc : S.L} {text : List Char} {n : Nat} {xs : List (Token S TokenType)}
    (h : (tokenizeFrom loc text).collect conv n = .ok xs) :
    RightTokens text (xs.map piece) [] ∧ xs = place conv loc 0 (xs.map piece) :=
  let r := rights_of_collect n (tokenizeFrom loc text) rfl h
  ⟨r.1, r.2.2⟩

/-- C48: and it returns them, unless there is a character of more than one byte that belongs to no
word. -/
theorem C48_determined (loc : S.L) {text : List Char} {ps : List (TokenClass TokenType × List Char)}
    (h : RightTokens text ps []) (hb : ∀ w, (.error, w) ∈ ps → bytes w = 1) (n : Nat) (hn : text.length < n) :
    (tokenizeFrom loc text).collect conv n = .ok (place conv loc 0 ps) := by
  have h1 := collect_rights (conv := conv) h rfl hb (n + ps.length + 1) (tokenizeFrom loc text) rfl rfl (by omega)
  rcases C38_terminates (conv := conv) TokenType.all (fun k => Re.compile k.regex)
    (Re.compile TokenType.whitespace) loc text n hn with ⟨xs, h2⟩ | ⟨m, h2⟩
  · obtain ⟨g1, -, g3⟩ := rights_of_collect n (tokenizeFrom loc text) rfl h2
    have := g1.end_unique h
    rw [this] at g3
    exact h2.trans (congrArg _ g3)
  · obtain ⟨qs, c, rest, g1, g2⟩ := wide_of_collect n (tokenizeFrom loc text) rfl h2
    obtain ⟨m', h3⟩ := collect_wide (conv := conv) g1 rfl g2 (n + ps.length + 1) (tokenizeFrom loc text) rfl rfl
      (by show text.length < _; omega)
    rw [h1] at h3
    cases h3

/-- C48: the tokenizer panics exactly if it gets to a character of more than one byte: no word starts
with one, so it is never read as the start of anything. -/
theorem C48_panics_iff (loc : S.L) (text : List Char) (n : Nat) (hn : text.length < n) :
    (∃ m, (tokenizeFrom loc text).collect conv n = .panic m) ↔
      ∃ ps c rest, RightTokens text ps (c :: rest) ∧ 1 < c.utf8Size :=
  ⟨fun ⟨_, h⟩ => wide_of_collect n _ rfl h,
    fun ⟨_, _, _, h1, h2⟩ => collect_wide h1 rfl h2 n _ rfl rfl hn⟩

/-- C48: what is written as words, with blanks or other characters where two words would run
together, is read back as these words. -/
theorem C48_written (loc : S.L) {ps : List (TokenClass TokenType × List Char)} (h : Written ps) (n : Nat)
    (hn : (ps.map Prod.snd).flatten.length < n) :
    (tokenizeFrom loc (ps.map Prod.snd).flatten).collect conv n = .ok (place conv loc 0 ps) := by
  refine C48_determined loc h.right (fun w hw => ?_) n hn
  have : ∀ p ∈ ps, p.1 ≠ .error := by
    clear hn hw
    induction h with
    | nil => intro p hp; cases hp
    | cons h1 _ _ ih =>
      intro p hp
      rcases List.mem_cons.1 hp with rfl | hp
      · intro hc; simp only at hc; rw [hc] at h1; exact h1
      · exact ih p hp
  exact (this _ hw rfl).elim

/-! ## Pitfalls of the language -/

/-- No word starts with a character of no kind. -/
theorem word_other {c : TokenClass TokenType} {w : List Char} {a : Char} {t : List Char} (h : Word c w)
    (ha : kind a = .other) : ¬ w <+: a :: t := by
  rintro ⟨s, hs⟩
  obtain ⟨b, w', rfl, hk⟩ := word_head h
  simp only [List.cons_append, List.cons.injEq] at hs
  obtain ⟨rfl, -⟩ := hs
  rw [ha] at hk
  cases c with
  | normal k => cases k <;> simp [kinds] at hk
  | whitespace => simp [kinds] at hk
  | error => exact h

/-- C48: an empty comment runs on to the end of the next comment, and is read as a documentation
comment with everything in between. -/
theorem C48_empty_comment {b : List Char} (hb : ¬ ['*', '/'] <:+: '/' :: b) (rest : List Char) :
    RightToken ('/' :: '*' :: '*' :: '/' :: b ++ '*' :: '/' :: rest) (.normal .doc)
      ('/' :: '*' :: '*' :: '/' :: b ++ ['*', '/']) := by
  have hw : Word (.normal .doc) ('/' :: '*' :: '*' :: '/' :: b ++ ['*', '/']) := ⟨'/' :: b, hb, rfl⟩
  have := right_of_written (s := rest) hw trivial
  simpa using this

/-- C48: an arrow right after a symbol is not read as one: the hyphen becomes part of the symbol. -/
theorem C48_arrow {w : List Char} (hw : SymbolWord w) (rest : List Char) :
    RightTokens (w ++ '-' :: '>' :: rest) [(.normal .symbol, w ++ ['-']), (.error, ['>'])] rest := by
  have h1 : Word (.normal .symbol) (w ++ ['-']) := by
    obtain ⟨c, cs, rfl, h1, h2⟩ := hw
    refine ⟨c, cs ++ ['-'], rfl, h1, fun d hd => ?_⟩
    rcases List.mem_append.1 hd with hd | hd
    · exact h2 d hd
    · rw [List.mem_singleton] at hd; exact .inr (.inr hd)
  have h2 := right_of_written (s := '>' :: rest) h1 (by
    intro c hc
    cases hc
    rintro (h | h | h)
    · exact absurd h.1 (by decide)
    · exact absurd h.2 (by decide)
    · exact absurd h (by decide))
  rw [show w ++ '-' :: '>' :: rest = (w ++ ['-']) ++ (['>'] ++ rest) by simp]
  exact .cons h2 (.cons ⟨⟨rest, rfl⟩, .inr ⟨rfl, rfl, fun c v hv => word_other hv (by decide)⟩⟩ .nil)

/-! ## Concrete cases -/

/-- The text `a ::= 'x';/* c */` as words. -/
def exPieces : List (TokenClass TokenType × List Char) :=
  [(.normal .symbol, ['a']), (.whitespace, [' ']), (.normal .colColEq, [':', ':', '=']), (.whitespace, [' ']),
    (.normal .stringLiteral, ['\'', 'x', '\'']), (.normal .sem, [';']),
    (.whitespace, ['/', '*', ' ', 'c', ' ', '*', '/'])]

/-- It is written as it should be. -/
theorem exPieces_written : Written exPieces := by
  refine .cons ⟨'a', [], rfl, ⟨by decide, by decide⟩, by simp⟩ ?_ (.cons (.inr ⟨by simp, by simp [BlankChar]⟩) ?_
    (.cons rfl trivial (.cons (.inr ⟨by simp, by simp [BlankChar]⟩) ?_
      (.cons ⟨'\'', ['x'], .inl rfl, by simp, .plain (by decide) (by decide) .nil, rfl⟩ trivial
        (.cons rfl trivial (.cons (.inl ⟨[' ', 'c', ' '], by decide, by decide, rfl⟩) ?_ .nil))))))
  · intro c hc; cases hc
    rintro (h | h | h)
    · exact absurd h.1 (by decide)
    · exact absurd h.1 (by decide)
    · exact absurd h (by decide)
  · refine ⟨by decide, fun _ c hc => ?_⟩
    cases hc
    rintro (h | h | h | h) <;> exact absurd h (by decide)
  · refine ⟨by decide, fun _ c hc => ?_⟩
    cases hc
    rintro (h | h | h | h) <;> exact absurd h (by decide)
  · exact ⟨by decide, fun _ c hc => by cases hc⟩

/-- So the tokenizer finds these words. -/
example : ((tokenizeFrom (S := simpleSig (List Char) (· == ·)) ()
      "a ::= 'x';/* c */".toList).collect id 18).map (fun xs => xs.map fun x => (x.cls, x.text, x.span)) =
    .ok [(.normal .symbol, ['a'], (0, 1)), (.whitespace, [' '], (1, 2)),
      (.normal .colColEq, [':', ':', '='], (2, 3)), (.whitespace, [' '], (3, 4)),
      (.normal .stringLiteral, ['\'', 'x', '\''], (4, 5)), (.normal .sem, [';'], (5, 6)),
      (.whitespace, ['/', '*', ' ', 'c', ' ', '*', '/'], (6, 7))] := by
  have h := C48_written (S := simpleSig (List Char) (· == ·)) (conv := id) () exPieces_written 18 (by decide)
  rw [show (exPieces.map Prod.snd).flatten = "a ::= 'x';/* c */".toList by decide] at h
  rw [h]
  rfl

/-- The text `/**/a;/*b*/` is one documentation comment. -/
example : RightTokens "/**/a;/*b*/".toList [(.normal .doc, "/**/a;/*b*/".toList)] [] := by
  have h := C48_empty_comment (b := ['a', ';', '/', '*', 'b']) (by decide) []
  rw [show "/**/a;/*b*/".toList = ['/', '*', '*', '/', 'a', ';', '/', '*', 'b', '*', '/'] ++ [] by decide]
  exact .cons h .nil

/-- A character of more than one byte outside of strings, sets and comments makes it panic. -/
example : ∃ m, (tokenizeFrom (S := simpleSig (List Char) (· == ·)) () ['a', 'é']).collect id 3 = .panic m := by
  refine (C48_panics_iff _ _ _ (by decide)).2 ⟨[(.normal .symbol, ['a'])], 'é', [], ?_, by decide⟩
  refine .cons (w := ['a']) (t := ['é']) (right_of_written ⟨'a', [], rfl, ⟨by decide, by decide⟩, by simp⟩ ?_) .nil
  intro c hc; cases hc
  rintro (h | h | h)
  · exact absurd h.2 (by decide)
  · exact absurd h.2 (by decide)
  · exact absurd h (by decide)

end PPC.Pangram
