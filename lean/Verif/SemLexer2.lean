import Verif.SemLexer

/-!
# Words do not start with other words
-/

namespace PPC.Pangram

open Re

set_option linter.unusedSimpArgs false

theorem append_eq_of_length {a b c d : List Char} (h : a ++ b = c ++ d) (hl : a.length = c.length) : a = c ∧ b = d :=
  List.append_inj h hl

theorem hash_head {w : List Char} (h : HashWord w) : ∃ c t, w = '#' :: c :: t := by
  cases h with
  | simple => exact ⟨_, _, rfl⟩
  | hex2 => exact ⟨_, _, rfl⟩
  | hex4 => exact ⟨_, _, rfl⟩
  | hex8 => exact ⟨_, _, rfl⟩

theorem prefixFree_hash : PrefixFree HashWord := by
  intro p s p' s' he hp hp'
  cases hp with
  | simple h1 h2 h3 =>
    cases hp' with
    | simple => simp at he; rw [he.1]
    | hex2 => simp at he; exact (h1 he.1).elim
    | hex4 => simp at he; exact (h2 he.1).elim
    | hex8 => simp at he; exact (h3 he.1).elim
  | hex2 hl =>
    cases hp' with
    | simple h1 h2 h3 => simp at he; exact (h1 he.1.symm).elim
    | hex2 hl' => simp at he; rw [(append_eq_of_length he (hl.trans hl'.symm)).1]
    | hex4 => simp at he
    | hex8 => simp at he
  | hex4 hl =>
    cases hp' with
    | simple h1 h2 h3 => simp at he; exact (h2 he.1.symm).elim
    | hex2 => simp at he
    | hex4 hl' => simp at he; rw [(append_eq_of_length he (hl.trans hl'.symm)).1]
    | hex8 => simp at he
  | hex8 hl =>
    cases hp' with
    | simple h1 h2 h3 => simp at he; exact (h3 he.1.symm).elim
    | hex2 => simp at he
    | hex4 => simp at he
    | hex8 hl' => simp at he; rw [(append_eq_of_length he (hl.trans hl'.symm)).1]

theorem item_head {w : List Char} (h : SetItem w) : ∃ c t, w = c :: t ∧ c ≠ '^' ∧ c ≠ '-' ∧ c ≠ ']' := by
  cases h with
  | plain h1 h2 h3 h4 => exact ⟨_, _, rfl, h1, h2, h3⟩
  | escape h =>
    obtain ⟨c, t, rfl⟩ := hash_head h
    exact ⟨_, _, rfl, by decide, by decide, by decide⟩

theorem prefixFree_item : PrefixFree SetItem := by
  intro p s p' s' he hp hp'
  cases hp with
  | plain h1 h2 h3 h4 =>
    cases hp' with
    | plain => simp at he; rw [he.1]
    | escape h =>
      obtain ⟨c, t, rfl⟩ := hash_head h
      simp at he
      exact (h4 he.1).elim
  | escape h =>
    cases hp' with
    | plain h1 h2 h3 h4 =>
      obtain ⟨c, t, rfl⟩ := hash_head h
      simp at he
      exact (h4 he.1.symm).elim
    | escape h' => exact prefixFree_hash _ _ _ _ he h h'

theorem body_head {w : List Char} (h : SetBody w) : w = [] ∨ ∃ c t, w = c :: t ∧ c ≠ '^' ∧ c ≠ '-' ∧ c ≠ ']' := by
  cases h with
  | nil => exact .inl rfl
  | one ha _ =>
    obtain ⟨c, t, rfl, h1⟩ := item_head ha
    exact .inr ⟨c, _, rfl, h1⟩
  | range ha _ _ =>
    obtain ⟨c, t, rfl, h1⟩ := item_head ha
    exact .inr ⟨c, _, rfl, h1⟩

theorem body_not_dash {w s : List Char} (h : SetBody w) {t : List Char} : w ++ ']' :: s ≠ '-' :: t := by
  intro he
  rcases body_head h with rfl | ⟨c, t, rfl, _, h2, _⟩
  · simp at he
  · simp at he; exact h2 he.1

theorem body_not_close {w : List Char} (h : SetBody w) {s t : List Char} (hw : w ≠ []) : w ++ s ≠ ']' :: t := by
  intro he
  rcases body_head h with rfl | ⟨c, t, rfl, _, _, h3⟩
  · exact hw rfl
  · simp at he; exact h3 he.1

theorem body_unique {b : List Char} (hb : SetBody b) : ∀ {b' s s' : List Char}, SetBody b' →
    b ++ ']' :: s = b' ++ ']' :: s' → b = b' := by
  induction hb with
  | nil =>
    intro b' s s' hb' he
    by_cases h : b' = []
    · exact h.symm
    · exact (body_not_close hb' h he.symm).elim
  | @one a w ha hw ih =>
    intro b' s s' hb' he
    cases hb' with
    | nil =>
      obtain ⟨c, t, rfl, _, _, h3⟩ := item_head ha
      simp at he
      exact (h3 he.1).elim
    | @one a' w' ha' hw' =>
      simp only [List.append_assoc] at he
      have := prefixFree_item _ _ _ _ he ha ha'
      subst this
      rw [ih hw' (List.append_cancel_left he)]
    | @range a' c' w' ha' hc' hw' =>
      simp only [List.append_assoc] at he
      have := prefixFree_item _ _ _ _ he ha ha'
      subst this
      exact (body_not_dash hw (List.append_cancel_left he)).elim
  | @range a c w ha hc hw ih =>
    intro b' s s' hb' he
    cases hb' with
    | nil =>
      obtain ⟨c, t, rfl, _, _, h3⟩ := item_head ha
      simp at he
      exact (h3 he.1).elim
    | @one a' w' ha' hw' =>
      simp only [List.append_assoc] at he
      have := prefixFree_item _ _ _ _ he ha ha'
      subst this
      exact (body_not_dash hw' (List.append_cancel_left he).symm).elim
    | @range a' c' w' ha' hc' hw' =>
      simp only [List.append_assoc] at he
      have := prefixFree_item _ _ _ _ he ha ha'
      subst this
      have he := List.append_cancel_left he
      simp only [List.cons_append, List.cons.injEq, true_and] at he
      have := prefixFree_item _ _ _ _ he hc hc'
      subst this
      rw [ih hw' (List.append_cancel_left he)]

theorem prefixFree_set : PrefixFree SetWord := by
  rintro p s p' s' he ⟨b, hb, rfl | rfl⟩ ⟨b', hb', rfl | rfl⟩
  · simp only [List.cons_append, List.append_assoc, List.cons.injEq, true_and, List.nil_append] at he
    rw [body_unique hb hb' he]
  · simp only [List.cons_append, List.append_assoc, List.cons.injEq, true_and, List.nil_append] at he
    rcases body_head hb with rfl | ⟨c, t, rfl, h1, _, _⟩
    · simp at he
    · simp at he; exact (h1 he.1).elim
  · simp only [List.cons_append, List.append_assoc, List.cons.injEq, true_and, List.nil_append] at he
    rcases body_head hb' with rfl | ⟨c, t, rfl, h1, _, _⟩
    · simp at he
    · simp at he; exact (h1 he.1.symm).elim
  · simp only [List.cons_append, List.append_assoc, List.cons.injEq, true_and, List.nil_append] at he
    rw [body_unique hb hb' he]

theorem quoted_unique {q : Char} (hq : q ≠ '#') {b : List Char} (hb : Quoted q b) : ∀ {b' s s' : List Char},
    Quoted q b' → b ++ q :: s = b' ++ q :: s' → b = b' := by
  induction hb with
  | nil =>
    intro b' s s' hb' he
    cases hb' with
    | nil => rfl
    | plain h1 => simp at he; exact (h1 he.1.symm).elim
    | escape h1 => simp at he; exact (hq he.1).elim
  | plain h1 h2 _ ih =>
    intro b' s s' hb' he
    cases hb' with
    | nil => simp at he; exact (h1 he.1).elim
    | plain h3 h4 hw =>
      simp at he
      rw [he.1, ih hw he.2]
    | escape h3 hw => simp at he; exact (h2 he.1).elim
  | escape h1 _ ih =>
    intro b' s s' hb' he
    cases hb' with
    | nil => simp at he; exact (hq he.1.symm).elim
    | plain h3 h4 hw => simp at he; exact (h4 he.1.symm).elim
    | escape h3 hw =>
      simp at he
      rw [he.1, ih hw he.2]

theorem prefixFree_string : PrefixFree StringWord := by
  rintro p s p' s' he ⟨q, b, hq, _, h2, rfl⟩ ⟨q', b', hq', _, h2', rfl⟩
  simp only [List.cons_append, List.append_assoc, List.cons.injEq, List.nil_append] at he
  obtain ⟨rfl, he⟩ := he
  rw [quoted_unique (by rcases hq with rfl | rfl <;> decide) h2 h2' he]

theorem close_unique {b : List Char} : ∀ {b' s s' : List Char}, ¬ ['*', '/'] <:+: b → ¬ ['*', '/'] <:+: b' →
    b ++ '*' :: '/' :: s = b' ++ '*' :: '/' :: s' → b = b' := by
  induction b with
  | nil =>
    intro b' s s' _ h2 he
    cases b' with
    | nil => rfl
    | cons c b' =>
      cases b' with
      | nil => simp at he
      | cons d b' =>
        simp at he
        exact (h2 ⟨[], b', by simp [← he.1, ← he.2.1]⟩).elim
  | cons c b ih =>
    intro b' s s' h1 h2 he
    cases b' with
    | nil =>
      cases b with
      | nil => simp at he
      | cons d b =>
        simp at he
        exact (h1 ⟨[], b, by simp [he.1, he.2.1]⟩).elim
    | cons c' b' =>
      simp only [List.cons_append, List.cons.injEq] at he
      rw [he.1, ih (noClose_cons.1 h1).2 (noClose_cons.1 h2).2 he.2]

theorem prefixFree_doc : PrefixFree DocWord := by
  rintro p s p' s' he ⟨b, hb, rfl⟩ ⟨b', hb', rfl⟩
  simp only [List.cons_append, List.append_assoc, List.cons.injEq, true_and, List.nil_append] at he
  rw [close_unique hb hb' he]

theorem prefixFree_comment : PrefixFree CommentWord := by
  rintro p s p' s' he ⟨b, hb, _, rfl⟩ ⟨b', hb', _, rfl⟩
  simp only [List.cons_append, List.append_assoc, List.cons.injEq, true_and, List.nil_append] at he
  rw [close_unique hb hb' he]

theorem prefixFree_single {v : List Char} : PrefixFree (· = v) := by
  rintro p s p' s' _ rfl rfl; rfl

/-- No word of a token type other than symbols is the beginning of another one of the same type. -/
theorem prefixFree_word {k : TokenType} (h : k ≠ .symbol) : PrefixFree (Word (.normal k)) := by
  cases k
  case symbol => exact (h rfl).elim
  case stringLiteral => exact prefixFree_string
  case characterSet => exact prefixFree_set
  case characterLiteral => exact prefixFree_hash
  case doc => exact prefixFree_doc
  all_goals exact prefixFree_single

theorem prefixFree_congr {L L' : List Char → Prop} (h : ∀ w, L w ↔ L' w) (hf : PrefixFree L') : PrefixFree L :=
  fun p s p' s' he hp hp' => hf p s p' s' he ((h p).1 hp) ((h p').1 hp')

theorem greedy_token (k : TokenType) : Greedy (tokenRe k) := by
  by_cases h : k = .symbol
  · subst h; exact greedy_set_seq greedy_star_set
  · exact greedy_of_prefixFree (prefixFree_congr (fun _ => lang_token k) (prefixFree_word h))

theorem greedy_whitespace : Greedy whitespaceRe := by
  refine greedy_alt (greedy_of_prefixFree (prefixFree_congr (fun _ => lang_comment) prefixFree_comment))
    (greedy_set_seq greedy_star_set) ?_
  intro p s p' s' he hp hp'
  obtain ⟨b, _, _, rfl⟩ := lang_comment.1 hp
  obtain ⟨h1, h2⟩ := lang_blank.1 hp'
  cases p' with
  | nil => exact h1 rfl
  | cons c p' =>
    simp at he
    have := h2 c (by simp)
    rw [← he.1] at this
    rcases this with h | h | h | h <;> exact absurd h (by decide)

/-! ## First characters -/

/-- Which words a character can begin. -/
inductive Kind : Type where
  | colon | semi | under | letter | bar | dash | question | asterisk | plus | open | close | quote
  | bracket | hash | slash | blank | other
deriving DecidableEq

/-- The kind of a character. -/
def kind (c : Char) : Kind :=
  if c = ':' then .colon else if c = ';' then .semi else if c = '_' then .under
  else if 'a' ≤ c ∧ c ≤ 'z' then .letter else if c = '|' then .bar else if c = '-' then .dash
  else if c = '?' then .question else if c = '*' then .asterisk else if c = '+' then .plus
  else if c = '(' then .open else if c = ')' then .close else if c = '\'' ∨ c = '"' then .quote
  else if c = '[' then .bracket else if c = '#' then .hash else if c = '/' then .slash
  else if c = ' ' ∨ c = '\t' ∨ c = '\n' ∨ c = '\r' then .blank else .other

theorem kind_letter {c : Char} (h : Lower c) : kind c = .letter := by
  have h1 : c ≠ ':' := by rintro rfl; exact absurd h.1 (by decide)
  have h2 : c ≠ ';' := by rintro rfl; exact absurd h.1 (by decide)
  have h3 : c ≠ '_' := by rintro rfl; exact absurd h.1 (by decide)
  rw [kind, if_neg h1, if_neg h2, if_neg h3, if_pos (show 'a' ≤ c ∧ c ≤ 'z' from h)]

theorem kind_blank {c : Char} (h : BlankChar c) : kind c = .blank := by
  rcases h with rfl | rfl | rfl | rfl <;> decide

/-- The kinds of the first characters of the words of a class. -/
def kinds : TokenClass TokenType → List Kind
  | .normal .colEqEq => [.colon]
  | .normal .sem => [.semi]
  | .normal .usc => [.under]
  | .normal .symbol => [.letter]
  | .normal .bar => [.bar]
  | .normal .colColEq => [.colon]
  | .normal .minGt => [.dash]
  | .normal .qst => [.question]
  | .normal .ast => [.asterisk]
  | .normal .pls => [.plus]
  | .normal .lp => [.open]
  | .normal .rp => [.close]
  | .normal .stringLiteral => [.quote]
  | .normal .characterSet => [.bracket]
  | .normal .characterLiteral => [.hash]
  | .normal .doc => [.slash]
  | .whitespace => [.slash, .blank]
  | .error => []

theorem word_head {c : TokenClass TokenType} {w : List Char} (h : Word c w) :
    ∃ x t, w = x :: t ∧ kind x ∈ kinds c := by
  cases c with
  | error => exact h.elim
  | whitespace =>
    rcases h with ⟨b, _, _, rfl⟩ | ⟨h1, h2⟩
    · exact ⟨_, _, rfl, by decide⟩
    · cases w with
      | nil => exact (h1 rfl).elim
      | cons x w => exact ⟨x, w, rfl, by rw [kind_blank (h2 x (by simp))]; decide⟩
  | normal k =>
    cases k
    case symbol =>
      obtain ⟨c, cs, rfl, hc, _⟩ := h
      exact ⟨c, cs, rfl, by rw [kind_letter hc]; decide⟩
    case stringLiteral =>
      obtain ⟨q, b, rfl | rfl, _, _, rfl⟩ := h
      · exact ⟨_, _, rfl, by decide⟩
      · exact ⟨_, _, rfl, by decide⟩
    case characterSet =>
      obtain ⟨b, _, rfl | rfl⟩ := h
      · exact ⟨_, _, rfl, by decide⟩
      · exact ⟨_, _, rfl, by decide⟩
    case characterLiteral =>
      obtain ⟨c, t, rfl⟩ := hash_head h
      exact ⟨_, _, rfl, by decide⟩
    case doc =>
      obtain ⟨b, _, rfl⟩ := h
      exact ⟨_, _, rfl, by decide⟩
    all_goals (cases (show w = _ from h); exact ⟨_, _, rfl, by decide⟩)

theorem kinds_common {c d : TokenClass TokenType} {x : Kind} (hc : x ∈ kinds c) (hd : x ∈ kinds d) :
    c = d ∨ x = .colon ∨ x = .slash := by
  rcases c with c | _ | _ <;> rcases d with d | _ | _
  case normal.normal =>
    cases c <;> cases d <;> first | exact .inl rfl | (simp [kinds] at hc hd; subst hc; simp at hd ⊢)
  case normal.whitespace =>
    cases c <;> (simp [kinds] at hc hd; subst hc; simp at hd ⊢)
  case whitespace.normal =>
    cases d <;> (simp [kinds] at hc hd; subst hd; simp at hc ⊢)
  case whitespace.whitespace => exact .inl rfl
  all_goals first | (cases hc; done) | (cases hd; done)

theorem colon_class {c : TokenClass TokenType} (h : .colon ∈ kinds c) : c = .normal .colEqEq ∨ c = .normal .colColEq := by
  rcases c with c | _ | _
  · cases c <;> simp_all [kinds]
  · simp [kinds] at h
  · simp [kinds] at h

theorem slash_class {c : TokenClass TokenType} (h : .slash ∈ kinds c) : c = .normal .doc ∨ c = .whitespace := by
  rcases c with c | _ | _
  · cases c <;> simp_all [kinds]
  · exact .inr rfl
  · simp [kinds] at h

theorem word_ne_nil {c : TokenClass TokenType} {w : List Char} (h : Word c w) : w ≠ [] := by
  obtain ⟨x, t, rfl, _⟩ := word_head h
  simp

/-- The empty comment. -/
def emptyComment : List Char := ['/', '*', '*', '/']

/-- Two words at the start of the same text are of the same class, unless one is the empty comment and
the other a documentation comment. -/
theorem same_class {c d : TokenClass TokenType} {v w s s' : List Char} (hv : Word c v) (hw : Word d w)
    (he : v ++ s = w ++ s') :
    c = d ∨ (c = .whitespace ∧ v = emptyComment ∧ d = .normal .doc) ∨
      (d = .whitespace ∧ w = emptyComment ∧ c = .normal .doc) := by
  obtain ⟨x, t, rfl, hx⟩ := word_head hv
  obtain ⟨y, t', rfl, hy⟩ := word_head hw
  simp only [List.cons_append, List.cons.injEq] at he
  obtain ⟨rfl, he⟩ := he
  have key : ∀ {b b' : List Char}, ¬ ['*', '/'] <:+: b' → b'.head? ≠ some '*' →
      '*' :: '*' :: (b ++ ['*', '/']) ++ s = '*' :: (b' ++ ['*', '/']) ++ s' → b' = [] := by
    intro b b' h1 h2 h
    cases b' with
    | nil => rfl
    | cons z b' => simp at h; rw [← h.1] at h2; simp at h2
  rcases kinds_common hx hy with h | h | h
  · exact .inl h
  · rw [h] at hx hy
    rcases colon_class hx with rfl | rfl <;> rcases colon_class hy with rfl | rfl
    · exact .inl rfl
    · cases (show _ = _ from hv); cases (show _ = _ from hw); simp at he
    · cases (show _ = _ from hv); cases (show _ = _ from hw); simp at he
    · exact .inl rfl
  · rw [h] at hx hy
    have hsl : ∀ {t : List Char}, Word .whitespace (x :: t) → CommentWord (x :: t) := by
      intro t hw
      rcases hw with hw | ⟨_, hw⟩
      · exact hw
      · rw [kind_blank (hw x (by simp))] at h; cases h
    rcases slash_class hx with rfl | rfl <;> rcases slash_class hy with rfl | rfl
    · exact .inl rfl
    · obtain ⟨b, hb, he1⟩ := hv
      obtain ⟨b', hb', hh, he2⟩ := hsl hw
      simp only [List.cons.injEq] at he1 he2
      obtain ⟨rfl, rfl⟩ := he1
      obtain ⟨_, rfl⟩ := he2
      have := key hb' hh he
      subst this
      exact .inr (.inr ⟨rfl, rfl, rfl⟩)
    · obtain ⟨b, hb, he1⟩ := hw
      obtain ⟨b', hb', hh, he2⟩ := hsl hv
      simp only [List.cons.injEq] at he1 he2
      obtain ⟨rfl, rfl⟩ := he1
      obtain ⟨_, rfl⟩ := he2
      cases b' with
      | nil => exact .inr (.inl ⟨rfl, rfl, rfl⟩)
      | cons z b' => simp at he; rw [he.1] at hh; simp at hh
    · exact .inl rfl

/-- Words of different classes are different. -/
theorem word_disjoint {c d : TokenClass TokenType} {w : List Char} (hc : Word c w) (hd : Word d w) : c = d := by
  have hne : ∀ {w : List Char}, DocWord w → w = emptyComment → False := by
    rintro w ⟨b, _, rfl⟩ h
    have := congrArg List.length h
    simp [emptyComment] at this
  rcases same_class (s := []) (s' := []) hc hd rfl with h | ⟨_, h, rfl⟩ | ⟨_, h, rfl⟩
  · exact h
  · exact (hne hd h).elim
  · exact (hne hc h).elim

end PPC.Pangram
