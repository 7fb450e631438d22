import Verif.SemRegex
import Verif.SpecLexer

/-!
# The expressions of the tokenizer as syntax trees
-/

namespace PPC.Pangram

open Re

/-- `[0-9a-fA-F]` -/
def hexRe : Re := .set false [('0', '9'), ('a', 'f'), ('A', 'F')]

/-- `n` hexadecimal digits. -/
def hexesRe (n : Nat) : Re := cat (List.replicate n hexRe)

/-- A hash escape sequence. -/
def hashRe : Re :=
  .seq (chr '#') (.alt (.set true [('x', 'x'), ('u', 'u'), ('U', 'U')])
    (.alt (.seq (chr 'x') (hexesRe 2)) (.alt (.seq (chr 'u') (hexesRe 4)) (.seq (chr 'U') (hexesRe 8)))))

/-- A character of a set. -/
def itemRe : Re := .alt (.set true [('^', '^'), ('-', '-'), (']', ']'), ('#', '#')]) hashRe

/-- The contents of a set. -/
def bodyRe : Re := .star (.seq itemRe (opt (.seq (chr '-') itemRe)))

/-- A set. -/
def setRe : Re := cat [chr '[', opt (chr '^'), bodyRe, chr ']']

/-- A string between quotes `q`. -/
def quotedRe (q : Char) : Re :=
  cat [chr q, plus (.alt (.set true [(q, q), ('#', '#')]) (.seq (chr '#') dot)), chr q]

/-- Text without `*/`. -/
def textRe : Re :=
  .seq (.star (.alt (.set true [('*', '*')]) (.seq (plus (chr '*')) (.set true [('*', '*'), ('/', '/')]))))
    (.star (chr '*'))

/-- A documentation comment. -/
def docRe : Re := cat [cat [chr '/', chr '*', chr '*'], textRe, cat [chr '*', chr '/']]

/-- Another comment. -/
def commentRe : Re :=
  cat [cat [chr '/', chr '*'], opt (.seq (.set true [('*', '*')]) textRe), cat [chr '*', chr '/']]

/-- Blanks. -/
def blankRe : Re := plus (.set false [(' ', ' '), ('\t', '\t'), ('\n', '\n'), ('\r', '\r')])

/-- A symbol. -/
def symbolRe : Re := .seq (.set false [('a', 'z')]) (.star (.set false [('a', 'z'), ('0', '9'), ('-', '-')]))

/-- The expression of each token type. -/
def tokenRe : TokenType → Re
  | .colEqEq => cat [chr ':', chr '=', chr '=']
  | .sem => chr ';'
  | .usc => chr '_'
  | .symbol => symbolRe
  | .bar => chr '|'
  | .colColEq => cat [chr ':', chr ':', chr '=']
  | .minGt => cat [chr '-', chr '>']
  | .qst => chr '?'
  | .ast => chr '*'
  | .pls => chr '+'
  | .lp => chr '('
  | .rp => chr ')'
  | .stringLiteral => .alt (quotedRe '\'') (quotedRe '"')
  | .characterSet => setRe
  | .characterLiteral => hashRe
  | .doc => docRe

/-- The expression of whitespace. -/
def whitespaceRe : Re := .alt commentRe blankRe

theorem parse_eq {s : String} {r : Re} (l : List Char) (hs : s = String.ofList l)
    (h : (lex none l).bind (read ⟨[], []⟩ []) = some r) : parse s = some r := by
  unfold parse
  rw [hs, String.toList_ofList]
  cases h1 : lex none l with
  | none => rw [h1] at h; cases h
  | some ts => rw [h1] at h; exact h

set_option maxRecDepth 10000

theorem parse_colEqEq : parse (TokenType.regex .colEqEq) = some (tokenRe .colEqEq) :=
  parse_eq [':', '=', '='] rfl (by decide +kernel)

theorem parse_sem : parse (TokenType.regex .sem) = some (tokenRe .sem) :=
  parse_eq [';'] rfl (by decide +kernel)

theorem parse_usc : parse (TokenType.regex .usc) = some (tokenRe .usc) :=
  parse_eq ['_'] rfl (by decide +kernel)

theorem parse_symbol : parse (TokenType.regex .symbol) = some (tokenRe .symbol) :=
  parse_eq ['(', '?', ':', '[', 'a', '-', 'z', ']', ')', '(', '?', ':', '(', '?', ':', '[', 'a', '-', 'z',
    '0', '-', '9', '\\', '-', ']', ')', '*', ')'] rfl (by decide +kernel)

theorem parse_bar : parse (TokenType.regex .bar) = some (tokenRe .bar) :=
  parse_eq ['\\', '|'] rfl (by decide +kernel)

theorem parse_colColEq : parse (TokenType.regex .colColEq) = some (tokenRe .colColEq) :=
  parse_eq [':', ':', '='] rfl (by decide +kernel)

theorem parse_minGt : parse (TokenType.regex .minGt) = some (tokenRe .minGt) :=
  parse_eq ['\\', '-', '>'] rfl (by decide +kernel)

theorem parse_qst : parse (TokenType.regex .qst) = some (tokenRe .qst) :=
  parse_eq ['\\', '?'] rfl (by decide +kernel)

theorem parse_ast : parse (TokenType.regex .ast) = some (tokenRe .ast) :=
  parse_eq ['\\', '*'] rfl (by decide +kernel)

theorem parse_pls : parse (TokenType.regex .pls) = some (tokenRe .pls) :=
  parse_eq ['\\', '+'] rfl (by decide +kernel)

theorem parse_lp : parse (TokenType.regex .lp) = some (tokenRe .lp) :=
  parse_eq ['\\', '('] rfl (by decide +kernel)

theorem parse_rp : parse (TokenType.regex .rp) = some (tokenRe .rp) :=
  parse_eq ['\\', ')'] rfl (by decide +kernel)

theorem parse_stringLiteral : parse (TokenType.regex .stringLiteral) = some (tokenRe .stringLiteral) :=
  parse_eq ['(', '?', ':', '(', '?', ':', '\'', ')', '(', '?', ':', '(', '?', ':', '(', '?', ':', '[', '^',
    '\'', '#', ']', ')', '|', '(', '?', ':', '(', '?', ':', '#', ')', '(', '?', ':', '.', ')', ')',
    ')', '+', ')', '(', '?', ':', '\'', ')', ')', '|', '(', '?', ':', '(', '?', ':', '"', ')', '(',
    '?', ':', '(', '?', ':', '(', '?', ':', '[', '^', '"', '#', ']', ')', '|', '(', '?', ':', '(',
    '?', ':', '#', ')', '(', '?', ':', '.', ')', ')', ')', '+', ')', '(', '?', ':', '"', ')', ')'] rfl (by decide +kernel)

theorem parse_characterSet : parse (TokenType.regex .characterSet) = some (tokenRe .characterSet) :=
  parse_eq ['(', '?', ':', '\\', '[', ')', '(', '?', ':', '(', '?', ':', '\\', '^', ')', '?', ')', '(', '?',
    ':', '(', '?', ':', '(', '?', ':', '(', '?', ':', '(', '?', ':', '[', '^', '\\', '^', '\\',
    '-', '\\', ']', '#', ']', ')', '|', '(', '?', ':', '(', '?', ':', '(', '?', ':', '#', ')', '(',
    '?', ':', '(', '?', ':', '[', '^', 'x', 'u', 'U', ']', ')', '|', '(', '?', ':', '(', '?', ':',
    'x', ')', '(', '?', ':', '(', '?', ':', '[', '0', '-', '9', 'a', '-', 'f', 'A', '-', 'F', ']',
    ')', ')', '(', '?', ':', '(', '?', ':', '[', '0', '-', '9', 'a', '-', 'f', 'A', '-', 'F', ']',
    ')', ')', ')', '|', '(', '?', ':', '(', '?', ':', 'u', ')', '(', '?', ':', '(', '?', ':', '[',
    '0', '-', '9', 'a', '-', 'f', 'A', '-', 'F', ']', ')', ')', '(', '?', ':', '(', '?', ':', '[',
    '0', '-', '9', 'a', '-', 'f', 'A', '-', 'F', ']', ')', ')', '(', '?', ':', '(', '?', ':', '[',
    '0', '-', '9', 'a', '-', 'f', 'A', '-', 'F', ']', ')', ')', '(', '?', ':', '(', '?', ':', '[',
    '0', '-', '9', 'a', '-', 'f', 'A', '-', 'F', ']', ')', ')', ')', '|', '(', '?', ':', '(', '?',
    ':', 'U', ')', '(', '?', ':', '(', '?', ':', '[', '0', '-', '9', 'a', '-', 'f', 'A', '-', 'F',
    ']', ')', ')', '(', '?', ':', '(', '?', ':', '[', '0', '-', '9', 'a', '-', 'f', 'A', '-', 'F',
    ']', ')', ')', '(', '?', ':', '(', '?', ':', '[', '0', '-', '9', 'a', '-', 'f', 'A', '-', 'F',
    ']', ')', ')', '(', '?', ':', '(', '?', ':', '[', '0', '-', '9', 'a', '-', 'f', 'A', '-', 'F',
    ']', ')', ')', '(', '?', ':', '(', '?', ':', '[', '0', '-', '9', 'a', '-', 'f', 'A', '-', 'F',
    ']', ')', ')', '(', '?', ':', '(', '?', ':', '[', '0', '-', '9', 'a', '-', 'f', 'A', '-', 'F',
    ']', ')', ')', '(', '?', ':', '(', '?', ':', '[', '0', '-', '9', 'a', '-', 'f', 'A', '-', 'F',
    ']', ')', ')', '(', '?', ':', '(', '?', ':', '[', '0', '-', '9', 'a', '-', 'f', 'A', '-', 'F',
    ']', ')', ')', ')', ')', ')', ')', ')', ')', '(', '?', ':', '(', '?', ':', '(', '?', ':', '\\',
    '-', ')', '(', '?', ':', '(', '?', ':', '(', '?', ':', '[', '^', '\\', '^', '\\', '-', '\\',
    ']', '#', ']', ')', '|', '(', '?', ':', '(', '?', ':', '(', '?', ':', '#', ')', '(', '?', ':',
    '(', '?', ':', '[', '^', 'x', 'u', 'U', ']', ')', '|', '(', '?', ':', '(', '?', ':', 'x', ')',
    '(', '?', ':', '(', '?', ':', '[', '0', '-', '9', 'a', '-', 'f', 'A', '-', 'F', ']', ')', ')',
    '(', '?', ':', '(', '?', ':', '[', '0', '-', '9', 'a', '-', 'f', 'A', '-', 'F', ']', ')', ')',
    ')', '|', '(', '?', ':', '(', '?', ':', 'u', ')', '(', '?', ':', '(', '?', ':', '[', '0', '-',
    '9', 'a', '-', 'f', 'A', '-', 'F', ']', ')', ')', '(', '?', ':', '(', '?', ':', '[', '0', '-',
    '9', 'a', '-', 'f', 'A', '-', 'F', ']', ')', ')', '(', '?', ':', '(', '?', ':', '[', '0', '-',
    '9', 'a', '-', 'f', 'A', '-', 'F', ']', ')', ')', '(', '?', ':', '(', '?', ':', '[', '0', '-',
    '9', 'a', '-', 'f', 'A', '-', 'F', ']', ')', ')', ')', '|', '(', '?', ':', '(', '?', ':', 'U',
    ')', '(', '?', ':', '(', '?', ':', '[', '0', '-', '9', 'a', '-', 'f', 'A', '-', 'F', ']', ')',
    ')', '(', '?', ':', '(', '?', ':', '[', '0', '-', '9', 'a', '-', 'f', 'A', '-', 'F', ']', ')',
    ')', '(', '?', ':', '(', '?', ':', '[', '0', '-', '9', 'a', '-', 'f', 'A', '-', 'F', ']', ')',
    ')', '(', '?', ':', '(', '?', ':', '[', '0', '-', '9', 'a', '-', 'f', 'A', '-', 'F', ']', ')',
    ')', '(', '?', ':', '(', '?', ':', '[', '0', '-', '9', 'a', '-', 'f', 'A', '-', 'F', ']', ')',
    ')', '(', '?', ':', '(', '?', ':', '[', '0', '-', '9', 'a', '-', 'f', 'A', '-', 'F', ']', ')',
    ')', '(', '?', ':', '(', '?', ':', '[', '0', '-', '9', 'a', '-', 'f', 'A', '-', 'F', ']', ')',
    ')', '(', '?', ':', '(', '?', ':', '[', '0', '-', '9', 'a', '-', 'f', 'A', '-', 'F', ']', ')',
    ')', ')', ')', ')', ')', ')', ')', ')', '?', ')', ')', '*', ')', '(', '?', ':', '\\', ']', ')'] rfl (by decide +kernel)

theorem parse_characterLiteral : parse (TokenType.regex .characterLiteral) = some (tokenRe .characterLiteral) :=
  parse_eq ['(', '?', ':', '(', '?', ':', '#', ')', '(', '?', ':', '(', '?', ':', '[', '^', 'x', 'u', 'U',
    ']', ')', '|', '(', '?', ':', '(', '?', ':', 'x', ')', '(', '?', ':', '(', '?', ':', '[', '0',
    '-', '9', 'a', '-', 'f', 'A', '-', 'F', ']', ')', ')', '(', '?', ':', '(', '?', ':', '[', '0',
    '-', '9', 'a', '-', 'f', 'A', '-', 'F', ']', ')', ')', ')', '|', '(', '?', ':', '(', '?', ':',
    'u', ')', '(', '?', ':', '(', '?', ':', '[', '0', '-', '9', 'a', '-', 'f', 'A', '-', 'F', ']',
    ')', ')', '(', '?', ':', '(', '?', ':', '[', '0', '-', '9', 'a', '-', 'f', 'A', '-', 'F', ']',
    ')', ')', '(', '?', ':', '(', '?', ':', '[', '0', '-', '9', 'a', '-', 'f', 'A', '-', 'F', ']',
    ')', ')', '(', '?', ':', '(', '?', ':', '[', '0', '-', '9', 'a', '-', 'f', 'A', '-', 'F', ']',
    ')', ')', ')', '|', '(', '?', ':', '(', '?', ':', 'U', ')', '(', '?', ':', '(', '?', ':', '[',
    '0', '-', '9', 'a', '-', 'f', 'A', '-', 'F', ']', ')', ')', '(', '?', ':', '(', '?', ':', '[',
    '0', '-', '9', 'a', '-', 'f', 'A', '-', 'F', ']', ')', ')', '(', '?', ':', '(', '?', ':', '[',
    '0', '-', '9', 'a', '-', 'f', 'A', '-', 'F', ']', ')', ')', '(', '?', ':', '(', '?', ':', '[',
    '0', '-', '9', 'a', '-', 'f', 'A', '-', 'F', ']', ')', ')', '(', '?', ':', '(', '?', ':', '[',
    '0', '-', '9', 'a', '-', 'f', 'A', '-', 'F', ']', ')', ')', '(', '?', ':', '(', '?', ':', '[',
    '0', '-', '9', 'a', '-', 'f', 'A', '-', 'F', ']', ')', ')', '(', '?', ':', '(', '?', ':', '[',
    '0', '-', '9', 'a', '-', 'f', 'A', '-', 'F', ']', ')', ')', '(', '?', ':', '(', '?', ':', '[',
    '0', '-', '9', 'a', '-', 'f', 'A', '-', 'F', ']', ')', ')', ')', ')', ')'] rfl (by decide +kernel)

theorem parse_doc : parse (TokenType.regex .doc) = some (tokenRe .doc) :=
  parse_eq ['(', '?', ':', '/', '\\', '*', '\\', '*', ')', '(', '?', ':', '(', '?', ':', '(', '?', ':', '(',
    '?', ':', '(', '?', ':', '[', '^', '\\', '*', ']', ')', '|', '(', '?', ':', '(', '?', ':', '(',
    '?', ':', '\\', '*', ')', '+', ')', '(', '?', ':', '[', '^', '\\', '*', '/', ']', ')', ')',
    ')', '*', ')', '(', '?', ':', '(', '?', ':', '\\', '*', ')', '*', ')', ')', ')', '(', '?', ':',
    '\\', '*', '/', ')'] rfl (by decide +kernel)

theorem parse_whitespace : parse TokenType.whitespace = some whitespaceRe :=
  parse_eq ['(', '?', ':', '(', '?', ':', '/', '\\', '*', ')', '(', '?', ':', '(', '?', ':', '(', '?', ':',
    '[', '^', '\\', '*', ']', ')', '(', '?', ':', '(', '?', ':', '(', '?', ':', '(', '?', ':', '(',
    '?', ':', '[', '^', '\\', '*', ']', ')', '|', '(', '?', ':', '(', '?', ':', '(', '?', ':',
    '\\', '*', ')', '+', ')', '(', '?', ':', '[', '^', '\\', '*', '/', ']', ')', ')', ')', '*',
    ')', '(', '?', ':', '(', '?', ':', '\\', '*', ')', '*', ')', ')', ')', ')', '?', ')', '(', '?',
    ':', '\\', '*', '/', ')', ')', '|', '(', '?', ':', '(', '?', ':', '[', ' ', '\t', '\n', '\r',
    ']', ')', '+', ')'] rfl (by decide +kernel)

theorem parse_token (k : TokenType) : parse k.regex = some (tokenRe k) := by
  cases k with
  | colEqEq => exact parse_colEqEq
  | sem => exact parse_sem
  | usc => exact parse_usc
  | symbol => exact parse_symbol
  | bar => exact parse_bar
  | colColEq => exact parse_colColEq
  | minGt => exact parse_minGt
  | qst => exact parse_qst
  | ast => exact parse_ast
  | pls => exact parse_pls
  | lp => exact parse_lp
  | rp => exact parse_rp
  | stringLiteral => exact parse_stringLiteral
  | characterSet => exact parse_characterSet
  | characterLiteral => exact parse_characterLiteral
  | doc => exact parse_doc

end PPC.Pangram
