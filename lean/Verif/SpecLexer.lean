import Verif.Pangram
import Verif.Tokenizer

/-!
# The words of the grammar-file language (specification for C48)

What the token types stand for, written down without regular expressions, after the comments at
src/test_pangram.rs:405-459 and the grammar of the language itself.
-/

namespace PPC.Pangram

/-- `a` to `z`. -/
def Lower (c : Char) : Prop := 'a' ≤ c ∧ c ≤ 'z'

/-- `0` to `9`. -/
def Digit (c : Char) : Prop := '0' ≤ c ∧ c ≤ '9'

/-- What may follow in a symbol: lower-case letters, digits and hyphens. -/
def SymbolChar (c : Char) : Prop := Lower c ∨ Digit c ∨ c = '-'

/-- A hexadecimal digit. -/
def HexDigit (c : Char) : Prop := Digit c ∨ ('a' ≤ c ∧ c ≤ 'f') ∨ ('A' ≤ c ∧ c ≤ 'F')

/-- Blank, tab, line feed and carriage return. -/
def BlankChar (c : Char) : Prop := c = ' ' ∨ c = '\t' ∨ c = '\n' ∨ c = '\r'

/-- A symbol in kebab case: a lower-case letter, then lower-case letters, digits and hyphens. -/
def SymbolWord (w : List Char) : Prop := ∃ c cs, w = c :: cs ∧ Lower c ∧ ∀ d ∈ cs, SymbolChar d

/-- What may stand between two quotes `q`: any character but the quote and `#`, and `#` followed by
any character but a line feed. -/
inductive Quoted (q : Char) : List Char → Prop where
  | nil : Quoted q []
  | plain {c : Char} {w : List Char} : c ≠ q → c ≠ '#' → Quoted q w → Quoted q (c :: w)
  | escape {c : Char} {w : List Char} : c ≠ '\n' → Quoted q w → Quoted q ('#' :: c :: w)

/-- A string between single or double quotes, which is not empty. -/
def StringWord (w : List Char) : Prop :=
  ∃ q b, (q = '\'' ∨ q = '"') ∧ b ≠ [] ∧ Quoted q b ∧ w = q :: (b ++ [q])

/-- A hash escape sequence: `#c`, `#xHH`, `#uHHHH` or `#UHHHHHHHH`. -/
inductive HashWord : List Char → Prop where
  | simple {c : Char} : c ≠ 'x' → c ≠ 'u' → c ≠ 'U' → HashWord ['#', c]
  | hex2 {h : List Char} : h.length = 2 → (∀ c ∈ h, HexDigit c) → HashWord ('#' :: 'x' :: h)
  | hex4 {h : List Char} : h.length = 4 → (∀ c ∈ h, HexDigit c) → HashWord ('#' :: 'u' :: h)
  | hex8 {h : List Char} : h.length = 8 → (∀ c ∈ h, HexDigit c) → HashWord ('#' :: 'U' :: h)

/-- A character in a set: itself, unless it is one of `^-]#`, or an escape sequence. -/
inductive SetItem : List Char → Prop where
  | plain {c : Char} : c ≠ '^' → c ≠ '-' → c ≠ ']' → c ≠ '#' → SetItem [c]
  | escape {w : List Char} : HashWord w → SetItem w

/-- The contents of a set: characters and ranges. -/
inductive SetBody : List Char → Prop where
  | nil : SetBody []
  | one {a w : List Char} : SetItem a → SetBody w → SetBody (a ++ w)
  | range {a b w : List Char} : SetItem a → SetItem b → SetBody w → SetBody (a ++ '-' :: b ++ w)

/-- A set of characters in brackets, with an optional `^` at the front. -/
def SetWord (w : List Char) : Prop :=
  ∃ b, SetBody b ∧ (w = '[' :: (b ++ [']']) ∨ w = '[' :: '^' :: (b ++ [']']))

/-- A documentation comment: from `/**` to the next `*/`. -/
def DocWord (w : List Char) : Prop := ∃ b, ¬ ['*', '/'] <:+: b ∧ w = '/' :: '*' :: '*' :: (b ++ ['*', '/'])

/-- Any other comment: from `/*` to the next `*/`. -/
def CommentWord (w : List Char) : Prop :=
  ∃ b, ¬ ['*', '/'] <:+: b ∧ b.head? ≠ some '*' ∧ w = '/' :: '*' :: (b ++ ['*', '/'])

/-- Blanks. -/
def BlankWord (w : List Char) : Prop := w ≠ [] ∧ ∀ c ∈ w, BlankChar c

/-- The words of each class. -/
def Word : TokenClass TokenType → List Char → Prop
  | .normal .colEqEq, w => w = [':', '=', '=']
  | .normal .sem, w => w = [';']
  | .normal .usc, w => w = ['_']
  | .normal .symbol, w => SymbolWord w
  | .normal .bar, w => w = ['|']
  | .normal .colColEq, w => w = [':', ':', '=']
  | .normal .minGt, w => w = ['-', '>']
  | .normal .qst, w => w = ['?']
  | .normal .ast, w => w = ['*']
  | .normal .pls, w => w = ['+']
  | .normal .lp, w => w = ['(']
  | .normal .rp, w => w = [')']
  | .normal .stringLiteral, w => StringWord w
  | .normal .characterSet, w => SetWord w
  | .normal .characterLiteral, w => HashWord w
  | .normal .doc, w => DocWord w
  | .whitespace, w => CommentWord w ∨ BlankWord w
  | .error, _ => False

/-- At the start of the text `rest`, the token of class `cls` with text `w` is the right one: the
longest word that the text starts with; or else, if the text starts with no word, one character. -/
def RightToken (rest : List Char) (cls : TokenClass TokenType) (w : List Char) : Prop :=
  w <+: rest ∧
    ((Word cls w ∧ ∀ c v, Word c v → v <+: rest → v.length ≤ w.length) ∨
      (cls = .error ∧ w.length = 1 ∧ ∀ c v, Word c v → ¬ v <+: rest))

/-- The tokens `ps`, given by class and text, are the right ones at the start of `text`, and `rest` is
what is left. -/
inductive RightTokens : List Char → List (TokenClass TokenType × List Char) → List Char → Prop where
  | nil {t : List Char} : RightTokens t [] t
  | cons {c : TokenClass TokenType} {w t rest : List Char} {ps : List (TokenClass TokenType × List Char)} :
      RightToken (w ++ t) c w → RightTokens t ps rest → RightTokens (w ++ t) ((c, w) :: ps) rest

/-- A word of class `cls` may be followed by a character, or by the end of the text: nothing longer
is read. (The empty comment may not be followed by anything in general: if another comment ends
later in the text, the tokenizer reads both as one documentation comment.) -/
def MayPrecede (cls : TokenClass TokenType) (w : List Char) (next : Option Char) : Prop :=
  match cls with
  | .normal .symbol => ∀ c, next = some c → ¬ SymbolChar c
  | .whitespace => w ≠ ['/', '*', '*', '/'] ∧ (BlankWord w → ∀ c, next = some c → ¬ BlankChar c)
  | _ => True

/-- A text that is written as words, one after the other. -/
inductive Written : List (TokenClass TokenType × List Char) → Prop where
  | nil : Written []
  | cons {c : TokenClass TokenType} {w : List Char} {ps : List (TokenClass TokenType × List Char)} :
      Word c w → MayPrecede c w (ps.map Prod.snd).flatten.head? → Written ps → Written ((c, w) :: ps)

end PPC.Pangram
