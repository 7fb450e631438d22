import Verif.SpecLexer

/-!
# The grammar of grammar files in its own notation (specification for C55)

`pangram/self-spec.ebnf` describes grammar files in the notation of grammar files. This file has the notation, what it
means, and a transcription of that file.
-/

namespace PPC.Pangram

/-- Expressions of the notation, over names `N` and terminals `T`. -/
inductive Ebnf (N T : Type) : Type where
  /-- a terminal -/
  | tok (t : T)
  /-- the name of a rule -/
  | name (n : N)
  /-- `a b` -/
  | seq (a b : Ebnf N T)
  /-- `a | b` -/
  | alt (a b : Ebnf N T)
  /-- `a?` -/
  | opt (a : Ebnf N T)
  /-- `a*` -/
  | star (a : Ebnf N T)
  /-- `a+` -/
  | plus (a : Ebnf N T)

namespace Ebnf

/-- `a b c ...` -/
def cat {N T : Type} (a : Ebnf N T) (l : List (Ebnf N T)) : Ebnf N T := l.foldl seq a

/-- `a | b | c | ...` -/
def any {N T : Type} (a : Ebnf N T) (l : List (Ebnf N T)) : Ebnf N T := l.foldl alt a

section
variable {N T A : Type} (rules : N → Ebnf N T) (is : T → A → Prop)

/-- The expression describes the sequence: the rules are read as those of a context-free grammar. The order of
alternatives does not matter. -/
inductive Derives : Ebnf N T → List A → Prop where
  | tok {t : T} {a : A} : is t a → Derives (tok t) [a]
  | name {n : N} {w : List A} : Derives (rules n) w → Derives (name n) w
  | seq {x y : Ebnf N T} {u v : List A} : Derives x u → Derives y v → Derives (seq x y) (u ++ v)
  | altLeft {x y : Ebnf N T} {w : List A} : Derives x w → Derives (alt x y) w
  | altRight {x y : Ebnf N T} {w : List A} : Derives y w → Derives (alt x y) w
  | optNone {x : Ebnf N T} : Derives (opt x) []
  | optSome {x : Ebnf N T} {w : List A} : Derives x w → Derives (opt x) w
  | starNone {x : Ebnf N T} : Derives (star x) []
  | starMore {x : Ebnf N T} {u v : List A} : Derives x u → Derives (star x) v → Derives (star x) (u ++ v)
  | plus {x : Ebnf N T} {u v : List A} : Derives x u → Derives (star x) v → Derives (plus x) (u ++ v)

/-- What matching the expression at the start of the sequence comes to: `some rest`, or `none` if it does not match.
This is the reading that the comments in `pangram/self-spec.ebnf` give (lines 69-73, 93-125): alternatives are tried in
order, and repetitions are greedy. -/
inductive Matches : Ebnf N T → List A → Option (List A) → Prop where
  | tok {t : T} {a : A} {w : List A} : is t a → Matches (tok t) (a :: w) (some w)
  | tokOther {t : T} {a : A} {w : List A} : ¬is t a → Matches (tok t) (a :: w) none
  | tokEnd {t : T} : Matches (tok t) [] none
  | name {n : N} {w : List A} {r : Option (List A)} : Matches (rules n) w r → Matches (name n) w r
  | seq {x y : Ebnf N T} {w v : List A} {r : Option (List A)} : Matches x w (some v) → Matches y v r → Matches (seq x y) w r
  | seqNone {x y : Ebnf N T} {w : List A} : Matches x w none → Matches (seq x y) w none
  | altLeft {x y : Ebnf N T} {w v : List A} : Matches x w (some v) → Matches (alt x y) w (some v)
  | altRight {x y : Ebnf N T} {w : List A} {r : Option (List A)} : Matches x w none → Matches y w r → Matches (alt x y) w r
  | optSome {x : Ebnf N T} {w v : List A} : Matches x w (some v) → Matches (opt x) w (some v)
  | optNone {x : Ebnf N T} {w : List A} : Matches x w none → Matches (opt x) w (some w)
  | starMore {x : Ebnf N T} {w v : List A} {r : Option (List A)} : Matches x w (some v) → Matches (star x) v r →
      Matches (star x) w r
  | starNone {x : Ebnf N T} {w : List A} : Matches x w none → Matches (star x) w (some w)
  | plus {x : Ebnf N T} {w v : List A} {r : Option (List A)} : Matches x w (some v) → Matches (star x) v r →
      Matches (plus x) w r
  | plusNone {x : Ebnf N T} {w : List A} : Matches x w none → Matches (plus x) w none

end

end Ebnf

open Ebnf

/-! ## Production rules -/

/-- The production rules of `pangram/self-spec.ebnf` (lines 4, 10-62, 74, 83-84, 91, 96, 101-125, 131-137). Tokens
are named by their types; a literal pattern is an unnamed token (lines 51-60). Comments and the names of alternatives
do not matter to what is described. -/
def production : NT → Ebnf NT TokenType
  /- grammar ::= rule+ ; -/
  | .grammar => plus (name .rule)
  /- rule ::= doc? symbol ":==" alternation ";" | doc? "_" ":==" alternation ";"
       | doc? symbol first-alter subseq-alter* ";" ; -/
  | .rule => any (cat (opt (tok .doc)) [tok .symbol, tok .colEqEq, name .alternation, tok .sem])
      [cat (opt (tok .doc)) [tok .usc, tok .colEqEq, name .alternation, tok .sem],
        cat (opt (tok .doc)) [tok .symbol, name .firstAlter, star (name .subseqAlter), tok .sem]]
  /- alternation ::= concatenation ("|" concatenation)* ; -/
  | .alternation => cat (name .concatenation) [star (cat (tok .bar) [name .concatenation])]
  /- first-alter ::= doc? "::=" concatenation alter-name? ; -/
  | .firstAlter => cat (opt (tok .doc)) [tok .colColEq, name .concatenation, opt (name .alterName)]
  /- subseq-alter ::= doc? "|" concatenation alter-name? ; -/
  | .subseqAlter => cat (opt (tok .doc)) [tok .bar, name .concatenation, opt (name .alterName)]
  /- alter-name ::= "->" symbol ; -/
  | .alterName => cat (tok .minGt) [tok .symbol]
  /- concatenation ::= repetition+ ; -/
  | .concatenation => plus (name .repetition)
  /- repetition ::= singular "?" | singular "*" | singular "+" | singular ; -/
  | .repetition => any (cat (name .singular) [tok .qst]) [cat (name .singular) [tok .ast],
      cat (name .singular) [tok .pls], name .singular]
  /- singular ::= "(" alternation ")" | symbol | string-literal | character-set | character-literal ; -/
  | .singular => any (cat (tok .lp) [name .alternation, tok .rp]) [tok .symbol, tok .stringLiteral, tok .characterSet,
      tok .characterLiteral]

/-- The self-specification describes the sequence of token types. -/
abbrev SelfDerives (n : NT) (w : List TokenType) : Prop := Derives production (· = ·) (name n) w

/-- Matching by the self-specification. -/
abbrev SelfMatches (n : NT) (w : List TokenType) (r : Option (List TokenType)) : Prop :=
  Matches production (· = ·) (name n) w r

/-! ## Token rules -/

/-- The names of the token rules, with `_` for whitespace. -/
inductive TokenRule : Type where
  | symbol | stringLiteral | characterSet | characterSetChar | characterLiteral | escapeSequence | hex | doc | whitespace
  | commentBody
deriving DecidableEq

/-- A set of characters: ranges, inverted if there is a `^` at the front (lines 148-152). -/
structure CharSet where
  inverted : Bool
  ranges : List (Char × Char)

/-- The character is in the set. -/
def CharSet.Has (s : CharSet) (c : Char) : Prop :=
  if s.inverted then ∀ r ∈ s.ranges, ¬(r.1 ≤ c ∧ c ≤ r.2) else ∃ r ∈ s.ranges, r.1 ≤ c ∧ c ≤ r.2

/-- `[...]`, `[^...]` and one character -/
def oneOf {N : Type} (l : List (Char × Char)) : Ebnf N CharSet := tok ⟨false, l⟩
def noneOf {N : Type} (l : List Char) : Ebnf N CharSet := tok ⟨true, l.map fun c => (c, c)⟩
def char {N : Type} (c : Char) : Ebnf N CharSet := oneOf [(c, c)]

/-- The token rules of `pangram/self-spec.ebnf` (lines 68, 143-146, 153, 159, 165, 186-191, 196, 202,
207 with 220, 215). -/
def tokenRule : TokenRule → Ebnf TokenRule CharSet
  /- symbol :== [a-z] [a-z0-9#-]* ; -/
  | .symbol => cat (oneOf [('a', 'z')]) [star (oneOf [('a', 'z'), ('0', '9'), ('-', '-')])]
  /- string-literal :== "'" ( [^'##] | ## [^] )+ "'" | '"' ( [^"##] | ## [^] )+ '"' ; -/
  | .stringLiteral =>
    any (cat (char '\'') [plus (any (noneOf ['\'', '#']) [cat (char '#') [noneOf []]]), char '\''])
      [cat (char '"') [plus (any (noneOf ['"', '#']) [cat (char '#') [noneOf []]]), char '"']]
  /- character-set :== "[" "^"? ( character-set-char ( "-" character-set-char )? )* "]" ; -/
  | .characterSet => cat (char '[') [opt (char '^'),
      star (cat (name .characterSetChar) [opt (cat (char '-') [name .characterSetChar])]), char ']']
  /- character-set-char :== [^#^#-#]##] | escape-sequence ; -/
  | .characterSetChar => any (noneOf ['^', '-', ']', '#']) [name .escapeSequence]
  /- character-literal :== escape-sequence ; -/
  | .characterLiteral => name .escapeSequence
  /- escape-sequence :== ## ( [^xuU] | "x" hex hex | "u" hex hex hex hex | "U" hex hex hex hex hex hex hex hex ) ; -/
  | .escapeSequence => cat (char '#') [any (noneOf ['x', 'u', 'U']) [cat (char 'x') [name .hex, name .hex],
      cat (char 'u') [name .hex, name .hex, name .hex, name .hex],
      cat (char 'U') [name .hex, name .hex, name .hex, name .hex, name .hex, name .hex, name .hex, name .hex]]]
  /- hex :== [0-9a-fA-F] ; -/
  | .hex => oneOf [('0', '9'), ('a', 'f'), ('A', 'F')]
  /- doc :== "/**" comment-body "*/" ; -/
  | .doc => cat (char '/') [char '*', char '*', name .commentBody, char '*', char '/']
  /- _ :== "/*" ( [^*] comment-body )? "*/" ; and _ :== [ #t#n#r]+ ; -/
  | .whitespace => any (cat (char '/') [char '*', opt (cat (noneOf ['*']) [name .commentBody]), char '*', char '/'])
      [plus (oneOf [(' ', ' '), ('\t', '\t'), ('\n', '\n'), ('\r', '\r')])]
  /- comment-body :== ( [^*] | "*"+ [^*/] )* "*"* ; -/
  | .commentBody => cat (star (any (noneOf ['*']) [cat (plus (char '*')) [noneOf ['*', '/']]])) [star (char '*')]

/-- The text of a literal pattern in a production rule, or the name of a token rule. -/
def notation' : TokenType → List Char ⊕ TokenRule
  | .colEqEq => .inl [':', '=', '=']
  | .sem => .inl [';']
  | .usc => .inl ['_']
  | .symbol => .inr .symbol
  | .bar => .inl ['|']
  | .colColEq => .inl [':', ':', '=']
  | .minGt => .inl ['-', '>']
  | .qst => .inl ['?']
  | .ast => .inl ['*']
  | .pls => .inl ['+']
  | .lp => .inl ['(']
  | .rp => .inl [')']
  | .stringLiteral => .inr .stringLiteral
  | .characterSet => .inr .characterSet
  | .characterLiteral => .inr .characterLiteral
  | .doc => .inr .doc

/-- The self-specification describes the text as one of the token or of whitespace. -/
def SelfWord : TokenClass TokenType → List Char → Prop
  | .normal k, w => match notation' k with
    | .inl v => w = v
    | .inr r => Derives tokenRule CharSet.Has (name r) w
  | .whitespace, w => Derives tokenRule CharSet.Has (name .whitespace) w
  | .error, _ => False

/-- At the start of the text `rest`, the token of class `cls` with text `w` is one that the self-specification asks for
(lines 15-25): the longest match, or one unrecognized character if nothing matches. -/
def SelfToken (rest : List Char) (cls : TokenClass TokenType) (w : List Char) : Prop :=
  w <+: rest ∧
    ((SelfWord cls w ∧ ∀ c v, SelfWord c v → v <+: rest → v.length ≤ w.length) ∨
      (cls = .error ∧ w.length = 1 ∧ ∀ c v, SelfWord c v → ¬ v <+: rest))

/-- The text is read as the tokens `ps`, given by class and text, as the self-specification asks for. -/
inductive SelfTokens : List Char → List (TokenClass TokenType × List Char) → Prop where
  | nil : SelfTokens [] []
  | cons {c : TokenClass TokenType} {w t : List Char} {ps : List (TokenClass TokenType × List Char)} :
      SelfToken (w ++ t) c w → SelfTokens t ps → SelfTokens (w ++ t) ((c, w) :: ps)

/-- The types of the tokens that the parser sees. -/
def tokenTypes (ps : List (TokenClass TokenType × List Char)) : List TokenType :=
  ps.filterMap fun p =>
    match p.1 with
    | .normal t => some t
    | _ => none

/-- The self-specification describes the text as a grammar file. -/
def SelfDescribes (text : List Char) : Prop :=
  ∃ ps, SelfTokens text ps ∧ (∀ p ∈ ps, p.1 ≠ .error) ∧ SelfDerives .grammar (tokenTypes ps)

/-- No `#` has a line feed after it. -/
def NoEscapedLineFeed (text : List Char) : Prop := ¬ ['#', '\n'] <:+: text

end PPC.Pangram
