import Verif.Basic

/-!
# The tokenizer (src/test_pangram.rs, module `types`)

The text is a list of characters; `&str` slicing works on bytes, and panics inside a character. The
regular expressions are parameters: what the code uses of a compiled expression is only the length,
in bytes, of its match at the start of the remaining text, or 0. For the expressions of the grammar-file
language, and that `Regex::new` succeeds on them, see `Regex` and C48.
-/

namespace PPC

/-- `str::len`: the number of bytes of a text in UTF-8. -/
def bytes (t : List Char) : Nat := (t.map Char.utf8Size).sum

/-- `(&t[..n], &t[n..])`: `none` for a panic, if `n` is not on the boundary of a character of `t`. -/
def splitBytes : List Char → Nat → Option (List Char × List Char)
  | t, 0 => some ([], t)
  | [], _ + 1 => none
  | c :: t, n + 1 =>
    if c.utf8Size ≤ n + 1 then
      match splitBytes t (n + 1 - c.utf8Size) with
      | some (a, b) => some (c :: a, b)
      | none => none
    else none

/-- `TokenClass` (src/test_pangram.rs:46-57). -/
inductive TokenClass (T : Type) : Type where
  | normal (t : T)
  | whitespace
  | error
deriving DecidableEq, Repr

/-- `TokenClass::token_type` (src/test_pangram.rs:61-67). -/
def TokenClass.tokenType {T : Type} : TokenClass T → Option T
  | .normal t => some t
  | _ => none

/-- `TokenClass::is_error` (src/test_pangram.rs:70-72). -/
def TokenClass.isError {T : Type} : TokenClass T → Bool
  | .error => true
  | _ => false

/-- `TokenClass::is_whitespace` (src/test_pangram.rs:75-77). -/
def TokenClass.isWhitespace {T : Type} : TokenClass T → Bool
  | .whitespace => true
  | _ => false

/-- `Token` (src/test_pangram.rs:94-102). -/
structure Token (S : Sig) (T : Type) where
  cls : TokenClass T
  text : List Char
  span : S.Span

/-- A compiled regular expression `^(?:...)`: the length in bytes of its match at the start of the
text; 0 if there is none (src/test_pangram.rs:259-263). -/
abbrev Matcher : Type := List Char → Nat

/-- `Tokenizer` (src/test_pangram.rs:198-203). The tracker is that of the signature, whose tokens
are texts. -/
structure Tokenizer (S : Sig) (T : Type) where
  regexes : List (Matcher × TokenClass T)
  location : S.L
  index : Nat
  remain : List Char

/-- `Tokenizer::new_with_location` (src/test_pangram.rs:212-234): the token types in their order,
then whitespace. -/
def Tokenizer.new {S : Sig} {T : Type} (all : List T) (regex : T → Matcher) (whitespace : Matcher)
    (location : S.L) (text : List Char) : Tokenizer S T where
  regexes := all.map (fun x => (regex x, .normal x)) ++ [(whitespace, .whitespace)]
  location := location
  index := 0
  remain := text

/-- The body of the loop over the expressions (src/test_pangram.rs:258-268). -/
def longerMatch {T : Type} (remain : List Char) (best : TokenClass T × Nat) (r : Matcher × TokenClass T) :
    TokenClass T × Nat :=
  if best.2 < r.1 remain then (r.2, r.1 remain) else best

/-- `Tokenizer::next` (src/test_pangram.rs:249-289). `spanningTo` and `advance` are those of the
tracker; the signature's tokens are texts, given by `conv`. -/
def Tokenizer.next {S : Sig} {T : Type} (conv : List Char → S.I) (t : Tokenizer S T) :
    Out (Option (Token S T) × Tokenizer S T) :=
  if t.remain.isEmpty then .ok (none, t)
  else
    let best := t.regexes.foldl (longerMatch t.remain) (.error, 0)
    let length := if best.2 = 0 then 1 else best.2
    match splitBytes t.remain length with
    | none => .panic "byte index is not a char boundary"
    | some (text, remain) =>
      let location := S.advance t.location (conv text)
      let index := t.index + 1
      .ok (some ⟨best.1, text, S.spanningTo t.location t.index location index⟩,
        { t with location := location, index := index, remain := remain })

/-- Running the iterator to its end (`collect`, as at src/test_pangram.rs:2209-2219), with a bound
on the number of steps. -/
def Tokenizer.collect {S : Sig} {T : Type} (conv : List Char → S.I) :
    Nat → Tokenizer S T → Out (List (Token S T))
  | 0, _ => .oof
  | n + 1, t => do
    match ← t.next conv with
    | (none, _) => .ok []
    | (some x, t) =>
      let xs ← t.collect conv n
      .ok (x :: xs)

/-- `TerminalToken` (src/test_pangram.rs:300-304). -/
structure TerminalToken (T Span : Type) where
  tokenType : T
  text : Option (List Char)
  span : Span

/-- `TerminalToken`'s `PartialEq` (src/test_pangram.rs:306-310). -/
def TerminalToken.eq {T Span : Type} [DecidableEq T] (a b : TerminalToken T Span) : Bool :=
  a.tokenType == b.tokenType

/-- `TerminalToken::new_pattern` (src/test_pangram.rs:330-339). -/
def TerminalToken.pattern {T Span : Type} (default : Span) (t : T) : TerminalToken T Span := ⟨t, none, default⟩

/-- `TokenizerError` (src/test_pangram.rs:166-169). -/
structure TokenizerError (Span : Type) where
  invalidChar : Char
  location : Span

/-- `Token::into_grammar_input` (src/test_pangram.rs:116-122). -/
def Token.intoGrammarInput {S : Sig} {T : Type} (x : Token S T) : Except (Token S T) (TerminalToken T S.Span) :=
  match x.cls.tokenType with
  | some t => .ok ⟨t, some x.text, x.span⟩
  | none => .error x

/-- `Token::into_error` (src/test_pangram.rs:126-135). -/
def Token.intoError {S : Sig} {T : Type} (x : Token S T) : Except (Token S T) (TokenizerError S.Span) :=
  if x.cls.isError then .ok ⟨x.text.head?.getD '?', x.span⟩ else .error x

/-- The `filter_map` that feeds the parser (src/test_pangram.rs:2210-2218, 2244-2252): the terminal
tokens, and the errors it pushes on the side. -/
def filterTokens {S : Sig} {T : Type} :
    List (Token S T) → List (TerminalToken T S.Span) × List (TokenizerError S.Span)
  | [] => ([], [])
  | x :: xs =>
    let r := filterTokens xs
    match x.intoGrammarInput with
    | .ok y => (y :: r.1, r.2)
    | .error x =>
      match x.intoError with
      | .ok e => (r.1, e :: r.2)
      | .error _ => r

end PPC
