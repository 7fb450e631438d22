import Verif.Tokenizer
import Verif.Pangram

/-!
# The regular expressions of the tokenizer (src/test_pangram.rs:485-508)

The code hands strings to the crate `regex`, which is not part of the repository. The model keeps
the strings as they are in the code, reads the part of the syntax that they use, and matches in the
way the documentation of the crate prescribes: leftmost-first, where earlier alternatives are
preferred to later ones and repetitions prefer to go on. As every expression is wrapped in
`^(?:...)` (line 217, 223), only matches at the start of the text count.
-/

namespace PPC

/-- Regular expressions. A set of characters is given by ranges, possibly complemented. -/
inductive Re : Type where
  | eps
  | set (neg : Bool) (ranges : List (Char × Char))
  | seq (a b : Re)
  | alt (a b : Re)
  | star (a : Re)
deriving DecidableEq, Repr

namespace Re

/-- `r?` prefers a match of `r`. -/
def opt (r : Re) : Re := .alt r .eps

/-- `r+`. -/
def plus (r : Re) : Re := .seq r (.star r)

/-- A single character. -/
def chr (c : Char) : Re := .set false [(c, c)]

/-- `.`: any character but the line feed. -/
def dot : Re := .set true [('\n', '\n')]

/-- A sequence of expressions. -/
def cat : List Re → Re
  | [] => .eps
  | [r] => r
  | r :: rs => .seq r (cat rs)

/-! ## Matching -/

/-- Whether a character is in a set. -/
def inSet (neg : Bool) (ranges : List (Char × Char)) (c : Char) : Bool :=
  (ranges.any fun r => decide (r.1 ≤ c ∧ c ≤ r.2)) != neg

/-- What can be left of the text after a repetition, in the order of preference; a repetition goes
on only after a match that is not empty. The number bounds the repetitions. -/
def starEnds (f : List Char → List (List Char)) : Nat → List Char → List (List Char)
  | 0, t => [t]
  | n + 1, t => ((f t).filter fun s => decide (s.length < t.length)).flatMap (starEnds f n) ++ [t]

/-- What can be left of the text after a match at its start, in the order of preference. -/
def ends : Re → List Char → List (List Char)
  | .eps, t => [t]
  | .set neg rs, t =>
    match t with
    | [] => []
    | c :: t => if inSet neg rs c then [t] else []
  | .seq a b, t => (ends a t).flatMap (ends b)
  | .alt a b, t => ends a t ++ ends b t
  | .star a, t => starEnds (ends a) t.length t

/-- `regex.captures(text).and_then(|x| x.get(0)).map(|x| x.as_str().len()).unwrap_or_default()`
(src/test_pangram.rs:261-265) for the expression `^(?:r)`: the length of the preferred match. -/
def matcher (r : Re) : Matcher := fun t =>
  match r.ends t with
  | [] => 0
  | s :: _ => bytes t - bytes s

/-! ## Syntax -/

/-- The symbols of an expression. -/
inductive Tok : Type where
  | opening
  | closing
  | bar
  | star
  | plus
  | opt
  | atom (r : Re)
deriving DecidableEq, Repr

/-- Splitting a string into symbols. Inside a set, `mode` has the ranges read so far. -/
def lex : Option (Bool × List (Char × Char)) → List Char → Option (List Tok)
  | none, [] => some []
  | some _, [] => none
  | some (neg, rs), ']' :: t => (lex none t).map (.atom (.set neg rs) :: ·)
  | some (neg, rs), '\\' :: c :: t => if c.isAlphanum then none else lex (some (neg, rs ++ [(c, c)])) t
  | some (neg, rs), a :: '-' :: b :: t =>
    if ['-', '[', '\\'].contains a || ['-', '[', ']', '\\'].contains b then none
    else lex (some (neg, rs ++ [(a, b)])) t
  | some (neg, rs), a :: t =>
    if ['-', '[', '\\'].contains a then none else lex (some (neg, rs ++ [(a, a)])) t
  | none, '(' :: '?' :: ':' :: t => (lex none t).map (.opening :: ·)
  | none, ')' :: t => (lex none t).map (.closing :: ·)
  | none, '|' :: t => (lex none t).map (.bar :: ·)
  | none, '*' :: t => (lex none t).map (.star :: ·)
  | none, '+' :: t => (lex none t).map (.plus :: ·)
  | none, '?' :: t => (lex none t).map (.opt :: ·)
  | none, '.' :: t => (lex none t).map (.atom dot :: ·)
  | none, '[' :: '^' :: t => lex (some (true, [])) t
  | none, '[' :: t => lex (some (false, [])) t
  | none, '\\' :: c :: t => if c.isAlphanum then none else (lex none t).map (.atom (chr c) :: ·)
  | none, c :: t =>
    if ['(', '{', '}', '^', '$', ']', '\\'].contains c then none else (lex none t).map (.atom (chr c) :: ·)

/-- An open group: the finished alternatives and the members of the current one, both backwards. -/
structure Group where
  alts : List Re
  items : List Re

/-- Alternatives, given backwards, before a last one. -/
def choose (last : Re) (before : List Re) : Re := before.foldl (fun r a => .alt a r) last

/-- The expression in a group. -/
def Group.close (g : Group) : Re := choose (cat g.items.reverse) g.alts

/-- Replacing the last member of a group. -/
def Group.change (f : Re → Re) (g : Group) : Option Group :=
  match g.items with
  | [] => none
  | r :: rs => some { g with items := f r :: rs }

/-- Reading symbols, with the innermost open group and the ones around it. -/
def read : Group → List Group → List Tok → Option Re
  | g, [], [] => some g.close
  | _, _ :: _, [] => none
  | g, gs, .opening :: t => read ⟨[], []⟩ (g :: gs) t
  | _, [], .closing :: _ => none
  | g, h :: gs, .closing :: t => read { h with items := g.close :: h.items } gs t
  | g, gs, .bar :: t => read ⟨cat g.items.reverse :: g.alts, []⟩ gs t
  | g, gs, .star :: t =>
    match g.change .star with
    | none => none
    | some g => read g gs t
  | g, gs, .plus :: t =>
    match g.change plus with
    | none => none
    | some g => read g gs t
  | g, gs, .opt :: t =>
    match g.change opt with
    | none => none
    | some g => read g gs t
  | g, gs, .atom r :: t => read { g with items := r :: g.items } gs t

/-- The expression that a string denotes; `none` if it is outside the modelled syntax. -/
def parse (s : String) : Option Re :=
  match lex none s.toList with
  | some ts => read ⟨[], []⟩ [] ts
  | none => none

/-- `Regex::new(..).unwrap()` (src/test_pangram.rs:217, 223). That the strings of the code are
expressions is `C48_regexes_compile`. -/
def compile (s : String) : Matcher :=
  match parse s with
  | some r => r.matcher
  | none => fun _ => 0

end Re

namespace Pangram

/-- `TokenType::regex` (src/test_pangram.rs:485-504). -/
def TokenType.regex : TokenType → String
  | .colEqEq => ":=="
  | .sem => ";"
  | .usc => "_"
  | .symbol => "(?:[a-z])(?:(?:[a-z0-9\\-])*)"
  | .bar => "\\|"
  | .colColEq => "::="
  | .minGt => "\\->"
  | .qst => "\\?"
  | .ast => "\\*"
  | .pls => "\\+"
  | .lp => "\\("
  | .rp => "\\)"
  | .stringLiteral => "(?:(?:')(?:(?:(?:[^'#])|(?:(?:#)(?:.)))+)(?:'))|(?:(?:\")(?:(?:(?:[^\"#])|(?:(?:#)(?:.)))+)(?:\"))"
  | .characterSet => "(?:\\[)(?:(?:\\^)?)(?:(?:(?:(?:(?:[^\\^\\-\\]#])|(?:(?:(?:#)(?:(?:[^xuU])|(?:(?:x)(?:(?:[0-9a-fA-F]))(?:(?:[0-9a-fA-F])))|(?:(?:u)(?:(?:[0-9a-fA-F]))(?:(?:[0-9a-fA-F]))(?:(?:[0-9a-fA-F]))(?:(?:[0-9a-fA-F])))|(?:(?:U)(?:(?:[0-9a-fA-F]))(?:(?:[0-9a-fA-F]))(?:(?:[0-9a-fA-F]))(?:(?:[0-9a-fA-F]))(?:(?:[0-9a-fA-F]))(?:(?:[0-9a-fA-F]))(?:(?:[0-9a-fA-F]))(?:(?:[0-9a-fA-F]))))))))(?:(?:(?:\\-)(?:(?:(?:[^\\^\\-\\]#])|(?:(?:(?:#)(?:(?:[^xuU])|(?:(?:x)(?:(?:[0-9a-fA-F]))(?:(?:[0-9a-fA-F])))|(?:(?:u)(?:(?:[0-9a-fA-F]))(?:(?:[0-9a-fA-F]))(?:(?:[0-9a-fA-F]))(?:(?:[0-9a-fA-F])))|(?:(?:U)(?:(?:[0-9a-fA-F]))(?:(?:[0-9a-fA-F]))(?:(?:[0-9a-fA-F]))(?:(?:[0-9a-fA-F]))(?:(?:[0-9a-fA-F]))(?:(?:[0-9a-fA-F]))(?:(?:[0-9a-fA-F]))(?:(?:[0-9a-fA-F])))))))))?))*)(?:\\])"
  | .characterLiteral => "(?:(?:#)(?:(?:[^xuU])|(?:(?:x)(?:(?:[0-9a-fA-F]))(?:(?:[0-9a-fA-F])))|(?:(?:u)(?:(?:[0-9a-fA-F]))(?:(?:[0-9a-fA-F]))(?:(?:[0-9a-fA-F]))(?:(?:[0-9a-fA-F])))|(?:(?:U)(?:(?:[0-9a-fA-F]))(?:(?:[0-9a-fA-F]))(?:(?:[0-9a-fA-F]))(?:(?:[0-9a-fA-F]))(?:(?:[0-9a-fA-F]))(?:(?:[0-9a-fA-F]))(?:(?:[0-9a-fA-F]))(?:(?:[0-9a-fA-F])))))"
  | .doc => "(?:/\\*\\*)(?:(?:(?:(?:(?:[^\\*])|(?:(?:(?:\\*)+)(?:[^\\*/])))*)(?:(?:\\*)*)))(?:\\*/)"

/-- `TokenType::whitespace` (src/test_pangram.rs:506-508). -/
def TokenType.whitespace : String :=
  "(?:(?:/\\*)(?:(?:(?:[^\\*])(?:(?:(?:(?:(?:[^\\*])|(?:(?:(?:\\*)+)(?:[^\\*/])))*)(?:(?:\\*)*))))?)(?:\\*/))|(?:(?:[ \t\n\r])+)"

/-- `tokenize_from` (src/test_pangram.rs:523-528); `tokenize` (518-520) starts from the default
location. -/
def tokenizeFrom {S : Sig} (location : S.L) (text : List Char) : Tokenizer S TokenType :=
  .new TokenType.all (fun k => Re.compile k.regex) (Re.compile TokenType.whitespace) location text

end Pangram

end PPC
