import Verif.Builder
import Verif.Error
import Verif.Location
import Verif.Tokenizer

/-!
# The parser of grammar files (src/test_pangram.rs)

The parse tree and the nine recursive parsers that `make_parsers` builds. `Box` is
not modelled. `Sp` is the type of the spans of the tokens, the parameter `S` of the code.
-/

namespace PPC.Pangram

open PPC

/-- `TokenType` (src/test_pangram.rs:405-459) -/
inductive TokenType : Type where
  | colEqEq | sem | usc | symbol | bar | colColEq | minGt | qst | ast | pls | lp | rp
  | stringLiteral | characterSet | characterLiteral | doc
deriving DecidableEq, Repr

/-- `TokenType::all` (src/test_pangram.rs:464-483) -/
def TokenType.all : List TokenType :=
  [.colEqEq, .sem, .usc, .symbol, .bar, .colColEq, .minGt, .qst, .ast, .pls, .lp, .rp,
    .stringLiteral, .characterSet, .characterLiteral, .doc]

/-! ## The parse tree -/

/-- `TokenData` (src/test_pangram.rs:534-539). The reference to the token is modelled by the token. -/
structure TokenData (Sp : Type) where
  token : TerminalToken TokenType Sp
  index : Nat

/-- The types of terminal nodes, `PtColEqEq` to `PtDoc` (src/test_pangram.rs:589-1064): they have the
same contents, and are told apart by the type of token that they are for. -/
structure Pt (k : TokenType) (Sp : Type) where
  data : Option (TokenData Sp)

/-- `PtColEqEq::new` to `PtDoc::new` (src/test_pangram.rs:595-608 and the like). The assertion on the
type of the token is left out here, see `Pt.Asserts`. -/
def Pt.new (k : TokenType) {Sp : Type} (token : TerminalToken TokenType Sp) (span : Nat × Nat) : Pt k Sp :=
  ⟨some ⟨token, span.1⟩⟩

/-- The assertion in `PtColEqEq::new` to `PtDoc::new` (src/test_pangram.rs:600 and the like). -/
def Pt.Asserts (k : TokenType) {Sp : Type} (token : TerminalToken TokenType Sp) : Prop := token.tokenType = k

variable (Sp : Type)

mutual

/-- `PtAlternation` (src/test_pangram.rs:1301-1304) -/
inductive PtAlternation : Type where
  | mk (x1 : PtConcatenation) (x2 : List (Pt .bar Sp × PtConcatenation))

/-- `PtConcatenation` (src/test_pangram.rs:1513) -/
inductive PtConcatenation : Type where
  | mk (x1 : List PtRepetition)

/-- `PtRepetition` (src/test_pangram.rs:1552-1570) -/
inductive PtRepetition : Type where
  | error
  | maybe (x1 : PtSingular) (x2 : Pt .qst Sp)
  | any (x1 : PtSingular) (x2 : Pt .ast Sp)
  | many (x1 : PtSingular) (x2 : Pt .pls Sp)
  | one (x1 : PtSingular)

/-- `PtSingular` (src/test_pangram.rs:1644-1657) -/
inductive PtSingular : Type where
  | error
  | nested (x1 : Pt .lp Sp) (x2 : PtAlternation) (x3 : Pt .rp Sp)
  | symbol (x1 : Pt .symbol Sp)
  | stringLiteral (x1 : Pt .stringLiteral Sp)
  | characterSet (x1 : Pt .characterSet Sp)
  | characterLiteral (x1 : Pt .characterLiteral Sp)

end

/-- `PtAlterName` (src/test_pangram.rs:1474) -/
structure PtAlterName where
  x1 : Pt .minGt Sp
  x2 : Pt .symbol Sp

/-- `PtFirstAlter` (src/test_pangram.rs:1353-1358) -/
structure PtFirstAlter where
  x1 : Option (Pt .doc Sp)
  x2 : Pt .colColEq Sp
  x3 : PtConcatenation Sp
  x4 : Option (PtAlterName Sp)

/-- `PtSubseqAlter` (src/test_pangram.rs:1412-1417) -/
structure PtSubseqAlter where
  x1 : Option (Pt .doc Sp)
  x2 : Pt .bar Sp
  x3 : PtConcatenation Sp
  x4 : Option (PtAlterName Sp)

/-- `PtRule` (src/test_pangram.rs:1133-1199) -/
inductive PtRule : Type where
  | error
  | tokenRule (x1 : Option (Pt .doc Sp)) (x2 : Pt .symbol Sp) (x3 : Pt .colEqEq Sp)
      (x4 : PtAlternation Sp) (x5 : Pt .sem Sp)
  | whitespaceRule (x1 : Option (Pt .doc Sp)) (x2 : Pt .usc Sp) (x3 : Pt .colEqEq Sp)
      (x4 : PtAlternation Sp) (x5 : Pt .sem Sp)
  | grammarRule (x1 : Option (Pt .doc Sp)) (x2 : Pt .symbol Sp) (x3 : PtFirstAlter Sp)
      (x4 : List (PtSubseqAlter Sp)) (x5 : Pt .sem Sp)

/-- `PtGrammar` (src/test_pangram.rs:1093) -/
structure PtGrammar where
  x1 : List (PtRule Sp)

/-! ## The parsers -/

/-- The nine recursive parsers (src/test_pangram.rs:1746-1754). -/
inductive NT : Type where
  | grammar | rule | alternation | firstAlter | subseqAlter | alterName | concatenation | repetition | singular
deriving DecidableEq

/-- What each of them returns (src/test_pangram.rs:1735-1745). -/
@[reducible] def NT.out : NT → Type
  | .grammar => PtGrammar Sp
  | .rule => PtRule Sp
  | .alternation => PtAlternation Sp
  | .firstAlter => PtFirstAlter Sp
  | .subseqAlter => PtSubseqAlter Sp
  | .alterName => PtAlterName Sp
  | .concatenation => PtConcatenation Sp
  | .repetition => PtRepetition Sp
  | .singular => PtSingular Sp

/-- The input of the parsers: terminal tokens, compared by type, without a location tracker of their
own (src/test_pangram.rs:306-310, 530-532). -/
@[reducible] def tokSig : Sig := simpleSig (TerminalToken TokenType Sp) TerminalToken.eq

@[reducible] def names : Names (tokSig Sp) := ⟨NT, NT.out Sp, fun _ => simpleErr (tokSig Sp)⟩

/-- `BoxedParser` (src/test_pangram.rs:531-532), and the parsers that it is built from. -/
abbrev P (α : Type) : Type 1 := G (tokSig Sp) (names Sp) (simpleErr (tokSig Sp)) α

/-- `TerminalPatterns` (src/test_pangram.rs:543-560) -/
structure TerminalPatterns where
  pattern : TokenType → TerminalToken TokenType Sp

variable {Sp}

/-- `TerminalPatterns::default` (src/test_pangram.rs:562-587); `d` is `S::default()`. -/
def TerminalPatterns.default (d : Sp) : TerminalPatterns Sp := ⟨fun k => TerminalToken.pattern d k⟩

variable (patterns : TerminalPatterns Sp)

/-- `one_of(&patterns.X).map_with_span(PtX::new).boxed()` (src/test_pangram.rs:1768-1770 and the like) -/
def terminal (k : TokenType) : P Sp (Pt k Sp) :=
  .boxed (.mapWithSpan (Pt.new k) (Build.oneOf (patterns.pattern k)))

/-- `x.map(Some).or(empty().map(|_| None)).boxed()` (src/test_pangram.rs:1771-1773 and the like) -/
def optional {α : Type} (x : P Sp α) : P Sp (Option α) :=
  .boxed (.or (.map Option.some x) (.map (fun _ => Option.none) .empty))

/-- `parse_Rule` and the others, where they are used: `parse_X.clone().map(Box::new)`, without the box
(src/test_pangram.rs:1757-1759 and the like). -/
def ref (k : NT) : P Sp (NT.out Sp k) := .map id (.call (N := names Sp) k)

/-- `|((((x1, x2), x3), x4), x5)| (x1, x2, x3, x4, x5)` (src/test_pangram.rs:1786 and the like) -/
def group5 {α β γ δ ε : Type} (x : (((α × β) × γ) × δ) × ε) : α × β × γ × δ × ε :=
  (x.1.1.1.1, x.1.1.1.2, x.1.1.2, x.1.2, x.2)

/-- `|(((x1, x2), x3), x4)| (x1, x2, x3, x4)` (src/test_pangram.rs:1866 and the like) -/
def group4 {α β γ δ : Type} (x : ((α × β) × γ) × δ) : α × β × γ × δ := (x.1.1.1, x.1.1.2, x.1.2, x.2)

/-- `|((x1, x2), x3)| (x1, x2, x3)` (src/test_pangram.rs:1957) -/
def group3 {α β γ : Type} (x : (α × β) × γ) : α × β × γ := (x.1.1, x.1.2, x.2)

/-- `|(x1, x2)| (x1, x2)` (src/test_pangram.rs:1837 and the like) -/
def group2 {α β : Type} (x : α × β) : α × β := (x.1, x.2)

/-- The definition of `parse_Grammar` (src/test_pangram.rs:1756-1765) -/
def grammarDef : P Sp (PtGrammar Sp) :=
  .boxed (.map (fun x => ⟨x⟩) (.boxed (((ref .rule).repeatedWith.atLeast 1).parser)))

/-- The first alternative of `parse_Rule` (src/test_pangram.rs:1768-1788) -/
def tokenRuleDef : P Sp (PtRule Sp) :=
  .map (fun x => .tokenRule x.1 x.2.1 x.2.2.1 x.2.2.2.1 x.2.2.2.2) (.boxed (.map group5
    (.then_ (.then_ (.then_ (.then_ (optional (terminal patterns .doc)) (terminal patterns .symbol))
      (terminal patterns .colEqEq)) (ref .alternation)) (terminal patterns .sem))))

/-- The second alternative of `parse_Rule` (src/test_pangram.rs:1789-1804) -/
def whitespaceRuleDef : P Sp (PtRule Sp) :=
  .map (fun x => .whitespaceRule x.1 x.2.1 x.2.2.1 x.2.2.2.1 x.2.2.2.2) (.boxed (.map group5
    (.then_ (.then_ (.then_ (.then_ (optional (terminal patterns .doc)) (terminal patterns .usc))
      (terminal patterns .colEqEq)) (ref .alternation)) (terminal patterns .sem))))

/-- The third alternative of `parse_Rule` (src/test_pangram.rs:1805-1822) -/
def grammarRuleDef : P Sp (PtRule Sp) :=
  .map (fun x => .grammarRule x.1 x.2.1 x.2.2.1 x.2.2.2.1 x.2.2.2.2) (.boxed (.map group5
    (.then_ (.then_ (.then_ (.then_ (optional (terminal patterns .doc)) (terminal patterns .symbol))
      (ref .firstAlter)) (.boxed (ref .subseqAlter).repeatedWith.parser)) (terminal patterns .sem))))

/-- The definition of `parse_Rule` (src/test_pangram.rs:1767-1824) -/
def ruleDef : P Sp (PtRule Sp) :=
  .boxed (.or (.or (tokenRuleDef patterns) (whitespaceRuleDef patterns)) (grammarRuleDef patterns))

/-- The definition of `parse_Alternation` (src/test_pangram.rs:1826-1844) -/
def alternationDef : P Sp (PtAlternation Sp) :=
  .boxed (.map (fun x => .mk x.1 x.2) (.boxed (.map group2 (.then_ (ref .concatenation)
    (.boxed (G.repeatedWith (.boxed (.map group2 (.then_ (terminal patterns .bar) (ref .concatenation))))).parser)))))

/-- The definition of `parse_FirstAlter` (src/test_pangram.rs:1846-1871) -/
def firstAlterDef : P Sp (PtFirstAlter Sp) :=
  .boxed (.map (fun x => ⟨x.1, x.2.1, x.2.2.1, x.2.2.2⟩) (.boxed (.map group4
    (.then_ (.then_ (.then_ (optional (terminal patterns .doc)) (terminal patterns .colColEq))
      (ref .concatenation)) (optional (ref .alterName))))))

/-- The definition of `parse_SubseqAlter` (src/test_pangram.rs:1873-1894) -/
def subseqAlterDef : P Sp (PtSubseqAlter Sp) :=
  .boxed (.map (fun x => ⟨x.1, x.2.1, x.2.2.1, x.2.2.2⟩) (.boxed (.map group4
    (.then_ (.then_ (.then_ (optional (terminal patterns .doc)) (terminal patterns .bar))
      (ref .concatenation)) (optional (ref .alterName))))))

/-- The definition of `parse_AlterName` (src/test_pangram.rs:1896-1909) -/
def alterNameDef : P Sp (PtAlterName Sp) :=
  .boxed (.map (fun x => ⟨x.1, x.2⟩) (.boxed (.map group2
    (.then_ (terminal patterns .minGt) (terminal patterns .symbol)))))

/-- The definition of `parse_Concatenation` (src/test_pangram.rs:1911-1920) -/
def concatenationDef : P Sp (PtConcatenation Sp) :=
  .boxed (.map (fun x => .mk x) (.boxed (((ref .repetition).repeatedWith.atLeast 1).parser)))

/-- The first three alternatives of `parse_Repetition` (src/test_pangram.rs:1923-1943) -/
def suffixedDef (k : TokenType) (f : PtSingular Sp → Pt k Sp → PtRepetition Sp) : P Sp (PtRepetition Sp) :=
  .map (fun x => f x.1 x.2) (.boxed (.map group2 (.then_ (ref .singular) (terminal patterns k))))

/-- The definition of `parse_Repetition` (src/test_pangram.rs:1922-1949) -/
def repetitionDef : P Sp (PtRepetition Sp) :=
  .boxed (.or (.or (.or (suffixedDef patterns .qst .maybe) (suffixedDef patterns .ast .any))
    (suffixedDef patterns .pls .many)) (.map .one (ref .singular)))

/-- The first alternative of `parse_Singular` (src/test_pangram.rs:1952-1959) -/
def nestedDef : P Sp (PtSingular Sp) :=
  .map (fun x => .nested x.1 x.2.1 x.2.2) (.boxed (.map group3
    (.then_ (.then_ (terminal patterns .lp) (ref .alternation)) (terminal patterns .rp))))

/-- The definition of `parse_Singular` (src/test_pangram.rs:1951-1977) -/
def singularDef : P Sp (PtSingular Sp) :=
  .boxed (.or (.or (.or (.or (nestedDef patterns) (.map .symbol (terminal patterns .symbol)))
    (.map .stringLiteral (terminal patterns .stringLiteral)))
    (.map .characterSet (terminal patterns .characterSet)))
    (.map .characterLiteral (terminal patterns .characterLiteral)))

/-- The definitions of the recursive parsers (src/test_pangram.rs:1756-1977) -/
def defs : Defs (tokSig Sp) (names Sp)
  | .grammar => some grammarDef
  | .rule => some (ruleDef patterns)
  | .alternation => some (alternationDef patterns)
  | .firstAlter => some (firstAlterDef patterns)
  | .subseqAlter => some (subseqAlterDef patterns)
  | .alterName => some (alterNameDef patterns)
  | .concatenation => some concatenationDef
  | .repetition => some (repetitionDef patterns)
  | .singular => some (singularDef patterns)

/-- The result of `make_parsers` (src/test_pangram.rs:1979-1989), `PtGrammar::parser` and so on
(src/test_pangram.rs:1097-1099 and the like). -/
def parser (k : NT) : P Sp (NT.out Sp k) := .boxed (.thenIgnore (.call (N := names Sp) k) .eof)

end PPC.Pangram
