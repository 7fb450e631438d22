import Verif.Regex
import Verif.SpecPangram
import Verif.SpecLexer
import Verif.Api

/-!
# From the text of a grammar file to its tree

What `test_self_spec` and `test_simple` do (src/test_pangram.rs:2207-2273), for any text.
-/

namespace PPC.Pangram

/-- The tokenizer runs to its end, the whitespace and the errors are filtered out, and the parser for
whole grammars runs on what is left (src/test_pangram.rs:2209-2221, 2243-2255). The result has the
errors of the tokenizer and the result of the parser. `n` bounds the steps of the tokenizer, and `m`
the depth of the parser. The tracker of the tokenizer and its start are parameters. -/
def parseText {S : Sig} (conv : List Char → S.I) (d : S.Span) (al : Alloc) (n m : Nat) (loc : S.L)
    (text : List Char) :
    Out (List (TokenizerError S.Span) × Res (PtGrammar S.Span) (simpleErr (tokSig S.Span)).E) := do
  let xs ← (tokenizeFrom loc text).collect conv n
  let r ← parseWithRecovery ((parser .grammar).prog (defs (.default d)) m) al (fun i => (filterTokens xs).1[i]?) ()
  .ok ((filterTokens xs).2, r)

/-! ## Trees without spans (specification of C49) -/

variable {Sp : Type}

/-- The type and the text of a token, without its place. -/
def TokenData.erase (d : TokenData Sp) : TokenData Unit := ⟨⟨d.token.tokenType, d.token.text, ()⟩, 0⟩

def Pt.erase {k : TokenType} (x : Pt k Sp) : Pt k Unit := ⟨x.data.map TokenData.erase⟩

mutual

def PtAlternation.erase : PtAlternation Sp → PtAlternation Unit
  | .mk c bs => .mk c.erase (barsErase bs)

def barsErase : List (Pt .bar Sp × PtConcatenation Sp) → List (Pt .bar Unit × PtConcatenation Unit)
  | [] => []
  | (b, c) :: bs => (b.erase, c.erase) :: barsErase bs

def PtConcatenation.erase : PtConcatenation Sp → PtConcatenation Unit
  | .mk rs => .mk (repsErase rs)

def repsErase : List (PtRepetition Sp) → List (PtRepetition Unit)
  | [] => []
  | r :: rs => r.erase :: repsErase rs

def PtRepetition.erase : PtRepetition Sp → PtRepetition Unit
  | .error => .error
  | .maybe s q => .maybe s.erase q.erase
  | .any s q => .any s.erase q.erase
  | .many s q => .many s.erase q.erase
  | .one s => .one s.erase

def PtSingular.erase : PtSingular Sp → PtSingular Unit
  | .error => .error
  | .nested l a r => .nested l.erase a.erase r.erase
  | .symbol x => .symbol x.erase
  | .stringLiteral x => .stringLiteral x.erase
  | .characterSet x => .characterSet x.erase
  | .characterLiteral x => .characterLiteral x.erase

end

def PtAlterName.erase (x : PtAlterName Sp) : PtAlterName Unit := ⟨x.x1.erase, x.x2.erase⟩

def PtFirstAlter.erase (x : PtFirstAlter Sp) : PtFirstAlter Unit :=
  ⟨x.x1.map Pt.erase, x.x2.erase, x.x3.erase, x.x4.map PtAlterName.erase⟩

def PtSubseqAlter.erase (x : PtSubseqAlter Sp) : PtSubseqAlter Unit :=
  ⟨x.x1.map Pt.erase, x.x2.erase, x.x3.erase, x.x4.map PtAlterName.erase⟩

def PtRule.erase : PtRule Sp → PtRule Unit
  | .error => .error
  | .tokenRule d s c a m => .tokenRule (d.map Pt.erase) s.erase c.erase a.erase m.erase
  | .whitespaceRule d u c a m => .whitespaceRule (d.map Pt.erase) u.erase c.erase a.erase m.erase
  | .grammarRule d s f as m => .grammarRule (d.map Pt.erase) s.erase f.erase (as.map PtSubseqAlter.erase) m.erase

/-- The tree with the types and the texts of its tokens, without their places. -/
def PtGrammar.erase (x : PtGrammar Sp) : PtGrammar Unit := ⟨x.x1.map PtRule.erase⟩

/-- The text of a token of a tree. -/
def TokenData.chars (d : TokenData Sp) : List Char := d.token.text.getD []

/-- The tree as a text: its tokens, with a blank after each one. -/
def PtGrammar.print (x : PtGrammar Sp) : List Char := x.leaves.flatMap fun d => d.chars ++ [' ']

/-- The texts of the tokens are there, and are words of their types. -/
def PtGrammar.Words (x : PtGrammar Sp) : Prop :=
  ∀ d ∈ x.leaves, ∃ w, d.token.text = some w ∧ Word (.normal d.token.tokenType) w

end PPC.Pangram
