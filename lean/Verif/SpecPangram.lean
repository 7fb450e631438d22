import Verif.Pangram
import Verif.Cursor

/-!
# Parse trees and their tokens (specification of C45 and C46)

`leaves` lists the tokens of a parse tree from left to right, each with the index that the tree
stores for it. A tree is `Complete` if it is made by the rules of the grammar notation: the types of
its terminal nodes are those of their tokens, there are no error nodes, and there is at least one
element where the notation asks for one or more.
-/

namespace PPC.Pangram

open PPC

variable {Sp : Type}

/-! ## The tokens of a tree -/

def Pt.leaves {k : TokenType} (x : Pt k Sp) : List (TokenData Sp) := x.data.toList

/-- The tokens of an optional part. -/
def optLeaves {α : Type} (f : α → List (TokenData Sp)) : Option α → List (TokenData Sp)
  | none => []
  | some x => f x

/-- The tokens of parts in a row. -/
def rowLeaves {α : Type} (f : α → List (TokenData Sp)) : List α → List (TokenData Sp)
  | [] => []
  | x :: xs => f x ++ rowLeaves f xs

mutual

def PtAlternation.leaves : PtAlternation Sp → List (TokenData Sp)
  | .mk c bs => c.leaves ++ barsLeaves bs

def barsLeaves : List (Pt .bar Sp × PtConcatenation Sp) → List (TokenData Sp)
  | [] => []
  | (b, c) :: bs => b.leaves ++ c.leaves ++ barsLeaves bs

def PtConcatenation.leaves : PtConcatenation Sp → List (TokenData Sp)
  | .mk rs => repsLeaves rs

def repsLeaves : List (PtRepetition Sp) → List (TokenData Sp)
  | [] => []
  | r :: rs => r.leaves ++ repsLeaves rs

def PtRepetition.leaves : PtRepetition Sp → List (TokenData Sp)
  | .error => []
  | .maybe s q => s.leaves ++ q.leaves
  | .any s q => s.leaves ++ q.leaves
  | .many s q => s.leaves ++ q.leaves
  | .one s => s.leaves

def PtSingular.leaves : PtSingular Sp → List (TokenData Sp)
  | .error => []
  | .nested l a r => l.leaves ++ a.leaves ++ r.leaves
  | .symbol x => x.leaves
  | .stringLiteral x => x.leaves
  | .characterSet x => x.leaves
  | .characterLiteral x => x.leaves

end

def PtAlterName.leaves (x : PtAlterName Sp) : List (TokenData Sp) := x.x1.leaves ++ x.x2.leaves

def PtFirstAlter.leaves (x : PtFirstAlter Sp) : List (TokenData Sp) :=
  optLeaves Pt.leaves x.x1 ++ x.x2.leaves ++ x.x3.leaves ++ optLeaves PtAlterName.leaves x.x4

def PtSubseqAlter.leaves (x : PtSubseqAlter Sp) : List (TokenData Sp) :=
  optLeaves Pt.leaves x.x1 ++ x.x2.leaves ++ x.x3.leaves ++ optLeaves PtAlterName.leaves x.x4

def PtRule.leaves : PtRule Sp → List (TokenData Sp)
  | .error => []
  | .tokenRule d s c a m => optLeaves Pt.leaves d ++ s.leaves ++ c.leaves ++ a.leaves ++ m.leaves
  | .whitespaceRule d u c a m => optLeaves Pt.leaves d ++ u.leaves ++ c.leaves ++ a.leaves ++ m.leaves
  | .grammarRule d s f as m =>
    optLeaves Pt.leaves d ++ s.leaves ++ f.leaves ++ rowLeaves PtSubseqAlter.leaves as ++ m.leaves

def PtGrammar.leaves (x : PtGrammar Sp) : List (TokenData Sp) := rowLeaves PtRule.leaves x.x1

/-- The tokens of a tree, from left to right, for every kind of tree. -/
def leaves : {k : NT} → NT.out Sp k → List (TokenData Sp)
  | .grammar => PtGrammar.leaves
  | .rule => PtRule.leaves
  | .alternation => PtAlternation.leaves
  | .firstAlter => PtFirstAlter.leaves
  | .subseqAlter => PtSubseqAlter.leaves
  | .alterName => PtAlterName.leaves
  | .concatenation => PtConcatenation.leaves
  | .repetition => PtRepetition.leaves
  | .singular => PtSingular.leaves

/-! ## Complete trees -/

/-- The node has a token of its type. -/
def Pt.Complete {k : TokenType} (x : Pt k Sp) : Prop := ∃ d, x.data = some d ∧ d.token.tokenType = k

/-- The part is absent or complete. -/
def OptComplete {α : Type} (p : α → Prop) (x : Option α) : Prop := ∀ y, x = some y → p y

mutual

inductive PtAlternation.Complete : PtAlternation Sp → Prop
  | mk {c : PtConcatenation Sp} {bs : List (Pt .bar Sp × PtConcatenation Sp)} : c.Complete →
      BarsComplete bs → PtAlternation.Complete (.mk c bs)

inductive BarsComplete : List (Pt .bar Sp × PtConcatenation Sp) → Prop
  | nil : BarsComplete []
  | cons {b : Pt .bar Sp} {c : PtConcatenation Sp} {bs : List (Pt .bar Sp × PtConcatenation Sp)} :
      b.Complete → c.Complete → BarsComplete bs → BarsComplete ((b, c) :: bs)

inductive PtConcatenation.Complete : PtConcatenation Sp → Prop
  | mk {rs : List (PtRepetition Sp)} : rs ≠ [] → RepsComplete rs → PtConcatenation.Complete (.mk rs)

inductive RepsComplete : List (PtRepetition Sp) → Prop
  | nil : RepsComplete []
  | cons {r : PtRepetition Sp} {rs : List (PtRepetition Sp)} : r.Complete → RepsComplete rs →
      RepsComplete (r :: rs)

inductive PtRepetition.Complete : PtRepetition Sp → Prop
  | maybe {s : PtSingular Sp} {q : Pt .qst Sp} : s.Complete → q.Complete → PtRepetition.Complete (.maybe s q)
  | any {s : PtSingular Sp} {q : Pt .ast Sp} : s.Complete → q.Complete → PtRepetition.Complete (.any s q)
  | many {s : PtSingular Sp} {q : Pt .pls Sp} : s.Complete → q.Complete → PtRepetition.Complete (.many s q)
  | one {s : PtSingular Sp} : s.Complete → PtRepetition.Complete (.one s)

inductive PtSingular.Complete : PtSingular Sp → Prop
  | nested {l : Pt .lp Sp} {a : PtAlternation Sp} {r : Pt .rp Sp} : l.Complete → a.Complete →
      r.Complete → PtSingular.Complete (.nested l a r)
  | symbol {x : Pt .symbol Sp} : x.Complete → PtSingular.Complete (.symbol x)
  | stringLiteral {x : Pt .stringLiteral Sp} : x.Complete → PtSingular.Complete (.stringLiteral x)
  | characterSet {x : Pt .characterSet Sp} : x.Complete → PtSingular.Complete (.characterSet x)
  | characterLiteral {x : Pt .characterLiteral Sp} : x.Complete → PtSingular.Complete (.characterLiteral x)

end

def PtAlterName.Complete (x : PtAlterName Sp) : Prop := x.x1.Complete ∧ x.x2.Complete

def PtFirstAlter.Complete (x : PtFirstAlter Sp) : Prop :=
  OptComplete Pt.Complete x.x1 ∧ x.x2.Complete ∧ x.x3.Complete ∧ OptComplete PtAlterName.Complete x.x4

def PtSubseqAlter.Complete (x : PtSubseqAlter Sp) : Prop :=
  OptComplete Pt.Complete x.x1 ∧ x.x2.Complete ∧ x.x3.Complete ∧ OptComplete PtAlterName.Complete x.x4

inductive PtRule.Complete : PtRule Sp → Prop
  | tokenRule {d : Option (Pt .doc Sp)} {s : Pt .symbol Sp} {c : Pt .colEqEq Sp} {a : PtAlternation Sp}
      {m : Pt .sem Sp} : OptComplete Pt.Complete d → s.Complete → c.Complete → a.Complete → m.Complete →
      PtRule.Complete (.tokenRule d s c a m)
  | whitespaceRule {d : Option (Pt .doc Sp)} {u : Pt .usc Sp} {c : Pt .colEqEq Sp} {a : PtAlternation Sp}
      {m : Pt .sem Sp} : OptComplete Pt.Complete d → u.Complete → c.Complete → a.Complete → m.Complete →
      PtRule.Complete (.whitespaceRule d u c a m)
  | grammarRule {d : Option (Pt .doc Sp)} {s : Pt .symbol Sp} {f : PtFirstAlter Sp}
      {as : List (PtSubseqAlter Sp)} {m : Pt .sem Sp} : OptComplete Pt.Complete d → s.Complete →
      f.Complete → (∀ a ∈ as, a.Complete) → m.Complete → PtRule.Complete (.grammarRule d s f as m)

def PtGrammar.Complete (x : PtGrammar Sp) : Prop := x.x1 ≠ [] ∧ ∀ r ∈ x.x1, r.Complete

/-- The tree is made by the rules of the notation, for every kind of tree. -/
def Complete : {k : NT} → NT.out Sp k → Prop
  | .grammar => PtGrammar.Complete
  | .rule => PtRule.Complete
  | .alternation => PtAlternation.Complete
  | .firstAlter => PtFirstAlter.Complete
  | .subseqAlter => PtSubseqAlter.Complete
  | .alterName => PtAlterName.Complete
  | .concatenation => PtConcatenation.Complete
  | .repetition => PtRepetition.Complete
  | .singular => PtSingular.Complete

/-! ## Tokens in the input -/

/-- The tokens are the input from position `i` to `j`, and their indices are their positions. -/
def Reads (e : Env (tokSig Sp)) : Nat → List (TokenData Sp) → Nat → Prop
  | i, [], j => j = i
  | i, d :: ds, j => e.source i = some d.token ∧ d.index = i ∧ Reads e (i + 1) ds j

/-- The tokens of an input, each with its position, counted from `i`. -/
def numbered (i : Nat) : List (TerminalToken TokenType Sp) → List (TokenData Sp)
  | [] => []
  | t :: ts => ⟨t, i⟩ :: numbered (i + 1) ts

/-- The source that yields the tokens of the list. -/
def tokEnv (ts : List (TerminalToken TokenType Sp)) : Env (tokSig Sp) := ⟨fun i => ts[i]?, ()⟩

/-! ## What comes next -/

/-- The next token has type `x`. -/
def Next (e : Env (tokSig Sp)) (i : Nat) (x : TokenType) : Prop := ∃ t, e.source i = some t ∧ t.tokenType = x

/-- The next token, if there is one, has none of the types. -/
def Free (e : Env (tokSig Sp)) (i : Nat) (l : List TokenType) : Prop := ∀ x ∈ l, ¬ Next e i x

/-- What a repetition can end with. -/
def suffixes : List TokenType := [.qst, .ast, .pls]

/-- What an expression starts with. -/
def starts : List TokenType := [.lp, .symbol, .stringLiteral, .characterSet, .characterLiteral]

/-- What could belong to an alternative of a rule if it came next. -/
def afterAlter : List TokenType := suffixes ++ starts ++ [.minGt]

/-- What could belong to the tree if it came next. -/
def continues : NT → List TokenType
  | .grammar => [.doc, .symbol, .usc]
  | .alternation => suffixes ++ starts ++ [.bar]
  | .firstAlter | .subseqAlter => afterAlter
  | .concatenation => suffixes ++ starts
  | .repetition => suffixes
  | .rule | .alterName | .singular => []

end PPC.Pangram
