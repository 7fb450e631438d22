import Verif.Visitor
import Verif.SpecPangram

/-!
# The order in which trees are visited (specification of C46)
-/

namespace PPC.Pangram

open PPC

variable {Sp V E : Type}

/-! ## Trees -/

/-- A part of a node: a terminal or a nonterminal node. -/
inductive Part (Sp : Type) : Type where
  | token (k : TokenType) (x : Pt k Sp)
  | node (k : NT) (x : NT.out Sp k)

/-- The part, if it is there. -/
def optPart {α : Type} (f : α → Part Sp) : Option α → List (Part Sp)
  | none => []
  | some x => [f x]

/-- The parts of a node, from left to right. -/
def parts : {k : NT} → NT.out Sp k → List (Part Sp)
  | .grammar, x => x.x1.map (.node .rule)
  | .rule, .error => []
  | .rule, .tokenRule x1 x2 x3 x4 x5 =>
    optPart (.token .doc) x1 ++ [.token .symbol x2, .token .colEqEq x3, .node .alternation x4, .token .sem x5]
  | .rule, .whitespaceRule x1 x2 x3 x4 x5 =>
    optPart (.token .doc) x1 ++ [.token .usc x2, .token .colEqEq x3, .node .alternation x4, .token .sem x5]
  | .rule, .grammarRule x1 x2 x3 x4 x5 =>
    optPart (.token .doc) x1 ++ [.token .symbol x2, .node .firstAlter x3] ++ x4.map (.node .subseqAlter) ++ [.token .sem x5]
  | .alternation, .mk c bs => .node .concatenation c :: bs.flatMap fun p => [.token .bar p.1, .node .concatenation p.2]
  | .firstAlter, x =>
    optPart (.token .doc) x.x1 ++ [.token .colColEq x.x2, .node .concatenation x.x3] ++ optPart (.node .alterName) x.x4
  | .subseqAlter, x =>
    optPart (.token .doc) x.x1 ++ [.token .bar x.x2, .node .concatenation x.x3] ++ optPart (.node .alterName) x.x4
  | .alterName, x => [.token .minGt x.x1, .token .symbol x.x2]
  | .concatenation, .mk rs => rs.map (.node .repetition)
  | .repetition, .error => []
  | .repetition, .maybe s q => [.node .singular s, .token .qst q]
  | .repetition, .any s q => [.node .singular s, .token .ast q]
  | .repetition, .many s q => [.node .singular s, .token .pls q]
  | .repetition, .one s => [.node .singular s]
  | .singular, .error => []
  | .singular, .nested l a r => [.token .lp l, .node .alternation a, .token .rp r]
  | .singular, .symbol x => [.token .symbol x]
  | .singular, .stringLiteral x => [.token .stringLiteral x]
  | .singular, .characterSet x => [.token .characterSet x]
  | .singular, .characterLiteral x => [.token .characterLiteral x]

/-- A terminal node of any type. -/
abbrev Leaf (Sp : Type) : Type := (k : TokenType) × Pt k Sp

/-- The terminal nodes below some parts are these, from left to right. -/
inductive Terminals : List (Part Sp) → List (Leaf Sp) → Prop
  | nil : Terminals [] []
  | token {k : TokenType} {x : Pt k Sp} {ps : List (Part Sp)} {l : List (Leaf Sp)} : Terminals ps l →
      Terminals (.token k x :: ps) (⟨k, x⟩ :: l)
  | node {k : NT} {x : NT.out Sp k} {ps : List (Part Sp)} {l l' : List (Leaf Sp)} : Terminals (parts x) l →
      Terminals ps l' → Terminals (.node k x :: ps) (l ++ l')

/-- The parts differ at most in the tokens that are stored in terminal nodes. -/
inductive SameShape : List (Part Sp) → List (Part Sp) → Prop
  | nil : SameShape [] []
  | token {k : TokenType} {x y : Pt k Sp} {ps qs : List (Part Sp)} : SameShape ps qs →
      SameShape (.token k x :: ps) (.token k y :: qs)
  | node {k : NT} {x y : NT.out Sp k} {ps qs : List (Part Sp)} : SameShape (parts x) (parts y) → SameShape ps qs →
      SameShape (.node k x :: ps) (.node k y :: qs)

/-! ## One thing after the other -/

/-- The function is called on the elements one after the other, until a call returns `Err`. -/
def runAll {α : Type} (f : α → Eff V E) : List α → Eff V E
  | [] => fun s => (.ok (), s)
  | x :: xs => fun s =>
    match f x s with
    | (.ok (), s) => runAll f xs s
    | (.error e, s) => (.error e, s)

/-- The same for a function that changes the elements; those after the first `Err` stay as they are. -/
def runAllMut {α : Type} (f : α → EffMut V E α) : List α → EffMut V E (List α)
  | [] => fun s => (.ok (), s, [])
  | x :: xs => fun s =>
    match f x s with
    | (.ok (), s, y) =>
      match runAllMut f xs s with
      | (r, s, ys) => (r, s, y :: ys)
    | (.error e, s, y) => (.error e, s, y :: xs)

/-- The call of the method for a terminal node. -/
def onLeaf (w : VisitorMut Sp V E) (y : Leaf Sp) : EffMut V E (Leaf Sp) := fun s =>
  match w.token y.1 y.2 s with
  | (r, s, x) => (r, s, ⟨y.1, x⟩)

/-! ## Tours -/

/-- What happens on a tour through a tree. -/
inductive Event (Sp : Type) : Type where
  | enter (k : NT) (x : NT.out Sp k)
  | token (k : TokenType) (x : Pt k Sp)
  | leave (k : NT) (x : NT.out Sp k)

/-- The tour through some parts, in which the nodes that do not satisfy `p` are entered and left
again at once. -/
inductive Tour (p : (k : NT) → NT.out Sp k → Bool) : List (Part Sp) → List (Event Sp) → Prop
  | nil : Tour p [] []
  | token {k : TokenType} {x : Pt k Sp} {ps : List (Part Sp)} {l : List (Event Sp)} : Tour p ps l →
      Tour p (.token k x :: ps) (.token k x :: l)
  | node {k : NT} {x : NT.out Sp k} {ps : List (Part Sp)} {l l' : List (Event Sp)} : p k x = true → Tour p (parts x) l →
      Tour p ps l' → Tour p (.node k x :: ps) (.enter k x :: l ++ .leave k x :: l')
  | skip {k : NT} {x : NT.out Sp k} {ps : List (Part Sp)} {l' : List (Event Sp)} : p k x = false →
      Tour p ps l' → Tour p (.node k x :: ps) (.enter k x :: .leave k x :: l')

end PPC.Pangram
