import Verif.Pangram

/-!
# The visitors of parse trees (src/test_pangram.rs)

A visitor has state of type `V`. Its methods return `Result<(), E>`, and may change the state whether
they return `Ok` or `Err`. A terminal method may be anything; a nonterminal method may do anything with
the state before and after (or instead of, or in between) calls of `traverse` on the node that it is
given, which it gets as a function `traverse`. Methods that visit other nodes than that one are not
modelled.
-/

namespace PPC.Pangram

open PPC

variable {Sp V E : Type}

/-- `Result<(), E>` and the state of the visitor. -/
abbrev Eff (V E : Type) : Type := V → Except E Unit × V

/-- `a?; b` -/
def Eff.next (a b : Eff V E) : Eff V E := fun s =>
  match a s with
  | (.ok (), s) => b s
  | (.error e, s) => (.error e, s)

/-- `Ok(())` -/
def Eff.ok : Eff V E := fun s => (.ok (), s)

/-- `Visitor` (src/test_pangram.rs:1993-2097): `token k` is the method for terminal nodes of type `k`
(lines 1998-2060), `node k` that for nonterminal nodes of type `k` (lines 2062-2096). -/
structure Visitor (Sp V E : Type) where
  token : (k : TokenType) → Pt k Sp → Eff V E := fun _ _ => .ok
  node : (k : NT) → NT.out Sp k → Eff V E → Eff V E := fun _ _ traverse => traverse

/-- `if let Some(x) = x1.as_ref() { .. }` (src/test_pangram.rs:1228-1230 and the like) -/
def visitOption {α : Type} (f : α → Eff V E) : Option α → Eff V E
  | none => .ok
  | some x => f x

/-- `for x in x1.iter() { ..?; } Ok(())` (src/test_pangram.rs:1114-1117 and the like) -/
def visitVec {α : Type} (f : α → Eff V E) : List α → Eff V E
  | [] => .ok
  | x :: xs => (f x).next (visitVec f xs)

variable (v : Visitor Sp V E)

mutual

/-- `PtAlternation::visit` (src/test_pangram.rs:1313-1315) with `traverse` (src/test_pangram.rs:1323-1332) -/
def visitAlternation : PtAlternation Sp → Eff V E
  | .mk c bs => v.node .alternation (.mk c bs) ((visitConcatenation c).next (visitBars bs))

/-- The loop in `PtAlternation::traverse` (src/test_pangram.rs:1327-1331) -/
def visitBars : List (Pt .bar Sp × PtConcatenation Sp) → Eff V E
  | [] => .ok
  | (b, c) :: bs => ((v.token .bar b).next (visitConcatenation c)).next (visitBars bs)

/-- `PtConcatenation::visit` (src/test_pangram.rs:1522-1524) with `traverse` (src/test_pangram.rs:1532-1538) -/
def visitConcatenation : PtConcatenation Sp → Eff V E
  | .mk rs => v.node .concatenation (.mk rs) (visitRepetitions rs)

/-- The loop in `PtConcatenation::traverse` (src/test_pangram.rs:1534-1537) -/
def visitRepetitions : List (PtRepetition Sp) → Eff V E
  | [] => .ok
  | r :: rs => (visitRepetition r).next (visitRepetitions rs)

/-- `PtRepetition::visit` (src/test_pangram.rs:1585-1587) with `traverse` (src/test_pangram.rs:1595-1615) -/
def visitRepetition : PtRepetition Sp → Eff V E
  | .error => v.node .repetition .error .ok
  | .maybe x1 x2 => v.node .repetition (.maybe x1 x2) ((visitSingular x1).next (v.token .qst x2))
  | .any x1 x2 => v.node .repetition (.any x1 x2) ((visitSingular x1).next (v.token .ast x2))
  | .many x1 x2 => v.node .repetition (.many x1 x2) ((visitSingular x1).next (v.token .pls x2))
  | .one x1 => v.node .repetition (.one x1) (visitSingular x1)

/-- `PtSingular::visit` (src/test_pangram.rs:1672-1674) with `traverse` (src/test_pangram.rs:1682-1704) -/
def visitSingular : PtSingular Sp → Eff V E
  | .error => v.node .singular .error .ok
  | .nested x1 x2 x3 =>
    v.node .singular (.nested x1 x2 x3) (((v.token .lp x1).next (visitAlternation x2)).next (v.token .rp x3))
  | .symbol x1 => v.node .singular (.symbol x1) (v.token .symbol x1)
  | .stringLiteral x1 => v.node .singular (.stringLiteral x1) (v.token .stringLiteral x1)
  | .characterSet x1 => v.node .singular (.characterSet x1) (v.token .characterSet x1)
  | .characterLiteral x1 => v.node .singular (.characterLiteral x1) (v.token .characterLiteral x1)

end

/-- `PtAlterName::visit` (src/test_pangram.rs:1483-1485) with `traverse` (src/test_pangram.rs:1493-1499) -/
def visitAlterName (x : PtAlterName Sp) : Eff V E :=
  v.node .alterName x ((v.token .minGt x.x1).next (v.token .symbol x.x2))

/-- `PtFirstAlter::visit` (src/test_pangram.rs:1367-1369) with `traverse` (src/test_pangram.rs:1377-1391) -/
def visitFirstAlter (x : PtFirstAlter Sp) : Eff V E :=
  v.node .firstAlter x ((((visitOption (v.token .doc) x.x1).next (v.token .colColEq x.x2)).next
    (visitConcatenation v x.x3)).next (visitOption (visitAlterName v) x.x4))

/-- `PtSubseqAlter::visit` (src/test_pangram.rs:1426-1428) with `traverse` (src/test_pangram.rs:1436-1450) -/
def visitSubseqAlter (x : PtSubseqAlter Sp) : Eff V E :=
  v.node .subseqAlter x ((((visitOption (v.token .doc) x.x1).next (v.token .bar x.x2)).next
    (visitConcatenation v x.x3)).next (visitOption (visitAlterName v) x.x4))

/-- `PtRule::visit` (src/test_pangram.rs:1214-1216) with `traverse` (src/test_pangram.rs:1224-1258) -/
def visitRule : PtRule Sp → Eff V E
  | .error => v.node .rule .error .ok
  | .tokenRule x1 x2 x3 x4 x5 => v.node .rule (.tokenRule x1 x2 x3 x4 x5)
      (((((visitOption (v.token .doc) x1).next (v.token .symbol x2)).next (v.token .colEqEq x3)).next
        (visitAlternation v x4)).next (v.token .sem x5))
  | .whitespaceRule x1 x2 x3 x4 x5 => v.node .rule (.whitespaceRule x1 x2 x3 x4 x5)
      (((((visitOption (v.token .doc) x1).next (v.token .usc x2)).next (v.token .colEqEq x3)).next
        (visitAlternation v x4)).next (v.token .sem x5))
  | .grammarRule x1 x2 x3 x4 x5 => v.node .rule (.grammarRule x1 x2 x3 x4 x5)
      (((((visitOption (v.token .doc) x1).next (v.token .symbol x2)).next (visitFirstAlter v x3)).next
        (visitVec (visitSubseqAlter v) x4)).next (v.token .sem x5))

/-- `PtGrammar::visit` (src/test_pangram.rs:1102-1104) with `traverse` (src/test_pangram.rs:1112-1118) -/
def visitGrammar (x : PtGrammar Sp) : Eff V E := v.node .grammar x (visitVec (visitRule v) x.x1)

/-- `visit`, for every type of nonterminal nodes. -/
def visit : {k : NT} → NT.out Sp k → Eff V E
  | .grammar => visitGrammar v
  | .rule => visitRule v
  | .alternation => visitAlternation v
  | .firstAlter => visitFirstAlter v
  | .subseqAlter => visitSubseqAlter v
  | .alterName => visitAlterName v
  | .concatenation => visitConcatenation v
  | .repetition => visitRepetition v
  | .singular => visitSingular v

/-! ## Visitors that change the tree -/

/-- `Result<(), E>`, the state of the visitor, and the node after the call. -/
abbrev EffMut (V E α : Type) : Type := V → Except E Unit × V × α

/-- `a?; b`, where `a` works on one part of a node and `b` on the others, which are `old` before. -/
def EffMut.next {α β : Type} (a : EffMut V E α) (old : β) (b : EffMut V E β) : EffMut V E (α × β) := fun s =>
  match a s with
  | (.ok (), s, x) =>
    match b s with
    | (r, s, y) => (r, s, x, y)
  | (.error e, s, x) => (.error e, s, x, old)

/-- The parts are put together. -/
def EffMut.as {α β : Type} (a : EffMut V E α) (f : α → β) : EffMut V E β := fun s =>
  match a s with
  | (r, s, x) => (r, s, f x)

/-- `VisitorMut` (src/test_pangram.rs:2100-2204). The nonterminal methods may do anything with the state,
and with the node after the last call of `traverse_mut`, which they get as a function. Changes to the
node before that are not modelled. -/
structure VisitorMut (Sp V E : Type) where
  token : (k : TokenType) → Pt k Sp → EffMut V E (Pt k Sp) := fun _ x s => (.ok (), s, x)
  node : (k : NT) → NT.out Sp k → EffMut V E (NT.out Sp k) → EffMut V E (NT.out Sp k) := fun _ _ traverse => traverse

/-- `if let Some(x) = x1.as_mut() { .. }` (src/test_pangram.rs:1265-1267 and the like) -/
def visitOptionMut {α : Type} (f : α → EffMut V E α) : Option α → EffMut V E (Option α)
  | none => fun s => (.ok (), s, none)
  | some x => (f x).as some

/-- `for x in x1.iter_mut() { ..?; } Ok(())` (src/test_pangram.rs:1123-1126 and the like) -/
def visitVecMut {α : Type} (f : α → EffMut V E α) : List α → EffMut V E (List α)
  | [] => fun s => (.ok (), s, [])
  | x :: xs => ((f x).next xs (visitVecMut f xs)).as fun p => p.1 :: p.2

variable (w : VisitorMut Sp V E)

mutual

/-- `PtAlternation::visit_mut` (src/test_pangram.rs:1318-1320) with `traverse_mut` (src/test_pangram.rs:1335-1344) -/
def visitAlternationMut : PtAlternation Sp → EffMut V E (PtAlternation Sp)
  | .mk c bs => w.node .alternation (.mk c bs)
      (((visitConcatenationMut c).next bs (visitBarsMut bs)).as fun p => .mk p.1 p.2)

/-- The loop in `PtAlternation::traverse_mut` (src/test_pangram.rs:1339-1342) -/
def visitBarsMut : List (Pt .bar Sp × PtConcatenation Sp) → EffMut V E (List (Pt .bar Sp × PtConcatenation Sp))
  | [] => fun s => (.ok (), s, [])
  | (b, c) :: bs => (((w.token .bar b).next c (visitConcatenationMut c)).next bs (visitBarsMut bs)).as fun p => p.1 :: p.2

/-- `PtConcatenation::visit_mut` (src/test_pangram.rs:1527-1529) with `traverse_mut` (src/test_pangram.rs:1541-1547) -/
def visitConcatenationMut : PtConcatenation Sp → EffMut V E (PtConcatenation Sp)
  | .mk rs => w.node .concatenation (.mk rs) ((visitRepetitionsMut rs).as .mk)

/-- The loop in `PtConcatenation::traverse_mut` (src/test_pangram.rs:1543-1546) -/
def visitRepetitionsMut : List (PtRepetition Sp) → EffMut V E (List (PtRepetition Sp))
  | [] => fun s => (.ok (), s, [])
  | r :: rs => ((visitRepetitionMut r).next rs (visitRepetitionsMut rs)).as fun p => p.1 :: p.2

/-- `PtRepetition::visit_mut` (src/test_pangram.rs:1590-1592) with `traverse_mut` (src/test_pangram.rs:1618-1638) -/
def visitRepetitionMut : PtRepetition Sp → EffMut V E (PtRepetition Sp)
  | .error => w.node .repetition .error fun s => (.ok (), s, .error)
  | .maybe x1 x2 => w.node .repetition (.maybe x1 x2)
      (((visitSingularMut x1).next x2 (w.token .qst x2)).as fun p => .maybe p.1 p.2)
  | .any x1 x2 => w.node .repetition (.any x1 x2)
      (((visitSingularMut x1).next x2 (w.token .ast x2)).as fun p => .any p.1 p.2)
  | .many x1 x2 => w.node .repetition (.many x1 x2)
      (((visitSingularMut x1).next x2 (w.token .pls x2)).as fun p => .many p.1 p.2)
  | .one x1 => w.node .repetition (.one x1) ((visitSingularMut x1).as .one)

/-- `PtSingular::visit_mut` (src/test_pangram.rs:1677-1679) with `traverse_mut` (src/test_pangram.rs:1707-1729) -/
def visitSingularMut : PtSingular Sp → EffMut V E (PtSingular Sp)
  | .error => w.node .singular .error fun s => (.ok (), s, .error)
  | .nested x1 x2 x3 => w.node .singular (.nested x1 x2 x3)
      ((((w.token .lp x1).next x2 (visitAlternationMut x2)).next x3 (w.token .rp x3)).as fun p => .nested p.1.1 p.1.2 p.2)
  | .symbol x1 => w.node .singular (.symbol x1) ((w.token .symbol x1).as .symbol)
  | .stringLiteral x1 => w.node .singular (.stringLiteral x1) ((w.token .stringLiteral x1).as .stringLiteral)
  | .characterSet x1 => w.node .singular (.characterSet x1) ((w.token .characterSet x1).as .characterSet)
  | .characterLiteral x1 => w.node .singular (.characterLiteral x1) ((w.token .characterLiteral x1).as .characterLiteral)

end

/-- `PtAlterName::visit_mut` (src/test_pangram.rs:1488-1490) with `traverse_mut` (src/test_pangram.rs:1502-1508) -/
def visitAlterNameMut (x : PtAlterName Sp) : EffMut V E (PtAlterName Sp) :=
  w.node .alterName x (((w.token .minGt x.x1).next x.x2 (w.token .symbol x.x2)).as fun p => ⟨p.1, p.2⟩)

/-- `PtFirstAlter::visit_mut` (src/test_pangram.rs:1372-1374) with `traverse_mut` (src/test_pangram.rs:1394-1408) -/
def visitFirstAlterMut (x : PtFirstAlter Sp) : EffMut V E (PtFirstAlter Sp) :=
  w.node .firstAlter x (((((visitOptionMut (w.token .doc) x.x1).next x.x2 (w.token .colColEq x.x2)).next x.x3
    (visitConcatenationMut w x.x3)).next x.x4 (visitOptionMut (visitAlterNameMut w) x.x4)).as
      fun p => ⟨p.1.1.1, p.1.1.2, p.1.2, p.2⟩)

/-- `PtSubseqAlter::visit_mut` (src/test_pangram.rs:1431-1433) with `traverse_mut` (src/test_pangram.rs:1453-1467) -/
def visitSubseqAlterMut (x : PtSubseqAlter Sp) : EffMut V E (PtSubseqAlter Sp) :=
  w.node .subseqAlter x (((((visitOptionMut (w.token .doc) x.x1).next x.x2 (w.token .bar x.x2)).next x.x3
    (visitConcatenationMut w x.x3)).next x.x4 (visitOptionMut (visitAlterNameMut w) x.x4)).as
      fun p => ⟨p.1.1.1, p.1.1.2, p.1.2, p.2⟩)

/-- `PtRule::visit_mut` (src/test_pangram.rs:1219-1221) with `traverse_mut` (src/test_pangram.rs:1261-1295) -/
def visitRuleMut : PtRule Sp → EffMut V E (PtRule Sp)
  | .error => w.node .rule .error fun s => (.ok (), s, .error)
  | .tokenRule x1 x2 x3 x4 x5 => w.node .rule (.tokenRule x1 x2 x3 x4 x5)
      ((((((visitOptionMut (w.token .doc) x1).next x2 (w.token .symbol x2)).next x3 (w.token .colEqEq x3)).next x4
        (visitAlternationMut w x4)).next x5 (w.token .sem x5)).as
          fun p => .tokenRule p.1.1.1.1 p.1.1.1.2 p.1.1.2 p.1.2 p.2)
  | .whitespaceRule x1 x2 x3 x4 x5 => w.node .rule (.whitespaceRule x1 x2 x3 x4 x5)
      ((((((visitOptionMut (w.token .doc) x1).next x2 (w.token .usc x2)).next x3 (w.token .colEqEq x3)).next x4
        (visitAlternationMut w x4)).next x5 (w.token .sem x5)).as
          fun p => .whitespaceRule p.1.1.1.1 p.1.1.1.2 p.1.1.2 p.1.2 p.2)
  | .grammarRule x1 x2 x3 x4 x5 => w.node .rule (.grammarRule x1 x2 x3 x4 x5)
      ((((((visitOptionMut (w.token .doc) x1).next x2 (w.token .symbol x2)).next x3 (visitFirstAlterMut w x3)).next x4
        (visitVecMut (visitSubseqAlterMut w) x4)).next x5 (w.token .sem x5)).as
          fun p => .grammarRule p.1.1.1.1 p.1.1.1.2 p.1.1.2 p.1.2 p.2)

/-- `PtGrammar::visit_mut` (src/test_pangram.rs:1107-1109) with `traverse_mut` (src/test_pangram.rs:1121-1127) -/
def visitGrammarMut (x : PtGrammar Sp) : EffMut V E (PtGrammar Sp) :=
  w.node .grammar x ((visitVecMut (visitRuleMut w) x.x1).as fun p => ⟨p⟩)

/-- `visit_mut`, for every type of nonterminal nodes. -/
def visitMut : {k : NT} → NT.out Sp k → EffMut V E (NT.out Sp k)
  | .grammar => visitGrammarMut w
  | .rule => visitRuleMut w
  | .alternation => visitAlternationMut w
  | .firstAlter => visitFirstAlterMut w
  | .subseqAlter => visitSubseqAlterMut w
  | .alterName => visitAlterNameMut w
  | .concatenation => visitConcatenationMut w
  | .repetition => visitRepetitionMut w
  | .singular => visitSingularMut w

end PPC.Pangram
