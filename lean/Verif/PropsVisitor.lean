import Verif.SemVisitor2
import Verif.PropsPangram

/-!
# C46: what visitors see

Statements about `visit` and `visit_mut` (src/test_pangram.rs). `parts x` (`Verif.SpecVisitor`) lists the
fields of a node, `Terminals` goes from there to the terminal nodes below, `Tour` to the way through all
nodes below; `runAll f xs` calls `f` on one element after the other until there is an error.
-/

namespace PPC.Pangram

open PPC

variable {Sp V E : Type} {k : NT} {x : NT.out Sp k}

/-- **C46.** A visit of a node calls the method for nodes of its type, once, with the node. `traverse` on it
visits the fields that are there, in the order in which they are written in the type, and stops at the first
error. -/
theorem C46_visit (v : Visitor Sp V E) (x : NT.out Sp k) :
    visit v x = v.node k x (runAll (fun
      | .token c y => v.token c y
      | .node _ y => visit v y) (parts x)) := by
  rw [visit_eq]
  congr 1

/-- **C46.** Every node has terminal nodes below it in one order only. -/
theorem C46_terminals (x : NT.out Sp k) : ∃ l, Terminals (parts x) l ∧ ∀ l', Terminals (parts x) l' → l' = l := by
  obtain ⟨l, h⟩ := terminals_exist k x
  exact ⟨l, h, fun l' h' => h'.unique h⟩

/-- **C46.** The tokens stored in these are the tokens of the tree (C45). -/
theorem C46_leaves {l : List (Leaf Sp)} (h : Terminals (parts x) l) : leaves x = l.filterMap fun y => y.2.data := by
  rw [leaves_eq, h.leaves]

/-- **C46.** A visitor that does not override the methods for nonterminal nodes: the methods for the terminal
nodes are called from left to right, each on every terminal node of its type, up to the first error. -/
theorem C46_order {v : Visitor Sp V E} (hv : v.node = fun _ _ traverse => traverse) {l : List (Leaf Sp)}
    (h : Terminals (parts x) l) : visit v x = runAll (fun y => v.token y.1 y.2) l := by
  rw [visit_eq, hv, visit_terminals hv h]

/-- **C46.** A visitor that overrides nothing returns `Ok` and stays as it is. -/
theorem C46_default (x : NT.out Sp k) (s : V) : visit ({} : Visitor Sp V E) x s = (.ok (), s) := by
  obtain ⟨l, h⟩ := terminals_exist k x
  rw [C46_order rfl h]
  clear h
  induction l with
  | nil => rfl
  | cons y l ih => exact ih

/-- **C46.** A visitor whose methods for nonterminal nodes do something, call `traverse` or not, and do
something again: this happens in the order of a tour through the tree, up to the first error. -/
theorem C46_tour {v : Visitor Sp V E} {enter leave : (k : NT) → NT.out Sp k → Eff V E} {p : (k : NT) → NT.out Sp k → Bool}
    (hv : v.node = fun k x traverse => (enter k x).next ((if p k x then traverse else .ok).next (leave k x)))
    {l : List (Event Sp)} (h : Tour p [.node k x] l) :
    visit v x = runAll (fun
      | .enter k y => enter k y
      | .token c y => v.token c y
      | .leave k y => leave k y) l := by
  have := visit_tour hv h
  rw [runAll_cons, runAll_nil, Eff.next_ok] at this
  exact this

/-- Every tree has a tour. -/
theorem C46_tour_exists (p : (k : NT) → NT.out Sp k → Bool) (x : NT.out Sp k) : ∃ l, Tour p [.node k x] l :=
  tour_exists p k x

/-- **C46.** `visit_mut` with a visitor that does not override the methods for nonterminal nodes: the methods
for terminal nodes change the terminal nodes from left to right, up to the first error, and nothing else
changes. -/
theorem C46_mut {w : VisitorMut Sp V E} (hw : w.node = fun _ _ traverse => traverse) {l : List (Leaf Sp)}
    (h : Terminals (parts x) l) (s : V) : ∃ r s' x' l', visitMut w x s = (r, s', x') ∧
      SameShape (parts x) (parts x') ∧ Terminals (parts x') l' ∧ runAllMut (onLeaf w) l s = (r, s', l') :=
  good_all hw x s l h

/-- **C46.** A tree is known from its shape and its terminal nodes. So `C46_mut` says everything about the new
tree. -/
theorem C46_shape {y : NT.out Sp k} {l : List (Leaf Sp)} (h : SameShape (parts x) (parts y))
    (hx : Terminals (parts x) l) (hy : Terminals (parts y) l) : x = y :=
  parts_inj (h.determined hx hy)

/-- **C46.** A `VisitorMut` that overrides nothing changes nothing. -/
theorem C46_mut_default (x : NT.out Sp k) (s : V) : visitMut ({} : VisitorMut Sp V E) x s = (.ok (), s, x) := by
  obtain ⟨l, h⟩ := terminals_exist k x
  obtain ⟨r, s', x', l', h1, h2, h3, h4⟩ := C46_mut (w := ({} : VisitorMut Sp V E)) rfl h s
  have h5 : ∀ l : List (Leaf Sp), runAllMut (onLeaf ({} : VisitorMut Sp V E)) l s = (.ok (), s, l) := by
    intro l
    induction l with
    | nil => rfl
    | cons y l ih => simp only [runAllMut, onLeaf, ih]
  rw [h5] at h4
  simp only [Prod.mk.injEq] at h4
  obtain ⟨rfl, rfl, rfl⟩ := h4
  rw [h1, C46_shape h2 h h3]

/-- The terminal node that the parser makes of a token. -/
def leafOf (t : TokenData Sp) : Leaf Sp := ⟨t.token.tokenType, ⟨some t⟩⟩

/-- **C46.** After `parser(&patterns).parse(&tokens)` returned `Ok(x)`: a visit of `x` calls, for the tokens
that were given from the first to the last, the method for terminal nodes of its type, up to the first
error. -/
theorem C46_parsed {d : Sp} {ts : List (TerminalToken TokenType Sp)} {al : Alloc} {n : Nat}
    (h : parse (simpleErr _) ((parser k).prog (defs (.default d)) n) al (fun i => ts[i]?) () = .ok (.ok x))
    {v : Visitor Sp V E} (hv : v.node = fun _ _ traverse => traverse) :
    visit v x = runAll (fun y => v.token y.1 y.2) ((numbered 0 ts).map leafOf) := by
  obtain ⟨hc, hl⟩ := (C45_parse (d := d) al).1 ⟨n, h⟩
  obtain ⟨l, h1⟩ := terminals_exist k x
  rw [C46_order hv h1, ← hl, C46_leaves h1]
  have h2 := h1.complete (complete_parts hc)
  clear h1
  congr 1
  induction l with
  | nil => rfl
  | cons y l ih =>
    obtain ⟨c, ⟨y⟩⟩ := y
    obtain ⟨t, h3, h4⟩ := h2 _ (List.mem_cons_self ..)
    simp only at h3
    subst h3
    rw [List.filterMap_cons]
    simp only [List.map_cons]
    rw [← ih fun z hz => h2 z (List.mem_cons_of_mem _ hz)]
    congr 1
    cases h4
    rfl

/-! ## The hypotheses can be met -/

/-- A visitor that collects the types of the terminal nodes and stops at `*`. -/
def exVisitor : Visitor Unit (List TokenType) String where
  token c _ s := if c == .ast then (.error "star", s) else (.ok (), s ++ [c])

/-- Such a visit of the tree for `a ::= ( b | "c" ) * -> d ;` stops before the star. -/
example : (visit (k := .grammar) exVisitor exTree []).2 =
    [.symbol, .colColEq, .lp, .symbol, .bar, .stringLiteral, .rp] := by decide +kernel

/-- The hypotheses of `C46_order`, `C46_mut` and `C46_leaves` for that tree. -/
example : exVisitor.node = (fun _ _ traverse => traverse) ∧ ∃ l, Terminals (parts (k := .grammar) exTree) l ∧ l.length = 11 := by
  obtain ⟨l, h⟩ := terminals_exist .grammar exTree
  refine ⟨rfl, l, h, ?_⟩
  have h1 := C46_leaves h
  have h2 := h.complete (complete_parts exTree_complete)
  have h3 : (l.filterMap fun y => y.2.data).length = l.length := by
    clear h h1
    induction l with
    | nil => rfl
    | cons y l ih =>
      obtain ⟨t, h3, _⟩ := h2 _ (List.mem_cons_self ..)
      rw [List.filterMap_cons, h3]
      simp [ih fun z hz => h2 z (List.mem_cons_of_mem _ hz)]
  rw [← h3, ← h1, exTree_leaves]
  rfl

/-- A visitor that counts the nesting of nonterminal nodes, and does not look into nested alternations. -/
def exTourist : Visitor Unit (List Nat) String where
  token _ _ s := (.ok (), s)
  node k _ traverse := Eff.next (fun s => (.ok (), s ++ [1])) (.next (if k != .singular then traverse else .ok)
    fun s => (.ok (), s ++ [0]))

/-- The hypotheses of `C46_tour`. -/
example : exTourist.node = (fun k _ traverse => Eff.next (fun s => (.ok (), s ++ [1]))
      (.next (if k != .singular then traverse else .ok) fun s => (.ok (), s ++ [0]))) ∧
    (visit (k := .grammar) exTourist exTree []).2 = [1, 1, 1, 1, 1, 1, 0, 0, 0, 1, 0, 0, 0, 0] := ⟨rfl, by decide +kernel⟩

/-- The hypothesis of `C46_parsed`. -/
example : ∃ n, parse (simpleErr _) ((parser .grammar).prog (defs (.default ())) n) ⟨0, 0, id, id⟩ (fun i =>
    (([.symbol, .colColEq, .lp, .symbol, .bar, .stringLiteral, .rp, .ast, .minGt, .symbol, .sem].map exTok)[i]?)) () =
      .ok (.ok exTree) :=
  (C45_parse (d := ()) _).2 ⟨exTree_complete, exTree_leaves⟩

end PPC.Pangram
