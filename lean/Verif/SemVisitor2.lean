import Verif.SemVisitor

/-!
# Terminal nodes and tokens: lemmas
-/

namespace PPC.Pangram

open PPC

variable {Sp : Type}

/-- The tokens of a part. -/
def partLeaves : Part Sp → List (TokenData Sp)
  | .token _ x => x.leaves
  | .node _ x => leaves x

theorem optLeaves_eq {α : Type} {f : α → List (TokenData Sp)} {c : α → Part Sp} (h : ∀ x, partLeaves (c x) = f x) (x : Option α) :
    optLeaves f x = (optPart c x).flatMap partLeaves := by
  cases x <;> simp [optLeaves, optPart, h]

theorem rowLeaves_eq {α : Type} {f : α → List (TokenData Sp)} {c : α → Part Sp} (h : ∀ x, partLeaves (c x) = f x) :
    ∀ xs : List α, rowLeaves f xs = (xs.map c).flatMap partLeaves
  | [] => rfl
  | x :: xs => by rw [rowLeaves, rowLeaves_eq h xs, List.map_cons, List.flatMap_cons, h]

theorem barsLeaves_eq : ∀ bs : List (Pt .bar Sp × PtConcatenation Sp), barsLeaves bs =
    (bs.flatMap fun p => [Part.token .bar p.1, .node .concatenation p.2]).flatMap partLeaves
  | [] => by rw [barsLeaves]; rfl
  | (b, c) :: bs => by
    rw [barsLeaves, barsLeaves_eq bs, List.flatMap_cons, List.flatMap_append]
    simp [partLeaves, leaves]

theorem repsLeaves_eq : ∀ rs : List (PtRepetition Sp), repsLeaves rs = (rs.map (Part.node .repetition)).flatMap partLeaves
  | [] => by rw [repsLeaves]; rfl
  | r :: rs => by rw [repsLeaves, repsLeaves_eq rs]; rfl

theorem leaves_eq : ∀ {k : NT} (x : NT.out Sp k), leaves x = (parts x).flatMap partLeaves
  | .grammar, x => by simp only [leaves, PtGrammar.leaves, parts]; exact rowLeaves_eq (c := Part.node .rule) (f := PtRule.leaves) (fun _ => rfl) _
  | .rule, .error => rfl
  | .rule, .tokenRule x1 x2 x3 x4 x5 => by
    simp [leaves, PtRule.leaves, parts, optLeaves_eq (c := Part.token .doc) (f := Pt.leaves) (fun _ => rfl), partLeaves]
  | .rule, .whitespaceRule x1 x2 x3 x4 x5 => by
    simp [leaves, PtRule.leaves, parts, optLeaves_eq (c := Part.token .doc) (f := Pt.leaves) (fun _ => rfl), partLeaves]
  | .rule, .grammarRule x1 x2 x3 x4 x5 => by
    simp only [leaves, PtRule.leaves, parts, optLeaves_eq (c := Part.token .doc) (f := Pt.leaves) (fun _ => rfl),
      rowLeaves_eq (c := Part.node .subseqAlter) (f := PtSubseqAlter.leaves) (fun _ => rfl), List.flatMap_append]
    simp [partLeaves, leaves]
  | .alternation, .mk c bs => by
    simp only [leaves, PtAlternation.leaves, barsLeaves_eq]; rfl
  | .firstAlter, x => by
    simp only [leaves, PtFirstAlter.leaves, parts, optLeaves_eq (c := Part.token .doc) (f := Pt.leaves) (fun _ => rfl),
      optLeaves_eq (c := Part.node .alterName) (f := PtAlterName.leaves) (fun _ => rfl), List.flatMap_append]
    simp [partLeaves, leaves]
  | .subseqAlter, x => by
    simp only [leaves, PtSubseqAlter.leaves, parts, optLeaves_eq (c := Part.token .doc) (f := Pt.leaves) (fun _ => rfl),
      optLeaves_eq (c := Part.node .alterName) (f := PtAlterName.leaves) (fun _ => rfl), List.flatMap_append]
    simp [partLeaves, leaves]
  | .alterName, x => by simp [leaves, PtAlterName.leaves, parts, partLeaves]
  | .concatenation, .mk rs => by simp only [leaves, PtConcatenation.leaves, repsLeaves_eq]; rfl
  | .repetition, .error => by simp [leaves, PtRepetition.leaves, parts]
  | .repetition, .maybe s q => by simp [leaves, PtRepetition.leaves, parts, partLeaves]
  | .repetition, .any s q => by simp [leaves, PtRepetition.leaves, parts, partLeaves]
  | .repetition, .many s q => by simp [leaves, PtRepetition.leaves, parts, partLeaves]
  | .repetition, .one s => by simp [leaves, PtRepetition.leaves, parts, partLeaves]
  | .singular, .error => by simp [leaves, PtSingular.leaves, parts]
  | .singular, .nested l a r => by simp [leaves, PtSingular.leaves, parts, partLeaves]
  | .singular, .symbol x => by simp [leaves, PtSingular.leaves, parts, partLeaves]
  | .singular, .stringLiteral x => by simp [leaves, PtSingular.leaves, parts, partLeaves]
  | .singular, .characterSet x => by simp [leaves, PtSingular.leaves, parts, partLeaves]
  | .singular, .characterLiteral x => by simp [leaves, PtSingular.leaves, parts, partLeaves]

theorem Terminals.leaves {ps : List (Part Sp)} {l : List (Leaf Sp)} (h : Terminals ps l) :
    ps.flatMap partLeaves = l.filterMap fun y => y.2.data := by
  induction h with
  | nil => rfl
  | @token k x ps l _ ih =>
    rw [List.flatMap_cons, ih, List.filterMap_cons, partLeaves, Pt.leaves]
    cases x.data <;> rfl
  | node _ _ ih1 ih2 => rw [List.flatMap_cons, ih2, List.filterMap_append, ← ih1, partLeaves, leaves_eq]

/-- The part is complete. -/
def Part.Complete : Part Sp → Prop
  | .token _ x => x.Complete
  | .node _ x => Pangram.Complete x

theorem barsComplete_mem : ∀ {bs : List (Pt .bar Sp × PtConcatenation Sp)}, BarsComplete bs → ∀ p ∈ bs,
    p.1.Complete ∧ p.2.Complete
  | [], _, p, hp => by cases hp
  | (b, c) :: bs, h, p, hp => by
    cases h with
    | cons h1 h2 h3 =>
      rcases List.mem_cons.1 hp with rfl | hp
      · exact ⟨h1, h2⟩
      · exact barsComplete_mem h3 p hp

theorem repsComplete_mem : ∀ {rs : List (PtRepetition Sp)}, RepsComplete rs → ∀ r ∈ rs, r.Complete
  | [], _, r, hr => by cases hr
  | r' :: rs, h, r, hr => by
    cases h with
    | cons h1 h2 =>
      rcases List.mem_cons.1 hr with rfl | hr
      · exact h1
      · exact repsComplete_mem h2 r hr

theorem complete_parts : ∀ {k : NT} {x : NT.out Sp k}, Complete x → ∀ p ∈ parts x, p.Complete
  | .grammar, x, h, p, hp => by
    obtain ⟨r, h1, rfl⟩ := List.mem_map.1 hp
    exact h.2 r h1
  | .rule, _, .tokenRule h1 h2 h3 h4 h5, p, hp => by
    simp [parts, mem_optPart] at hp
    rcases hp with ⟨y, hy, rfl⟩ | rfl | rfl | rfl | rfl
    · exact h1 y hy
    · exact h2
    · exact h3
    · exact h4
    · exact h5
  | .rule, _, .whitespaceRule h1 h2 h3 h4 h5, p, hp => by
    simp [parts, mem_optPart] at hp
    rcases hp with ⟨y, hy, rfl⟩ | rfl | rfl | rfl | rfl
    · exact h1 y hy
    · exact h2
    · exact h3
    · exact h4
    · exact h5
  | .rule, _, .grammarRule h1 h2 h3 h4 h5, p, hp => by
    simp [parts, mem_optPart] at hp
    rcases hp with ⟨y, hy, rfl⟩ | rfl | rfl | ⟨y, hy, rfl⟩ | rfl
    · exact h1 y hy
    · exact h2
    · exact h3
    · exact h4 y hy
    · exact h5
  | .alternation, .mk c bs, .mk h1 h2, p, hp => by
    rcases List.mem_cons.1 hp with rfl | hp
    · exact h1
    · obtain ⟨q, h3, h4⟩ := List.mem_flatMap.1 hp
      obtain ⟨h5, h6⟩ := barsComplete_mem h2 q h3
      simp at h4
      rcases h4 with rfl | rfl
      · exact h5
      · exact h6
  | .firstAlter, x, ⟨h1, h2, h3, h4⟩, p, hp => by
    simp [parts, mem_optPart] at hp
    rcases hp with ⟨y, hy, rfl⟩ | rfl | rfl | ⟨y, hy, rfl⟩
    · exact h1 y hy
    · exact h2
    · exact h3
    · exact h4 y hy
  | .subseqAlter, x, ⟨h1, h2, h3, h4⟩, p, hp => by
    simp [parts, mem_optPart] at hp
    rcases hp with ⟨y, hy, rfl⟩ | rfl | rfl | ⟨y, hy, rfl⟩
    · exact h1 y hy
    · exact h2
    · exact h3
    · exact h4 y hy
  | .alterName, x, ⟨h1, h2⟩, p, hp => by
    simp [parts] at hp
    rcases hp with rfl | rfl
    · exact h1
    · exact h2
  | .concatenation, .mk rs, .mk _ h, p, hp => by
    obtain ⟨r, h1, rfl⟩ := List.mem_map.1 hp
    exact repsComplete_mem h r h1
  | .repetition, _, .maybe h1 h2, p, hp => by
    simp [parts] at hp
    rcases hp with rfl | rfl
    · exact h1
    · exact h2
  | .repetition, _, .any h1 h2, p, hp => by
    simp [parts] at hp
    rcases hp with rfl | rfl
    · exact h1
    · exact h2
  | .repetition, _, .many h1 h2, p, hp => by
    simp [parts] at hp
    rcases hp with rfl | rfl
    · exact h1
    · exact h2
  | .repetition, _, .one h1, p, hp => by
    simp [parts] at hp
    rcases hp with rfl
    exact h1
  | .singular, _, .nested h1 h2 h3, p, hp => by
    simp [parts] at hp
    rcases hp with rfl | rfl | rfl
    · exact h1
    · exact h2
    · exact h3
  | .singular, _, .symbol h1, p, hp => by
    simp [parts] at hp
    subst hp
    exact h1
  | .singular, _, .stringLiteral h1, p, hp => by
    simp [parts] at hp
    subst hp
    exact h1
  | .singular, _, .characterSet h1, p, hp => by
    simp [parts] at hp
    subst hp
    exact h1
  | .singular, _, .characterLiteral h1, p, hp => by
    simp [parts] at hp
    subst hp
    exact h1

theorem Terminals.complete {ps : List (Part Sp)} {l : List (Leaf Sp)} (h : Terminals ps l) (hp : ∀ p ∈ ps, p.Complete) :
    ∀ y ∈ l, y.2.Complete := by
  induction h with
  | nil => intro y hy; cases hy
  | token _ ih =>
    intro y hy
    rcases List.mem_cons.1 hy with rfl | hy
    · exact hp _ (List.mem_cons_self ..)
    · exact ih (fun p h => hp p (List.mem_cons_of_mem _ h)) y hy
  | node _ _ ih1 ih2 =>
    intro y hy
    rcases List.mem_append.1 hy with hy | hy
    · exact ih1 (complete_parts (hp _ (List.mem_cons_self ..))) y hy
    · exact ih2 (fun p h => hp p (List.mem_cons_of_mem _ h)) y hy

/-! ## A node is determined by its parts -/

theorem optPart_token_inj {k : TokenType} {x y : Option (Pt k Sp)} {ps qs : List (Part Sp)}
    (hx : ∀ z qs', ps ≠ Part.token k z :: qs') (hy : ∀ z ps', qs ≠ Part.token k z :: ps')
    (h : optPart (Part.token k) x ++ ps = optPart (Part.token k) y ++ qs) : x = y ∧ ps = qs := by
  cases x <;> cases y <;> simp [optPart] at h
  · exact ⟨rfl, h⟩
  · exact (hx _ _ h).elim
  · exact (hy _ _ h.symm).elim
  · exact ⟨by rw [h.1], h.2⟩

theorem map_node_inj {k : NT} : ∀ {xs ys : List (NT.out Sp k)}, xs.map (Part.node k) = ys.map (Part.node k) → xs = ys
  | [], [], _ => rfl
  | x :: xs, y :: ys, h => by
    simp at h
    rw [h.1, map_node_inj h.2]
  | [], y :: ys, h => by simp at h
  | x :: xs, [], h => by simp at h

theorem optPart_node_inj {k : NT} {x y : Option (NT.out Sp k)}
    (h : optPart (Part.node k) x = optPart (Part.node k) y) : x = y := by
  cases x <;> cases y <;> simp_all [optPart]

theorem bars_inj : ∀ {xs ys : List (Pt .bar Sp × PtConcatenation Sp)},
    (xs.flatMap fun p => [Part.token .bar p.1, .node .concatenation p.2]) =
      (ys.flatMap fun p => [Part.token .bar p.1, .node .concatenation p.2]) → xs = ys
  | [], [], _ => rfl
  | (a, b) :: xs, (a', b') :: ys, h => by
    simp at h
    have ih := bars_inj (xs := xs) (ys := ys) (by simpa using h.2.2)
    rw [h.1, h.2.1, ih]
  | [], y :: ys, h => by simp at h
  | x :: xs, [], h => by simp at h

theorem parts_rule_inj (x y : PtRule Sp) (h : parts (k := .rule) x = parts (k := .rule) y) : x = y := by
  cases x <;> cases y <;> simp only [parts, List.append_assoc, List.cons_append, List.nil_append] at h
  case error.error => rfl
  all_goals try (first
    | (rename_i x1 _ _ _ _; cases x1 <;> simp [optPart] at h; done))
  all_goals
    obtain ⟨h1, h2⟩ := optPart_token_inj (by simp) (by simp) h
    simp at h2
  · rw [h1, h2.1, h2.2.1, h2.2.2.1, h2.2.2.2]
  · rw [h1, h2.1, h2.2.1, h2.2.2.1, h2.2.2.2]
  · rw [h1, h2.1, h2.2.1, map_node_inj (k := .subseqAlter) h2.2.2.1, h2.2.2.2]

theorem parts_inj : ∀ {k : NT} {x y : NT.out Sp k}, parts x = parts y → x = y
  | .grammar, ⟨x⟩, ⟨y⟩, h => congrArg PtGrammar.mk (map_node_inj (k := .rule) h)
  | .rule, x, y, h => parts_rule_inj x y h
  | .alternation, .mk c bs, .mk c' bs', h => by
    simp only [parts, List.cons.injEq, Part.node.injEq, heq_eq_eq, true_and] at h
    rw [h.1, bars_inj h.2]
  | .firstAlter, ⟨x1, x2, x3, x4⟩, ⟨y1, y2, y3, y4⟩, h => by
    simp only [parts, List.append_assoc, List.cons_append, List.nil_append] at h
    obtain ⟨h1, h2⟩ := optPart_token_inj (by simp) (by simp) h
    simp only [List.cons.injEq, Part.node.injEq, Part.token.injEq, heq_eq_eq, true_and] at h2
    rw [h1, h2.1, h2.2.1, optPart_node_inj (k := .alterName) h2.2.2]
  | .subseqAlter, ⟨x1, x2, x3, x4⟩, ⟨y1, y2, y3, y4⟩, h => by
    simp only [parts, List.append_assoc, List.cons_append, List.nil_append] at h
    obtain ⟨h1, h2⟩ := optPart_token_inj (by simp) (by simp) h
    simp only [List.cons.injEq, Part.node.injEq, Part.token.injEq, heq_eq_eq, true_and] at h2
    rw [h1, h2.1, h2.2.1, optPart_node_inj (k := .alterName) h2.2.2]
  | .alterName, ⟨x1, x2⟩, ⟨y1, y2⟩, h => by
    simp [parts] at h
    rw [h.1, h.2]
  | .concatenation, .mk rs, .mk rs', h => congrArg PtConcatenation.mk (map_node_inj (k := .repetition) h)
  | .repetition, x, y, h => by
    cases x <;> cases y <;> simp [parts] at h
    · rfl
    · rw [h.1, h.2]
    · rw [h.1, h.2]
    · rw [h.1, h.2]
    · rw [h]
  | .singular, x, y, h => by
    cases x <;> cases y <;> simp [parts] at h
    · rfl
    · rw [h.1, h.2.1, h.2.2]
    · rw [h]
    · rw [h]
    · rw [h]
    · rw [h]

theorem Terminals.length {ps qs : List (Part Sp)} (hs : SameShape ps qs) : ∀ {l l' : List (Leaf Sp)},
    Terminals ps l → Terminals qs l' → l.map (·.1) = l'.map (·.1) := by
  induction hs with
  | nil => intro l l' h h'; cases h; cases h'; rfl
  | token _ ih =>
    intro l l' h h'
    cases h with | token h => cases h' with | token h' => simp [ih h h']
  | node _ _ ih1 ih2 =>
    intro l l' h h'
    cases h with | node h1 h2 => cases h' with | node h1' h2' => simp [ih1 h1 h1', ih2 h2 h2']

theorem SameShape.determined {ps qs : List (Part Sp)} (hs : SameShape ps qs) : ∀ {l : List (Leaf Sp)},
    Terminals ps l → Terminals qs l → ps = qs := by
  induction hs with
  | nil => intros; rfl
  | token _ ih =>
    intro l h h'
    cases h with | token h => cases h' with | token h' => rw [ih h h']
  | @node k x y ps qs hs1 _ ih1 ih2 =>
    intro l h h'
    generalize hm : l = m at h'
    cases h with
    | @node _ _ _ l1 l2 h1 h2 =>
      cases h' with
      | @node _ _ _ l1' l2' h1' h2' =>
        have h3 : l1.length = l1'.length := by simpa using congrArg List.length (Terminals.length hs1 h1 h1')
        obtain ⟨rfl, rfl⟩ := List.append_inj hm h3
        rw [ih2 h2 h2', parts_inj (ih1 h1 h1')]

end PPC.Pangram
