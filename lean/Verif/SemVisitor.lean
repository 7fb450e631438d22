import Verif.SpecVisitor

/-!
# Visitors: lemmas
-/

namespace PPC.Pangram

open PPC

variable {Sp V E : Type}

/-! ## Induction over trees -/

theorem mem_optPart {α : Type} {f : α → Part Sp} {x : Option α} {p : Part Sp} : p ∈ optPart f x ↔ ∃ y, x = some y ∧ p = f y := by
  cases x <;> simp [optPart]

section

variable {P : (k : NT) → NT.out Sp k → Prop}
  (h : ∀ (k : NT) (x : NT.out Sp k), (∀ k' y, Part.node k' y ∈ parts x → P k' y) → P k x)

include h

mutual

theorem ind_alternation : ∀ x : PtAlternation Sp, P .alternation x
  | .mk c bs => h .alternation _ fun k' y hy => by
    rcases List.mem_cons.1 hy with hy | hy
    · cases hy
      exact ind_concatenation c
    · obtain ⟨⟨b, c'⟩, h1, h2⟩ := List.mem_flatMap.1 hy
      simp at h2
      obtain ⟨rfl, h2⟩ := h2
      cases h2
      exact ind_bars bs _ h1

theorem ind_bars : ∀ (bs : List (Pt .bar Sp × PtConcatenation Sp)) (p : Pt .bar Sp × PtConcatenation Sp), p ∈ bs →
    P .concatenation p.2
  | (b, c) :: bs, p, hp => by
    rcases List.mem_cons.1 hp with hp | hp
    · rw [hp]
      exact ind_concatenation c
    · exact ind_bars bs p hp

theorem ind_concatenation : ∀ x : PtConcatenation Sp, P .concatenation x
  | .mk rs => h .concatenation _ fun k' y hy => by
    obtain ⟨r, h1, h2⟩ := List.mem_map.1 hy
    cases h2
    exact ind_repetitions rs _ h1

theorem ind_repetitions : ∀ (rs : List (PtRepetition Sp)) (r : PtRepetition Sp), r ∈ rs → P .repetition r
  | r' :: rs, r, hr => by
    rcases List.mem_cons.1 hr with hr | hr
    · rw [hr]
      exact ind_repetition r'
    · exact ind_repetitions rs r hr

theorem ind_repetition : ∀ x : PtRepetition Sp, P .repetition x
  | .error => h .repetition _ fun k' y hy => by cases hy
  | .maybe s q => h .repetition _ fun k' y hy => by
    simp [parts] at hy
    obtain ⟨rfl, hy⟩ := hy
    cases hy
    exact ind_singular s
  | .any s q => h .repetition _ fun k' y hy => by
    simp [parts] at hy
    obtain ⟨rfl, hy⟩ := hy
    cases hy
    exact ind_singular s
  | .many s q => h .repetition _ fun k' y hy => by
    simp [parts] at hy
    obtain ⟨rfl, hy⟩ := hy
    cases hy
    exact ind_singular s
  | .one s => h .repetition _ fun k' y hy => by
    simp [parts] at hy
    obtain ⟨rfl, hy⟩ := hy
    cases hy
    exact ind_singular s

theorem ind_singular : ∀ x : PtSingular Sp, P .singular x
  | .error => h .singular _ fun k' y hy => by cases hy
  | .nested l a r => h .singular _ fun k' y hy => by
    simp [parts] at hy
    obtain ⟨rfl, hy⟩ := hy
    cases hy
    exact ind_alternation a
  | .symbol x => h .singular _ fun k' y hy => by simp [parts] at hy
  | .stringLiteral x => h .singular _ fun k' y hy => by simp [parts] at hy
  | .characterSet x => h .singular _ fun k' y hy => by simp [parts] at hy
  | .characterLiteral x => h .singular _ fun k' y hy => by simp [parts] at hy

end

theorem ind_alterName (x : PtAlterName Sp) : P .alterName x := h .alterName _ fun k' y hy => by simp [parts] at hy

theorem ind_firstAlter (x : PtFirstAlter Sp) : P .firstAlter x := h .firstAlter _ fun k' y hy => by
  simp [parts, mem_optPart] at hy
  rcases hy with ⟨rfl, hy⟩ | ⟨z, _, rfl, hy⟩ <;> cases hy
  · exact ind_concatenation h _
  · exact ind_alterName h _

theorem ind_subseqAlter (x : PtSubseqAlter Sp) : P .subseqAlter x := h .subseqAlter _ fun k' y hy => by
  simp [parts, mem_optPart] at hy
  rcases hy with ⟨rfl, hy⟩ | ⟨z, _, rfl, hy⟩ <;> cases hy
  · exact ind_concatenation h _
  · exact ind_alterName h _

theorem ind_rule (x : PtRule Sp) : P .rule x := h .rule _ fun k' y hy => by
  cases x with
  | error => cases hy
  | tokenRule x1 x2 x3 x4 x5 =>
    simp [parts, mem_optPart] at hy
    obtain ⟨rfl, hy⟩ := hy
    cases hy
    exact ind_alternation h _
  | whitespaceRule x1 x2 x3 x4 x5 =>
    simp [parts, mem_optPart] at hy
    obtain ⟨rfl, hy⟩ := hy
    cases hy
    exact ind_alternation h _
  | grammarRule x1 x2 x3 x4 x5 =>
    simp [parts, mem_optPart] at hy
    rcases hy with ⟨rfl, hy⟩ | ⟨z, _, rfl, hy⟩ <;> cases hy
    · exact ind_firstAlter h _
    · exact ind_subseqAlter h _

/-- What holds for a node if it holds for its parts holds for all nodes. -/
theorem part_induction : ∀ (k : NT) (x : NT.out Sp k), P k x
  | .grammar, x => h .grammar _ fun k' y hy => by
    simp [parts] at hy
    obtain ⟨z, _, rfl, hy⟩ := hy
    cases hy
    exact ind_rule h _
  | .rule, x => ind_rule h x
  | .alternation, x => ind_alternation h x
  | .firstAlter, x => ind_firstAlter h x
  | .subseqAlter, x => ind_subseqAlter h x
  | .alterName, x => ind_alterName h x
  | .concatenation, x => ind_concatenation h x
  | .repetition, x => ind_repetition h x
  | .singular, x => ind_singular h x

end

/-! ## Visiting the parts one after the other -/

/-- A visit of a part. -/
def visitPart (v : Visitor Sp V E) : Part Sp → Eff V E
  | .token k x => v.token k x
  | .node _ x => visit v x

section

variable {α : Type} {f : α → Eff V E}

theorem runAll_nil : runAll f [] = .ok := rfl

theorem runAll_cons {x : α} {xs : List α} : runAll f (x :: xs) = (f x).next (runAll f xs) := rfl

theorem Eff.ok_next {a : Eff V E} : Eff.ok.next a = a := rfl

theorem Eff.next_ok {a : Eff V E} : a.next .ok = a := by
  funext s
  unfold Eff.next Eff.ok
  split <;> (rename_i h; rw [h])

theorem Eff.next_assoc {a b c : Eff V E} : (a.next b).next c = a.next (b.next c) := by
  funext s
  unfold Eff.next
  cases h : a s with
  | mk r s' => cases r <;> rfl

theorem runAll_append {xs ys : List α} : runAll f (xs ++ ys) = (runAll f xs).next (runAll f ys) := by
  induction xs with
  | nil => rfl
  | cons x xs ih => rw [List.cons_append, runAll_cons, runAll_cons, ih, Eff.next_assoc]

theorem runAll_map {β : Type} {g : β → α} {xs : List β} : runAll f (xs.map g) = visitVec (fun x => f (g x)) xs := by
  induction xs with
  | nil => rfl
  | cons x xs ih => rw [List.map_cons, runAll_cons, visitVec, ih]

theorem runAll_optPart {α : Type} {f : Part Sp → Eff V E} {g : α → Part Sp} {x : Option α} :
    runAll f (optPart g x) = visitOption (fun x => f (g x)) x := by
  cases x with
  | none => rfl
  | some x => exact Eff.next_ok

end

variable (v : Visitor Sp V E)

theorem visitBars_eq : ∀ bs : List (Pt .bar Sp × PtConcatenation Sp),
    visitBars v bs = runAll (visitPart v) (bs.flatMap fun p => [.token .bar p.1, .node .concatenation p.2])
  | [] => by rw [visitBars]; rfl
  | (b, c) :: bs => by
    rw [visitBars, List.flatMap_cons, runAll_append, visitBars_eq bs, runAll_cons, runAll_cons, runAll_nil, Eff.next_ok]
    rfl

theorem visitRepetitions_eq : ∀ rs : List (PtRepetition Sp),
    visitRepetitions v rs = visitVec (visitRepetition v) rs
  | [] => by rw [visitRepetitions]; rfl
  | r :: rs => by rw [visitRepetitions, visitVec, visitRepetitions_eq rs]

/-- A visit of a node is a call of its method, which is given the visits of its parts. -/
theorem visit_eq : ∀ (k : NT) (x : NT.out Sp k), visit v x = v.node k x (runAll (visitPart v) (parts x))
  | .grammar, x => by rw [parts, runAll_map]; rfl
  | .rule, .error => rfl
  | .rule, .tokenRule x1 x2 x3 x4 x5 => by
    simp only [parts, runAll_append, runAll_cons, runAll_nil, runAll_optPart, Eff.next_ok]
    simp only [visit, visitRule, Eff.next_assoc]; rfl
  | .rule, .whitespaceRule x1 x2 x3 x4 x5 => by
    simp only [parts, runAll_append, runAll_cons, runAll_nil, runAll_optPart, Eff.next_ok]
    simp only [visit, visitRule, Eff.next_assoc]; rfl
  | .rule, .grammarRule x1 x2 x3 x4 x5 => by
    simp only [parts, runAll_append, runAll_cons, runAll_nil, runAll_optPart, runAll_map, Eff.next_ok]
    simp only [visit, visitRule, Eff.next_assoc]; rfl
  | .alternation, .mk c bs => by
    simp only [parts, runAll_cons, ← visitBars_eq]
    simp only [visit, visitAlternation]; rfl
  | .firstAlter, x => by
    simp only [parts, runAll_append, runAll_cons, runAll_nil, runAll_optPart, Eff.next_ok]
    simp only [visit, visitFirstAlter, Eff.next_assoc]; rfl
  | .subseqAlter, x => by
    simp only [parts, runAll_append, runAll_cons, runAll_nil, runAll_optPart, Eff.next_ok]
    simp only [visit, visitSubseqAlter, Eff.next_assoc]; rfl
  | .alterName, x => by
    simp only [parts, runAll_cons, runAll_nil, Eff.next_ok]; rfl
  | .concatenation, .mk rs => by
    simp only [parts, runAll_map]
    simp only [visit, visitConcatenation, visitRepetitions_eq]; rfl
  | .repetition, .error => by simp only [visit, visitRepetition]; rfl
  | .repetition, .maybe s q => by
    simp only [parts, runAll_cons, runAll_nil, Eff.next_ok]; simp only [visit, visitRepetition]; rfl
  | .repetition, .any s q => by
    simp only [parts, runAll_cons, runAll_nil, Eff.next_ok]; simp only [visit, visitRepetition]; rfl
  | .repetition, .many s q => by
    simp only [parts, runAll_cons, runAll_nil, Eff.next_ok]; simp only [visit, visitRepetition]; rfl
  | .repetition, .one s => by
    simp only [parts, runAll_cons, runAll_nil, Eff.next_ok]; simp only [visit, visitRepetition]; rfl
  | .singular, .error => by simp only [visit, visitSingular]; rfl
  | .singular, .nested l a r => by
    simp only [parts, runAll_cons, runAll_nil, Eff.next_ok]; simp only [visit, visitSingular, Eff.next_assoc]; rfl
  | .singular, .symbol x => by
    simp only [parts, runAll_cons, runAll_nil, Eff.next_ok]; simp only [visit, visitSingular]; rfl
  | .singular, .stringLiteral x => by
    simp only [parts, runAll_cons, runAll_nil, Eff.next_ok]; simp only [visit, visitSingular]; rfl
  | .singular, .characterSet x => by
    simp only [parts, runAll_cons, runAll_nil, Eff.next_ok]; simp only [visit, visitSingular]; rfl
  | .singular, .characterLiteral x => by
    simp only [parts, runAll_cons, runAll_nil, Eff.next_ok]; simp only [visit, visitSingular]; rfl

/-! ## Terminal nodes -/

theorem Terminals.append {ps qs : List (Part Sp)} {l l' : List (Leaf Sp)} (h : Terminals ps l) (h' : Terminals qs l') :
    Terminals (ps ++ qs) (l ++ l') := by
  induction h with
  | nil => exact h'
  | token _ ih => exact .token ih
  | node h1 _ _ ih2 => rw [List.cons_append, List.append_assoc]; exact .node h1 ih2

theorem Terminals.unique {ps : List (Part Sp)} {l l' : List (Leaf Sp)} (h : Terminals ps l) (h' : Terminals ps l') :
    l = l' := by
  induction h generalizing l' with
  | nil => cases h'; rfl
  | token _ ih => cases h' with | token h' => rw [ih h']
  | node _ _ ih1 ih2 => cases h' with | node h1 h2 => rw [ih1 h1, ih2 h2]

theorem terminals_parts {ps : List (Part Sp)} (h : ∀ k y, Part.node k y ∈ ps → ∃ l, Terminals (parts y) l) :
    ∃ l, Terminals ps l := by
  induction ps with
  | nil => exact ⟨[], .nil⟩
  | cons p ps ih =>
    obtain ⟨l, hl⟩ := ih fun k y hy => h k y (List.mem_cons_of_mem _ hy)
    cases p with
    | token k x => exact ⟨_, .token hl⟩
    | node k x =>
      obtain ⟨l', hl'⟩ := h k x (List.mem_cons_self ..)
      exact ⟨_, .node hl' hl⟩

theorem terminals_exist (k : NT) (x : NT.out Sp k) : ∃ l, Terminals (parts x) l :=
  part_induction (P := fun _ x => ∃ l, Terminals (parts x) l) (fun _ _ h => terminals_parts h) k x

/-- The visits of terminal nodes one after the other. -/
theorem visit_terminals {v : Visitor Sp V E} (hv : v.node = fun _ _ t => t) {ps : List (Part Sp)} {l : List (Leaf Sp)}
    (h : Terminals ps l) : runAll (visitPart v) ps = runAll (fun y => v.token y.1 y.2) l := by
  induction h with
  | nil => rfl
  | token _ ih => rw [runAll_cons, runAll_cons, ih]; rfl
  | node _ _ ih1 ih2 =>
    rw [runAll_cons, runAll_append, ← ih1, ← ih2]
    show (visit v _).next _ = _
    rw [visit_eq, hv]

/-- The visits on a tour. -/
theorem visit_tour {v : Visitor Sp V E} {enter leave : (k : NT) → NT.out Sp k → Eff V E} {p : (k : NT) → NT.out Sp k → Bool}
    (hv : v.node = fun k x t => (enter k x).next ((if p k x then t else .ok).next (leave k x)))
    {ps : List (Part Sp)} {l : List (Event Sp)} (h : Tour p ps l) :
    runAll (visitPart v) ps = runAll (fun
      | .enter k x => enter k x
      | .token k x => v.token k x
      | .leave k x => leave k x) l := by
  induction h with
  | nil => rfl
  | token _ ih => rw [runAll_cons, runAll_cons, ih]; rfl
  | node hp _ _ ih1 ih2 =>
    rw [runAll_cons, List.cons_append, runAll_cons, runAll_append, runAll_cons, ← ih1, ← ih2]
    show (visit v _).next _ = _
    rw [visit_eq, hv]
    simp only [hp, if_true, Eff.next_assoc]
  | skip hp _ ih =>
    rw [runAll_cons, runAll_cons, runAll_cons, ← ih]
    show (visit v _).next _ = _
    rw [visit_eq, hv]
    simp only [hp, Eff.next_assoc]
    rfl

theorem tour_parts {p : (k : NT) → NT.out Sp k → Bool} {ps : List (Part Sp)}
    (h : ∀ k y, Part.node k y ∈ ps → ∃ l, Tour p (parts y) l) : ∃ l, Tour p ps l := by
  induction ps with
  | nil => exact ⟨[], .nil⟩
  | cons a ps ih =>
    obtain ⟨l, hl⟩ := ih fun k y hy => h k y (List.mem_cons_of_mem _ hy)
    cases a with
    | token k x => exact ⟨_, .token hl⟩
    | node k x =>
      obtain ⟨l', hl'⟩ := h k x (List.mem_cons_self ..)
      cases hp : p k x with
      | true => exact ⟨_, .node hp hl' hl⟩
      | false => exact ⟨_, .skip hp hl⟩

theorem tour_exists (p : (k : NT) → NT.out Sp k → Bool) (k : NT) (x : NT.out Sp k) : ∃ l, Tour p [.node k x] l := by
  refine tour_parts fun k' y hy => ?_
  exact part_induction (P := fun _ y => ∃ l, Tour p (parts y) l) (fun _ _ h => tour_parts h) k' y

/-! ## Shapes -/

theorem sameShape_parts {ps : List (Part Sp)} (h : ∀ k y, Part.node k y ∈ ps → SameShape (parts y) (parts y)) :
    SameShape ps ps := by
  induction ps with
  | nil => exact .nil
  | cons p ps ih =>
    have := ih fun k y hy => h k y (List.mem_cons_of_mem _ hy)
    cases p with
    | token k x => exact .token this
    | node k x => exact .node (h k x (List.mem_cons_self ..)) this

theorem SameShape.refl (ps : List (Part Sp)) : SameShape ps ps :=
  sameShape_parts fun k y _ =>
    part_induction (P := fun _ y => SameShape (parts y) (parts y)) (fun _ _ h => sameShape_parts h) k y

theorem SameShape.append {ps qs ps' qs' : List (Part Sp)} (h : SameShape ps qs) (h' : SameShape ps' qs') :
    SameShape (ps ++ ps') (qs ++ qs') := by
  induction h with
  | nil => exact h'
  | token _ ih => exact .token ih
  | node h1 _ _ ih2 => exact .node h1 ih2

theorem runAllMut_append {α : Type} {f : α → EffMut V E α} {xs ys : List α} :
    runAllMut f (xs ++ ys) = ((runAllMut f xs).next ys (runAllMut f ys)).as fun p => p.1 ++ p.2 := by
  induction xs with
  | nil => rfl
  | cons x xs ih =>
    funext s
    rw [List.cons_append, runAllMut, ih]
    simp only [EffMut.as, EffMut.next, runAllMut]
    cases f x s with
    | mk r p =>
      obtain ⟨s', y⟩ := p
      cases r with
      | error e => rfl
      | ok _ =>
        simp only
        cases runAllMut f xs s' with
        | mk r p =>
          obtain ⟨s'', ys'⟩ := p
          cases r <;> rfl

/-- The call leaves the shape alone and treats the terminal nodes one after the other. -/
def Good (w : VisitorMut Sp V E) {α : Type} (f : EffMut V E α) (ps : α → List (Part Sp)) (x : α) : Prop :=
  ∀ s l, Terminals (ps x) l → ∃ r s' x' l', f s = (r, s', x') ∧ SameShape (ps x) (ps x') ∧ Terminals (ps x') l' ∧
    runAllMut (onLeaf w) l s = (r, s', l')

section

variable {w : VisitorMut Sp V E} {α β : Type}

theorem good_token {k : TokenType} {x : Pt k Sp} : Good w (w.token k x) (fun x => [.token k x]) x := by
  intro s l h
  cases h with
  | token h =>
    cases h
    cases h : w.token k x s with
    | mk r p =>
      refine ⟨r, p.1, p.2, _, rfl, .token .nil, .token .nil, ?_⟩
      simp only [runAllMut, onLeaf, h]
      cases r <;> rfl

theorem terminals_append {ps qs : List (Part Sp)} {l : List (Leaf Sp)} (h : Terminals (ps ++ qs) l) :
    ∃ l1 l2, Terminals ps l1 ∧ Terminals qs l2 ∧ l = l1 ++ l2 := by
  obtain ⟨l1, h1⟩ := terminals_parts (ps := ps) fun k y _ => terminals_exist k y
  obtain ⟨l2, h2⟩ := terminals_parts (ps := qs) fun k y _ => terminals_exist k y
  exact ⟨l1, l2, h1, h2, h.unique (h1.append h2)⟩

theorem good_next {f : EffMut V E α} {g : EffMut V E β} {ps : α → List (Part Sp)} {qs : β → List (Part Sp)} {x : α} {y : β}
    (hf : Good w f ps x) (hg : Good w g qs y) : Good w (f.next y g) (fun p => ps p.1 ++ qs p.2) (x, y) := by
  intro s l h
  obtain ⟨l1, l2, h1, h2, rfl⟩ := terminals_append h
  obtain ⟨r, s', x', l1', h3, h4, h5, h6⟩ := hf s l1 h1
  simp only [runAllMut_append, EffMut.as, EffMut.next, h3, h6]
  cases r with
  | error e => exact ⟨_, _, _, _, rfl, h4.append (.refl _), h5.append h2, rfl⟩
  | ok _ =>
    obtain ⟨r, s'', y', l2', h7, h8, h9, h10⟩ := hg s' l2 h2
    simp only [h7, h10]
    exact ⟨_, _, _, _, rfl, h4.append h8, h5.append h9, rfl⟩

theorem good_as {f : EffMut V E α} {c : α → β} {ps : α → List (Part Sp)} {qs : β → List (Part Sp)} {x : α}
    (hf : Good w f ps x) (h : ∀ x, ps x = qs (c x)) : Good w (f.as c) qs (c x) := by
  intro s l hl
  rw [← h] at hl
  obtain ⟨r, s', x', l', h1, h2, h3, h4⟩ := hf s l hl
  simp only [EffMut.as, h1]
  exact ⟨_, _, _, _, rfl, h x ▸ h x' ▸ h2, h x' ▸ h3, h4⟩

theorem good_nil {x : α} : Good w (fun s => (.ok (), s, x)) (fun _ => []) x := by
  intro s l h
  cases h
  exact ⟨_, _, _, _, rfl, .nil, .nil, rfl⟩

theorem good_option {f : α → EffMut V E α} {c : α → Part Sp} (hf : ∀ x, Good w (f x) (fun x => [c x]) x) :
    ∀ x : Option α, Good w (visitOptionMut f x) (optPart c) x
  | none => by
    intro s l h
    cases h
    exact ⟨_, _, _, _, rfl, .nil, .nil, rfl⟩
  | some x => good_as (qs := optPart c) (hf x) fun _ => rfl

theorem good_vec {f : α → EffMut V E α} {c : α → Part Sp} (hf : ∀ x, Good w (f x) (fun x => [c x]) x) :
    ∀ xs : List α, Good w (visitVecMut f xs) (fun xs => xs.map c) xs
  | [] => by
    intro s l h
    cases h
    exact ⟨_, _, _, _, rfl, .nil, .nil, rfl⟩
  | x :: xs => good_as (c := fun p : α × List α => p.1 :: p.2) (qs := fun xs => xs.map c) (x := (x, xs))
      (good_next (hf x) (good_vec hf xs)) fun _ => rfl

/-- As a part of another node. -/
theorem Good.part {k : NT} {x : NT.out Sp k} (h : Good w (visitMut w x) parts x) :
    Good w (visitMut w x) (fun x => [.node k x]) x := by
  intro s l hl
  cases hl with
  | node h1 h2 =>
    cases h2
    obtain ⟨r, s', x', l', h3, h4, h5, h6⟩ := h s _ h1
    refine ⟨r, s', x', l' ++ [], h3, .node h4 .nil, .node h5 .nil, ?_⟩
    simpa using h6

end

section

variable {w : VisitorMut Sp V E} (hw : w.node = fun _ _ t => t)

include hw

mutual

theorem good_alternation : ∀ x : PtAlternation Sp, Good w (visitAlternationMut w x) (parts (k := .alternation)) x
  | .mk c bs => by
    rw [visitAlternationMut, hw]
    exact good_as (c := fun p : PtConcatenation Sp × List (Pt .bar Sp × PtConcatenation Sp) => PtAlternation.mk p.1 p.2)
      (x := (c, bs)) (good_next (Good.part (k := .concatenation) (good_concatenation c)) (good_bars bs)) fun _ => rfl

theorem good_bars : ∀ bs : List (Pt .bar Sp × PtConcatenation Sp), Good w (visitBarsMut w bs)
    (fun bs => bs.flatMap fun p => [.token .bar p.1, .node .concatenation p.2]) bs
  | [] => by
    rw [visitBarsMut]
    intro s l h
    cases h
    exact ⟨_, _, _, _, rfl, .nil, .nil, rfl⟩
  | (b, c) :: bs => by
    rw [visitBarsMut]
    exact good_as (c := fun p : (Pt .bar Sp × PtConcatenation Sp) × List (Pt .bar Sp × PtConcatenation Sp) => p.1 :: p.2)
      (qs := fun bs => bs.flatMap fun p => [.token .bar p.1, .node .concatenation p.2])
      (x := ((b, c), bs)) (good_next (good_next good_token (Good.part (k := .concatenation) (good_concatenation c))) (good_bars bs))
      fun _ => rfl

theorem good_concatenation : ∀ x : PtConcatenation Sp, Good w (visitConcatenationMut w x) (parts (k := .concatenation)) x
  | .mk rs => by
    rw [visitConcatenationMut, hw]
    exact good_as (c := PtConcatenation.mk) (x := rs) (good_repetitions rs) fun _ => rfl

theorem good_repetitions : ∀ rs : List (PtRepetition Sp), Good w (visitRepetitionsMut w rs)
    (fun rs => rs.map (.node .repetition)) rs
  | [] => by
    rw [visitRepetitionsMut]
    intro s l h
    cases h
    exact ⟨_, _, _, _, rfl, .nil, .nil, rfl⟩
  | r :: rs => by
    rw [visitRepetitionsMut]
    exact good_as (c := fun p : PtRepetition Sp × List (PtRepetition Sp) => p.1 :: p.2)
      (qs := fun rs => rs.map (.node .repetition)) (x := (r, rs))
      (good_next (Good.part (k := .repetition) (good_repetition r)) (good_repetitions rs)) fun _ => rfl

theorem good_repetition : ∀ x : PtRepetition Sp, Good w (visitRepetitionMut w x) (parts (k := .repetition)) x
  | .error => by
    rw [visitRepetitionMut, hw]
    intro s l h
    cases h
    exact ⟨_, _, _, _, rfl, .nil, .nil, rfl⟩
  | .maybe s q => by
    rw [visitRepetitionMut, hw]
    exact good_as (c := fun p : PtSingular Sp × Pt .qst Sp => PtRepetition.maybe p.1 p.2) (x := (s, q))
      (good_next (Good.part (k := .singular) (good_singular s)) good_token) fun _ => rfl
  | .any s q => by
    rw [visitRepetitionMut, hw]
    exact good_as (c := fun p : PtSingular Sp × Pt .ast Sp => PtRepetition.any p.1 p.2) (x := (s, q))
      (good_next (Good.part (k := .singular) (good_singular s)) good_token) fun _ => rfl
  | .many s q => by
    rw [visitRepetitionMut, hw]
    exact good_as (c := fun p : PtSingular Sp × Pt .pls Sp => PtRepetition.many p.1 p.2) (x := (s, q))
      (good_next (Good.part (k := .singular) (good_singular s)) good_token) fun _ => rfl
  | .one s => by
    rw [visitRepetitionMut, hw]
    exact good_as (c := PtRepetition.one) (Good.part (k := .singular) (good_singular s)) fun _ => rfl

theorem good_singular : ∀ x : PtSingular Sp, Good w (visitSingularMut w x) (parts (k := .singular)) x
  | .error => by
    rw [visitSingularMut, hw]
    intro s l h
    cases h
    exact ⟨_, _, _, _, rfl, .nil, .nil, rfl⟩
  | .nested l a r => by
    rw [visitSingularMut, hw]
    exact good_as (c := fun p : (Pt .lp Sp × PtAlternation Sp) × Pt .rp Sp => PtSingular.nested p.1.1 p.1.2 p.2) (x := ((l, a), r))
      (good_next (good_next good_token (Good.part (k := .alternation) (good_alternation a))) good_token) fun _ => rfl
  | .symbol x => by rw [visitSingularMut, hw]; exact good_as (c := PtSingular.symbol) good_token fun _ => rfl
  | .stringLiteral x => by rw [visitSingularMut, hw]; exact good_as (c := PtSingular.stringLiteral) good_token fun _ => rfl
  | .characterSet x => by rw [visitSingularMut, hw]; exact good_as (c := PtSingular.characterSet) good_token fun _ => rfl
  | .characterLiteral x => by rw [visitSingularMut, hw]; exact good_as (c := PtSingular.characterLiteral) good_token fun _ => rfl

end

theorem good_alterName (x : PtAlterName Sp) : Good w (visitAlterNameMut w x) (parts (k := .alterName)) x := by
  rw [visitAlterNameMut, hw]
  exact good_as (c := fun p : Pt .minGt Sp × Pt .symbol Sp => PtAlterName.mk p.1 p.2) (x := (x.x1, x.x2))
    (good_next good_token good_token) fun _ => rfl

theorem good_firstAlter (x : PtFirstAlter Sp) : Good w (visitFirstAlterMut w x) (parts (k := .firstAlter)) x := by
  rw [visitFirstAlterMut, hw]
  exact good_as (c := fun p : ((Option (Pt .doc Sp) × Pt .colColEq Sp) × PtConcatenation Sp) × Option (PtAlterName Sp) =>
      PtFirstAlter.mk p.1.1.1 p.1.1.2 p.1.2 p.2) (x := (((x.x1, x.x2), x.x3), x.x4))
    (good_next (good_next (good_next (good_option (fun _ => good_token) _) good_token)
      (Good.part (k := .concatenation) (good_concatenation hw _)))
      (good_option (fun _ => Good.part (k := .alterName) (good_alterName hw _)) _)) fun _ => by simp [parts]

theorem good_subseqAlter (x : PtSubseqAlter Sp) : Good w (visitSubseqAlterMut w x) (parts (k := .subseqAlter)) x := by
  rw [visitSubseqAlterMut, hw]
  exact good_as (c := fun p : ((Option (Pt .doc Sp) × Pt .bar Sp) × PtConcatenation Sp) × Option (PtAlterName Sp) =>
      PtSubseqAlter.mk p.1.1.1 p.1.1.2 p.1.2 p.2) (x := (((x.x1, x.x2), x.x3), x.x4))
    (good_next (good_next (good_next (good_option (fun _ => good_token) _) good_token)
      (Good.part (k := .concatenation) (good_concatenation hw _)))
      (good_option (fun _ => Good.part (k := .alterName) (good_alterName hw _)) _)) fun _ => by simp [parts]

theorem good_rule : ∀ x : PtRule Sp, Good w (visitRuleMut w x) (parts (k := .rule)) x
  | .error => by
    rw [visitRuleMut, hw]
    intro s l h
    cases h
    exact ⟨_, _, _, _, rfl, .nil, .nil, rfl⟩
  | .tokenRule x1 x2 x3 x4 x5 => by
    rw [visitRuleMut, hw]
    exact good_as (c := fun p : (((Option (Pt .doc Sp) × Pt .symbol Sp) × Pt .colEqEq Sp) × PtAlternation Sp) × Pt .sem Sp =>
        PtRule.tokenRule p.1.1.1.1 p.1.1.1.2 p.1.1.2 p.1.2 p.2) (x := ((((x1, x2), x3), x4), x5))
      (good_next (good_next (good_next (good_next (good_option (fun _ => good_token) _) good_token) good_token)
        (Good.part (k := .alternation) (good_alternation hw _))) good_token) fun _ => by simp [parts]
  | .whitespaceRule x1 x2 x3 x4 x5 => by
    rw [visitRuleMut, hw]
    exact good_as (c := fun p : (((Option (Pt .doc Sp) × Pt .usc Sp) × Pt .colEqEq Sp) × PtAlternation Sp) × Pt .sem Sp =>
        PtRule.whitespaceRule p.1.1.1.1 p.1.1.1.2 p.1.1.2 p.1.2 p.2) (x := ((((x1, x2), x3), x4), x5))
      (good_next (good_next (good_next (good_next (good_option (fun _ => good_token) _) good_token) good_token)
        (Good.part (k := .alternation) (good_alternation hw _))) good_token) fun _ => by simp [parts]
  | .grammarRule x1 x2 x3 x4 x5 => by
    rw [visitRuleMut, hw]
    exact good_as (c := fun p : (((Option (Pt .doc Sp) × Pt .symbol Sp) × PtFirstAlter Sp) × List (PtSubseqAlter Sp)) × Pt .sem Sp =>
        PtRule.grammarRule p.1.1.1.1 p.1.1.1.2 p.1.1.2 p.1.2 p.2) (x := ((((x1, x2), x3), x4), x5))
      (good_next (good_next (good_next (good_next (good_option (fun _ => good_token) _) good_token)
        (Good.part (k := .firstAlter) (good_firstAlter hw _)))
        (good_vec (fun _ => Good.part (k := .subseqAlter) (good_subseqAlter hw _)) _)) good_token) fun _ => by simp [parts]

theorem good_all : ∀ {k : NT} (x : NT.out Sp k), Good w (visitMut w x) parts x
  | .grammar, x => by
    rw [visitMut, visitGrammarMut, hw]
    exact good_as (c := PtGrammar.mk) (x := x.x1)
      (good_vec (fun _ => Good.part (k := .rule) (good_rule hw _)) _) fun _ => rfl
  | .rule, x => good_rule hw x
  | .alternation, x => good_alternation hw x
  | .firstAlter, x => good_firstAlter hw x
  | .subseqAlter, x => good_subseqAlter hw x
  | .alterName, x => good_alterName hw x
  | .concatenation, x => good_concatenation hw x
  | .repetition, x => good_repetition hw x
  | .singular, x => good_singular hw x

end

end PPC.Pangram
