import Verif.SemSelfSpec
import Verif.SpecPangram

/-!
# Token sequences described by the grammar of grammar files in its own notation
-/

namespace PPC.Pangram

open Ebnf

variable {Sp : Type}

/-- The types of tokens. -/
def types (l : List (TokenData Sp)) : List TokenType := l.map (·.token.tokenType)

theorem types_append {l l' : List (TokenData Sp)} : types (l ++ l') = types l ++ types l' := List.map_append ..

theorem types_numbered (ts : List (TerminalToken TokenType Sp)) : ∀ i, types (numbered i ts) = ts.map (·.tokenType) := by
  induction ts with
  | nil => intro i; rfl
  | cons t ts ih => intro i; simp [numbered, types, ← ih (i + 1)]

theorem numbered_append (ts us : List (TerminalToken TokenType Sp)) : ∀ i,
    numbered i (ts ++ us) = numbered i ts ++ numbered (i + ts.length) us := by
  induction ts with
  | nil => intro i; rfl
  | cons t ts ih => intro i; simp [numbered, ih (i + 1), Nat.add_comm 1, Nat.add_assoc]

/-! ## Trees are described -/

/-- What an expression describes. -/
abbrev Der (x : Ebnf NT TokenType) (w : List TokenType) : Prop := Derives production (· = ·) x w

theorem der_pt {k : TokenType} {x : Pt k Sp} (h : x.Complete) : Der (.tok k) (types x.leaves) := by
  obtain ⟨d, h1, rfl⟩ := h
  simp only [Pt.leaves, h1, Option.toList, types, List.map]
  exact .tok rfl

theorem der_opt {α : Type} {C : α → Prop} {lv : α → List (TokenData Sp)} {e : Ebnf NT TokenType}
    (h : ∀ x, C x → Der e (types (lv x))) {x : Option α} (hx : OptComplete C x) : Der (.opt e) (types (optLeaves lv x)) := by
  cases x with
  | none => exact .optNone
  | some x => exact .optSome (h x (hx x rfl))

theorem der_row {α : Type} {C : α → Prop} {lv : α → List (TokenData Sp)} {e : Ebnf NT TokenType}
    (h : ∀ x, C x → Der e (types (lv x))) : ∀ {xs : List α}, (∀ x ∈ xs, C x) → Der (.star e) (types (rowLeaves lv xs))
  | [], _ => .starNone
  | x :: xs, hx => by
    rw [rowLeaves, types_append]
    exact .starMore (h x (hx x (List.mem_cons_self ..))) (der_row h fun y hy => hx y (List.mem_cons_of_mem _ hy))

mutual

theorem der_alternation : ∀ {x : PtAlternation Sp}, x.Complete → Der (.name .alternation) (types x.leaves)
  | .mk c bs, h => by
    have ⟨h1, h2⟩ : c.Complete ∧ BarsComplete bs := by cases h with | mk h1 h2 => exact ⟨h1, h2⟩
    rw [PtAlternation.leaves, types_append]
    exact .name (.seq (der_concatenation h1) (der_bars h2))

theorem der_bars : ∀ {bs : List (Pt .bar Sp × PtConcatenation Sp)}, BarsComplete bs →
    Der (.star (.seq (.tok .bar) (.name .concatenation))) (types (barsLeaves bs))
  | [], _ => by rw [barsLeaves]; exact .starNone
  | (b, c) :: bs, h => by
    have ⟨h1, h2, h3⟩ : b.Complete ∧ c.Complete ∧ BarsComplete bs := by cases h with | cons h1 h2 h3 => exact ⟨h1, h2, h3⟩
    rw [barsLeaves, types_append, types_append]
    exact .starMore (.seq (der_pt h1) (der_concatenation h2)) (der_bars h3)

theorem der_concatenation : ∀ {x : PtConcatenation Sp}, x.Complete → Der (.name .concatenation) (types x.leaves)
  | .mk [], h => by cases h with | mk h1 _ => exact (h1 rfl).elim
  | .mk (r :: rs), h => by
    have ⟨h1, h2⟩ : r.Complete ∧ RepsComplete rs := by
      cases h with
      | mk _ h2 => cases h2 with | cons h1 h2 => exact ⟨h1, h2⟩
    rw [PtConcatenation.leaves, repsLeaves, types_append]
    exact .name (.plus (der_repetition h1) (der_reps h2))

theorem der_reps : ∀ {rs : List (PtRepetition Sp)}, RepsComplete rs →
    Der (.star (.name .repetition)) (types (repsLeaves rs))
  | [], _ => by rw [repsLeaves]; exact .starNone
  | r :: rs, h => by
    have ⟨h1, h2⟩ : r.Complete ∧ RepsComplete rs := by cases h with | cons h1 h2 => exact ⟨h1, h2⟩
    rw [repsLeaves, types_append]
    exact .starMore (der_repetition h1) (der_reps h2)

theorem der_repetition : ∀ {x : PtRepetition Sp}, x.Complete → Der (.name .repetition) (types x.leaves)
  | .error, h => by cases h
  | .maybe s q, h => by
    have ⟨h1, h2⟩ : s.Complete ∧ q.Complete := by cases h with | maybe h1 h2 => exact ⟨h1, h2⟩
    rw [PtRepetition.leaves, types_append]
    exact .name (.altLeft (.altLeft (.altLeft (.seq (der_singular h1) (der_pt h2)))))
  | .any s q, h => by
    have ⟨h1, h2⟩ : s.Complete ∧ q.Complete := by cases h with | any h1 h2 => exact ⟨h1, h2⟩
    rw [PtRepetition.leaves, types_append]
    exact .name (.altLeft (.altLeft (.altRight (.seq (der_singular h1) (der_pt h2)))))
  | .many s q, h => by
    have ⟨h1, h2⟩ : s.Complete ∧ q.Complete := by cases h with | many h1 h2 => exact ⟨h1, h2⟩
    rw [PtRepetition.leaves, types_append]
    exact .name (.altLeft (.altRight (.seq (der_singular h1) (der_pt h2))))
  | .one s, h => by
    have h1 : s.Complete := by cases h with | one h1 => exact h1
    rw [PtRepetition.leaves]
    exact .name (.altRight (der_singular h1))

theorem der_singular : ∀ {x : PtSingular Sp}, x.Complete → Der (.name .singular) (types x.leaves)
  | .error, h => by cases h
  | .nested l a r, h => by
    have ⟨h1, h2, h3⟩ : l.Complete ∧ a.Complete ∧ r.Complete := by cases h with | nested h1 h2 h3 => exact ⟨h1, h2, h3⟩
    rw [PtSingular.leaves, types_append, types_append]
    exact .name (.altLeft (.altLeft (.altLeft (.altLeft (.seq (.seq (der_pt h1) (der_alternation h2)) (der_pt h3))))))
  | .symbol x, h => by
    have h1 : x.Complete := by cases h with | symbol h1 => exact h1
    rw [PtSingular.leaves]
    exact .name (.altLeft (.altLeft (.altLeft (.altRight (der_pt h1)))))
  | .stringLiteral x, h => by
    have h1 : x.Complete := by cases h with | stringLiteral h1 => exact h1
    rw [PtSingular.leaves]
    exact .name (.altLeft (.altLeft (.altRight (der_pt h1))))
  | .characterSet x, h => by
    have h1 : x.Complete := by cases h with | characterSet h1 => exact h1
    rw [PtSingular.leaves]
    exact .name (.altLeft (.altRight (der_pt h1)))
  | .characterLiteral x, h => by
    have h1 : x.Complete := by cases h with | characterLiteral h1 => exact h1
    rw [PtSingular.leaves]
    exact .name (.altRight (der_pt h1))

end

theorem der_alterName {x : PtAlterName Sp} (h : x.Complete) : Der (.name .alterName) (types x.leaves) := by
  rw [PtAlterName.leaves, types_append]
  exact .name (.seq (der_pt h.1) (der_pt h.2))

theorem der_firstAlter {x : PtFirstAlter Sp} (h : x.Complete) : Der (.name .firstAlter) (types x.leaves) := by
  obtain ⟨h1, h2, h3, h4⟩ := h
  simp only [PtFirstAlter.leaves, types_append]
  exact .name (.seq (.seq (.seq (der_opt (fun _ => der_pt) h1) (der_pt h2)) (der_concatenation h3))
    (der_opt (fun _ => der_alterName) h4))

theorem der_subseqAlter {x : PtSubseqAlter Sp} (h : x.Complete) : Der (.name .subseqAlter) (types x.leaves) := by
  obtain ⟨h1, h2, h3, h4⟩ := h
  simp only [PtSubseqAlter.leaves, types_append]
  exact .name (.seq (.seq (.seq (der_opt (fun _ => der_pt) h1) (der_pt h2)) (der_concatenation h3))
    (der_opt (fun _ => der_alterName) h4))

theorem der_rule {x : PtRule Sp} (h : x.Complete) : Der (.name .rule) (types x.leaves) := by
  cases h with
  | tokenRule h1 h2 h3 h4 h5 =>
    simp only [PtRule.leaves, types_append]
    exact .name (.altLeft (.altLeft (.seq (.seq (.seq (.seq (der_opt (fun _ => der_pt) h1) (der_pt h2)) (der_pt h3))
      (der_alternation h4)) (der_pt h5))))
  | whitespaceRule h1 h2 h3 h4 h5 =>
    simp only [PtRule.leaves, types_append]
    exact .name (.altLeft (.altRight (.seq (.seq (.seq (.seq (der_opt (fun _ => der_pt) h1) (der_pt h2)) (der_pt h3))
      (der_alternation h4)) (der_pt h5))))
  | grammarRule h1 h2 h3 h4 h5 =>
    simp only [PtRule.leaves, types_append]
    exact .name (.altRight (.seq (.seq (.seq (.seq (der_opt (fun _ => der_pt) h1) (der_pt h2)) (der_firstAlter h3))
      (der_row (fun _ => der_subseqAlter) h4)) (der_pt h5)))

theorem der_grammar {x : PtGrammar Sp} (h : x.Complete) : Der (.name .grammar) (types x.leaves) := by
  obtain ⟨xs⟩ := x
  obtain ⟨h1, h2⟩ := h
  cases xs with
  | nil => exact (h1 rfl).elim
  | cons y ys =>
    simp only [PtGrammar.leaves, rowLeaves, types_append]
    exact .name (.plus (der_rule (h2 y (List.mem_cons_self ..)))
      (der_row (fun _ => der_rule) fun z hz => h2 z (List.mem_cons_of_mem _ hz)))

theorem der_tree {k : NT} {x : NT.out Sp k} (h : Complete x) : SelfDerives k (types (leaves x)) := by
  cases k with
  | grammar => exact der_grammar h
  | rule => exact der_rule h
  | alternation => exact der_alternation h
  | firstAlter => exact der_firstAlter h
  | subseqAlter => exact der_subseqAlter h
  | alterName => exact der_alterName h
  | concatenation => exact der_concatenation h
  | repetition => exact der_repetition h
  | singular => exact der_singular h

/-! ## What is described has a tree -/

/-- What an expression describes, given what the names describe. -/
def Interp (L : NT → List TokenType → Prop) : Ebnf NT TokenType → List TokenType → Prop
  | .tok t, w => w = [t]
  | .name n, w => L n w
  | .seq x y, w => ∃ u v, w = u ++ v ∧ Interp L x u ∧ Interp L y v
  | .alt x y, w => Interp L x w ∨ Interp L y w
  | .opt x, w => w = [] ∨ Interp L x w
  | .star x, w => ∃ ws : List (List TokenType), w = ws.flatten ∧ ∀ u ∈ ws, Interp L x u
  | .plus x, w => ∃ ws : List (List TokenType), ws ≠ [] ∧ w = ws.flatten ∧ ∀ u ∈ ws, Interp L x u

theorem Ebnf.Derives.interp {L : NT → List TokenType → Prop} (hL : ∀ n w, Interp L (production n) w → L n w)
    {x : Ebnf NT TokenType} {w : List TokenType} (h : Der x w) : Interp L x w := by
  induction h with
  | tok h => rw [h]; rfl
  | name _ ih => exact hL _ _ ih
  | seq _ _ ih ih' => exact ⟨_, _, rfl, ih, ih'⟩
  | altLeft _ ih => exact .inl ih
  | altRight _ ih => exact .inr ih
  | optNone => exact .inl rfl
  | optSome _ ih => exact .inr ih
  | starNone => exact ⟨[], rfl, fun u hu => by cases hu⟩
  | starMore _ _ ih ih' =>
    obtain ⟨ws, rfl, h⟩ := ih'
    exact ⟨_ :: ws, rfl, fun u hu => by
      cases hu with
      | head => exact ih
      | tail _ hu => exact h u hu⟩
  | plus _ _ ih ih' =>
    obtain ⟨ws, rfl, h⟩ := ih'
    exact ⟨_ :: ws, by simp, rfl, fun u hu => by
      cases hu with
      | head => exact ih
      | tail _ hu => exact h u hu⟩

/-- There is a part that is made by the rules for all tokens of these types. -/
def Has {α : Type} (C : α → Prop) (lv : α → List (TokenData Sp)) (w : List TokenType) : Prop :=
  ∀ (i : Nat) (ts : List (TerminalToken TokenType Sp)), ts.map (·.tokenType) = w → ∃ x, C x ∧ lv x = numbered i ts

section
variable {α β : Type} {C : α → Prop} {C' : β → Prop} {lv : α → List (TokenData Sp)} {lv' : β → List (TokenData Sp)}
  {u v w : List TokenType}

theorem Has.map (f : α → β) (h : Has C lv w) (hC : ∀ x, C x → C' (f x)) (hl : ∀ x, lv' (f x) = lv x) : Has C' lv' w := by
  intro i ts ht
  obtain ⟨x, h1, h2⟩ := h i ts ht
  exact ⟨f x, hC x h1, (hl x).trans h2⟩

theorem Has.pair (h : Has C lv u) (h' : Has C' lv' v) :
    Has (fun x : α × β => C x.1 ∧ C' x.2) (fun x => lv x.1 ++ lv' x.2) (u ++ v) := by
  intro i ts ht
  obtain ⟨us, vs, rfl, h1, h2⟩ := List.map_eq_append_iff.1 ht
  obtain ⟨x, h3, h4⟩ := h i us h1
  obtain ⟨y, h5, h6⟩ := h' (i + us.length) vs h2
  exact ⟨(x, y), ⟨h3, h5⟩, by simp only [numbered_append, h4, h6]⟩

theorem Has.opt (h : w = [] ∨ Has C lv w) : Has (OptComplete C) (optLeaves lv) w := by
  rcases h with rfl | h
  · intro i ts ht
    cases List.map_eq_nil_iff.1 ht
    exact ⟨none, (fun y hy => by cases hy), rfl⟩
  · exact h.map some (fun x hx y hy => by cases hy; exact hx) fun x => rfl

theorem Has.row : ∀ {ws : List (List TokenType)}, (∀ u ∈ ws, Has C lv u) →
    Has (fun xs : List α => xs.length = ws.length ∧ ∀ x ∈ xs, C x) (rowLeaves lv) ws.flatten
  | [], _ => fun i ts ht => by
    cases List.map_eq_nil_iff.1 ht
    exact ⟨[], ⟨rfl, fun y hy => by cases hy⟩, rfl⟩
  | w :: ws, h => by
    have h1 := Has.pair (h w (List.mem_cons_self ..)) (Has.row (ws := ws) fun u hu => h u (List.mem_cons_of_mem _ hu))
    refine h1.map (fun x => x.1 :: x.2) ?_ fun x => rfl
    rintro ⟨x, xs⟩ ⟨h2, h3, h4⟩
    refine ⟨by simp [h3], fun y hy => ?_⟩
    cases hy with
    | head => exact h2
    | tail _ hy => exact h4 y hy

theorem Has.pt {k : TokenType} : Has (Pt.Complete (k := k)) (Pt.leaves (Sp := Sp)) [k] := by
  intro i ts ht
  obtain ⟨t, rfl, h⟩ := List.map_eq_singleton_iff.1 ht
  exact ⟨⟨some ⟨t, i⟩⟩, ⟨_, rfl, h⟩, rfl⟩

end

/-- There is a tree of the kind for all tokens of these types. -/
def HasTree (Sp : Type) (k : NT) (w : List TokenType) : Prop := Has (Complete (Sp := Sp) (k := k)) leaves w

theorem reps_row {rs : List (PtRepetition Sp)} (h : ∀ r ∈ rs, r.Complete) :
    RepsComplete rs ∧ repsLeaves rs = rowLeaves PtRepetition.leaves rs := by
  induction rs with
  | nil => exact ⟨.nil, by rw [repsLeaves, rowLeaves]⟩
  | cons r rs ih =>
    obtain ⟨h1, h2⟩ := ih fun x hx => h x (List.mem_cons_of_mem _ hx)
    exact ⟨.cons (h r (List.mem_cons_self ..)) h1, by rw [repsLeaves, rowLeaves, h2]⟩

theorem bars_row {bs : List (Pt .bar Sp × PtConcatenation Sp)} (h : ∀ b ∈ bs, b.1.Complete ∧ b.2.Complete) :
    BarsComplete bs := by
  induction bs with
  | nil => exact .nil
  | cons b bs ih =>
    obtain ⟨h1, h2⟩ := h b (List.mem_cons_self ..)
    exact .cons h1 h2 (ih fun x hx => h x (List.mem_cons_of_mem _ hx))

theorem barsLeaves_row : ∀ (bs : List (Pt .bar Sp × PtConcatenation Sp)),
    barsLeaves bs = rowLeaves (fun b => b.1.leaves ++ b.2.leaves) bs
  | [] => by rw [barsLeaves, rowLeaves]
  | (b, c) :: bs => by rw [barsLeaves, rowLeaves, barsLeaves_row bs]

theorem repsLeaves_row : ∀ (rs : List (PtRepetition Sp)), repsLeaves rs = rowLeaves PtRepetition.leaves rs
  | [] => by rw [repsLeaves, rowLeaves]
  | r :: rs => by rw [repsLeaves, rowLeaves, repsLeaves_row rs]

theorem hasTree_closed (k : NT) (w : List TokenType) (h : Interp (HasTree Sp) (production k) w) : HasTree Sp k w := by
  have tk : ∀ {t : TokenType} {w : List TokenType}, w = [t] → Has (Pt.Complete (k := t)) (Pt.leaves (Sp := Sp)) w :=
    fun h => h ▸ Has.pt
  have docs : ∀ {w : List TokenType}, (w = [] ∨ w = [TokenType.doc]) →
      Has (OptComplete (Pt.Complete (k := TokenType.doc))) (optLeaves (Pt.leaves (Sp := Sp))) w := fun h => .opt (h.imp_right tk)
  cases k with
  | grammar =>
    obtain ⟨ws, h1, rfl, h2⟩ := h
    refine (Has.row h2).map (C' := PtGrammar.Complete) (lv' := PtGrammar.leaves) (fun x => ⟨x⟩) ?_ fun x => rfl
    rintro x ⟨h3, h4⟩
    exact ⟨fun (h : x = []) => h1 (List.length_eq_zero_iff.1 (by rw [← h3, h]; rfl)), h4⟩
  | rule =>
    rcases h with (h | h) | h <;> obtain ⟨_, _, rfl, ⟨_, _, rfl, ⟨_, _, rfl, ⟨_, _, rfl, h1, h2⟩, h3⟩, h4⟩, h5⟩ := h
    · refine ((((docs h1).pair (tk h2)).pair (tk h3)).pair h4 |>.pair (tk h5)).map (C' := PtRule.Complete)
        (lv' := PtRule.leaves) (fun x => .tokenRule x.1.1.1.1 x.1.1.1.2 x.1.1.2 x.1.2 x.2) ?_ fun x => rfl
      rintro x ⟨⟨⟨⟨g1, g2⟩, g3⟩, g4⟩, g5⟩
      exact .tokenRule g1 g2 g3 g4 g5
    · refine ((((docs h1).pair (tk h2)).pair (tk h3)).pair h4 |>.pair (tk h5)).map (C' := PtRule.Complete)
        (lv' := PtRule.leaves) (fun x => .whitespaceRule x.1.1.1.1 x.1.1.1.2 x.1.1.2 x.1.2 x.2) ?_ fun x => rfl
      rintro x ⟨⟨⟨⟨g1, g2⟩, g3⟩, g4⟩, g5⟩
      exact .whitespaceRule g1 g2 g3 g4 g5
    · obtain ⟨ws, rfl, h4⟩ := h4
      refine ((((docs h1).pair (tk h2)).pair h3).pair (Has.row h4) |>.pair (tk h5)).map (C' := PtRule.Complete)
        (lv' := PtRule.leaves) (fun x => .grammarRule x.1.1.1.1 x.1.1.1.2 x.1.1.2 x.1.2 x.2) ?_ fun x => rfl
      rintro x ⟨⟨⟨⟨g1, g2⟩, g3⟩, _, g4⟩, g5⟩
      exact .grammarRule g1 g2 g3 g4 g5
  | alternation =>
    obtain ⟨_, _, rfl, h1, ws, rfl, h2⟩ := h
    have h3 : ∀ u ∈ ws, Has (fun b : Pt .bar Sp × PtConcatenation Sp => b.1.Complete ∧ b.2.Complete)
        (fun b => b.1.leaves ++ b.2.leaves) u := by
      intro u hu
      obtain ⟨_, _, rfl, h3, h4⟩ := h2 u hu
      exact (tk h3).pair h4
    refine (Has.pair h1 (Has.row h3)).map (C' := PtAlternation.Complete)
      (lv' := PtAlternation.leaves) (fun x => .mk x.1 x.2) ?_ fun x => ?_
    · rintro x ⟨g1, _, g2⟩
      exact .mk g1 (bars_row g2)
    · rw [PtAlternation.leaves, barsLeaves_row]; rfl
  | firstAlter =>
    obtain ⟨_, _, rfl, ⟨_, _, rfl, ⟨_, _, rfl, h1, h2⟩, h3⟩, h4⟩ := h
    refine ((((docs h1).pair (tk h2)).pair h3).pair (Has.opt h4)).map (C' := PtFirstAlter.Complete)
      (lv' := PtFirstAlter.leaves) (fun x => ⟨x.1.1.1, x.1.1.2, x.1.2, x.2⟩) ?_ fun x => rfl
    rintro x ⟨⟨⟨g1, g2⟩, g3⟩, g4⟩
    exact ⟨g1, g2, g3, g4⟩
  | subseqAlter =>
    obtain ⟨_, _, rfl, ⟨_, _, rfl, ⟨_, _, rfl, h1, h2⟩, h3⟩, h4⟩ := h
    refine ((((docs h1).pair (tk h2)).pair h3).pair (Has.opt h4)).map (C' := PtSubseqAlter.Complete)
      (lv' := PtSubseqAlter.leaves) (fun x => ⟨x.1.1.1, x.1.1.2, x.1.2, x.2⟩) ?_ fun x => rfl
    rintro x ⟨⟨⟨g1, g2⟩, g3⟩, g4⟩
    exact ⟨g1, g2, g3, g4⟩
  | alterName =>
    obtain ⟨_, _, rfl, h1, h2⟩ := h
    exact ((tk h1).pair (tk h2)).map (C' := PtAlterName.Complete) (lv' := PtAlterName.leaves)
      (fun x => ⟨x.1, x.2⟩) (fun x h => ⟨h.1, h.2⟩) fun x => rfl
  | concatenation =>
    obtain ⟨ws, h1, rfl, h2⟩ := h
    refine (Has.row h2).map (C' := PtConcatenation.Complete) (lv' := PtConcatenation.leaves) (fun x => .mk x) ?_ fun x => ?_
    · rintro x ⟨h3, h4⟩
      exact .mk (fun h => h1 (List.length_eq_zero_iff.1 (by rw [← h3, h]; rfl))) (reps_row h4).1
    · rw [PtConcatenation.leaves, repsLeaves_row]; rfl
  | repetition =>
    have leaf : ∀ {t : TokenType} (f : PtSingular Sp → Pt t Sp → PtRepetition Sp) {w : List TokenType},
        Interp (HasTree Sp) (.seq (.name .singular) (.tok t)) w →
        (∀ s q, s.Complete → q.Complete → (f s q).Complete) → (∀ s q, (f s q).leaves = s.leaves ++ q.leaves) →
        HasTree Sp .repetition w := by
      rintro t f _ ⟨_, _, rfl, h1, h2⟩ hC hl
      exact (Has.pair h1 (tk h2)).map (C' := PtRepetition.Complete) (lv' := PtRepetition.leaves)
        (fun x => f x.1 x.2) (fun x h => hC x.1 x.2 h.1 h.2) fun x => hl x.1 x.2
    rcases h with ((h | h) | h) | h
    · exact leaf .maybe h (fun _ _ => .maybe) fun s q => by rw [PtRepetition.leaves]
    · exact leaf .any h (fun _ _ => .any) fun s q => by rw [PtRepetition.leaves]
    · exact leaf .many h (fun _ _ => .many) fun s q => by rw [PtRepetition.leaves]
    · exact Has.map (C' := PtRepetition.Complete) (lv' := PtRepetition.leaves) .one h (fun _ => .one)
        fun s => by rw [PtRepetition.leaves]; rfl
  | singular =>
    rcases h with (((h | h) | h) | h) | h
    · obtain ⟨_, _, rfl, ⟨_, _, rfl, h1, h2⟩, h3⟩ := h
      refine (Has.pair (Has.pair (tk h1) h2) (tk h3)).map (C' := PtSingular.Complete) (lv' := PtSingular.leaves)
        (fun x => .nested x.1.1 x.1.2 x.2) ?_ fun x => by rw [PtSingular.leaves]; rfl
      rintro x ⟨⟨g1, g2⟩, g3⟩
      exact .nested g1 g2 g3
    · exact (tk h).map (C' := PtSingular.Complete) (lv' := PtSingular.leaves) .symbol (fun _ => .symbol)
        fun s => by rw [PtSingular.leaves]
    · exact (tk h).map (C' := PtSingular.Complete) (lv' := PtSingular.leaves) .stringLiteral (fun _ => .stringLiteral)
        fun s => by rw [PtSingular.leaves]
    · exact (tk h).map (C' := PtSingular.Complete) (lv' := PtSingular.leaves) .characterSet (fun _ => .characterSet)
        fun s => by rw [PtSingular.leaves]
    · exact (tk h).map (C' := PtSingular.Complete) (lv' := PtSingular.leaves) .characterLiteral (fun _ => .characterLiteral)
        fun s => by rw [PtSingular.leaves]

/-- The self-specification describes the types of the tokens exactly if there is a tree with these tokens. -/
theorem selfDerives_iff {k : NT} {ts : List (TerminalToken TokenType Sp)} (i : Nat) :
    SelfDerives k (ts.map (·.tokenType)) ↔ ∃ x : NT.out Sp k, Complete x ∧ leaves x = numbered i ts := by
  constructor
  · intro h
    exact Ebnf.Derives.interp hasTree_closed h i ts rfl
  · rintro ⟨x, h1, h2⟩
    rw [← types_numbered ts i, ← h2]
    exact der_tree h1

end PPC.Pangram
