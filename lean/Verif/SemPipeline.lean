import Verif.Pipeline

/-!
# Trees with the same shape and other tokens
-/

namespace PPC.Pangram

variable {Sp Sp' : Type}

/-- A tree like `x` with the tokens `ds`. -/
def Relabels {α β : Type} (comp : β → Prop) (lv : β → List (TokenData Sp')) (er : β → α) (x : α)
    (lx : List (TokenData Sp)) : Prop :=
  ∀ ds : List (TokenData Sp'), ds.map TokenData.erase = lx.map TokenData.erase → ∃ y, comp y ∧ lv y = ds ∧ er y = x

theorem split_erase {ds : List (TokenData Sp')} {a b : List (TokenData Sp)}
    (h : ds.map TokenData.erase = (a ++ b).map TokenData.erase) :
    ∃ d1 d2, ds = d1 ++ d2 ∧ d1.map TokenData.erase = a.map TokenData.erase ∧
      d2.map TokenData.erase = b.map TokenData.erase := by
  rw [List.map_append] at h
  exact List.map_eq_append_iff.1 h

theorem pt_relabel {k : TokenType} {x : Pt k Sp} (h : x.Complete) :
    Relabels (Sp' := Sp') (β := Pt k Sp') Pt.Complete Pt.leaves Pt.erase x.erase x.leaves := by
  obtain ⟨d, h1, h2⟩ := h
  obtain ⟨_⟩ := x
  cases h1
  intro ds hd
  simp only [Pt.leaves, Option.toList_some, List.map_cons, List.map_nil] at hd
  obtain ⟨d', ds', rfl, h3, h4⟩ := List.map_eq_cons_iff.1 hd
  cases List.map_eq_nil_iff.1 h4
  refine ⟨⟨some d'⟩, ⟨d', rfl, ?_⟩, rfl, ?_⟩
  · have := congrArg (fun z => z.token.tokenType) h3
    exact this.trans h2
  · simp [Pt.erase, h3]

theorem opt_relabel {α β : Type} {comp : α → Prop} {comp' : β → Prop} {lv : α → List (TokenData Sp)}
    {lv' : β → List (TokenData Sp')} {γ : Type} {er : α → γ} {er' : β → γ}
    (hr : ∀ x, comp x → Relabels comp' lv' er' (er x) (lv x)) {o : Option α} (h : OptComplete comp o) :
    Relabels (OptComplete comp') (optLeaves lv') (Option.map er') (o.map er) (optLeaves lv o) := by
  intro ds hd
  cases o with
  | none =>
    simp only [optLeaves, List.map_nil, List.map_eq_nil_iff] at hd
    subst hd
    exact ⟨none, (fun y hy => by cases hy), rfl, rfl⟩
  | some x =>
    obtain ⟨y, h1, h2, h3⟩ := hr x (h x rfl) ds hd
    exact ⟨some y, (fun z hz => by cases hz; exact h1), h2, by simp [h3]⟩

theorem row_relabel {α β : Type} {comp : α → Prop} {comp' : β → Prop} {lv : α → List (TokenData Sp)}
    {lv' : β → List (TokenData Sp')} {γ : Type} {er : α → γ} {er' : β → γ}
    (hr : ∀ x, comp x → Relabels comp' lv' er' (er x) (lv x)) {l : List α} : (∀ x ∈ l, comp x) →
    Relabels (fun l' => ∀ y ∈ l', comp' y) (rowLeaves lv') (List.map er') (l.map er) (rowLeaves lv l) := by
  induction l with
  | nil =>
    intro _ ds hd
    simp only [rowLeaves, List.map_nil, List.map_eq_nil_iff] at hd
    subst hd
    exact ⟨[], (fun y hy => by cases hy), rfl, rfl⟩
  | cons x l ih =>
    intro h ds hd
    obtain ⟨d1, d2, rfl, h1, h2⟩ := split_erase hd
    obtain ⟨y, g1, g2, g3⟩ := hr x (h x (by simp)) d1 h1
    obtain ⟨ys, f1, f2, f3⟩ := ih (fun z hz => h z (List.mem_cons_of_mem _ hz)) d2 h2
    refine ⟨y :: ys, ?_, by rw [rowLeaves, g2, f2], by simp only [List.map_cons, g3, f3]⟩
    intro z hz
    rcases List.mem_cons.1 hz with rfl | hz
    · exact g1
    · exact f1 z hz

mutual

theorem alternation_relabel {x : PtAlternation Sp} : x.Complete →
    Relabels (Sp' := Sp') PtAlternation.Complete PtAlternation.leaves PtAlternation.erase x.erase x.leaves
  | .mk (c := c) (bs := bs) hc hb => by
    intro ds hd
    rw [PtAlternation.leaves] at hd
    obtain ⟨d1, d2, rfl, h1, h2⟩ := split_erase hd
    obtain ⟨c', g1, g2, g3⟩ := concatenation_relabel hc d1 h1
    obtain ⟨b', f1, f2, f3⟩ := bars_relabel hb d2 h2
    exact ⟨.mk c' b', .mk g1 f1, by rw [PtAlternation.leaves, g2, f2],
      by rw [PtAlternation.erase, PtAlternation.erase, g3, f3]⟩

theorem bars_relabel {x : List (Pt .bar Sp × PtConcatenation Sp)} : BarsComplete x →
    Relabels (Sp' := Sp') BarsComplete barsLeaves barsErase (barsErase x) (barsLeaves x)
  | .nil => by
    intro ds hd
    simp only [barsLeaves, List.map_nil, List.map_eq_nil_iff] at hd
    subst hd
    exact ⟨[], .nil, by rw [barsLeaves], by rw [barsErase, barsErase]⟩
  | .cons hb hc hs => by
    intro ds hd
    rw [barsLeaves] at hd
    obtain ⟨d12, d3, rfl, h12, h3⟩ := split_erase hd
    obtain ⟨d1, d2, rfl, h1, h2⟩ := split_erase h12
    obtain ⟨b', e1, e2, e3⟩ := pt_relabel hb d1 h1
    obtain ⟨c', g1, g2, g3⟩ := concatenation_relabel hc d2 h2
    obtain ⟨s', f1, f2, f3⟩ := bars_relabel hs d3 h3
    exact ⟨(b', c') :: s', .cons e1 g1 f1, by rw [barsLeaves, e2, g2, f2],
      by rw [barsErase, barsErase, e3, g3, f3]⟩

theorem concatenation_relabel {x : PtConcatenation Sp} : x.Complete →
    Relabels (Sp' := Sp') PtConcatenation.Complete PtConcatenation.leaves PtConcatenation.erase x.erase x.leaves
  | .mk (rs := rs) hn hr => by
    intro ds hd
    rw [PtConcatenation.leaves] at hd
    obtain ⟨r', g1, g2, g3⟩ := reps_relabel hr ds hd
    refine ⟨.mk r', .mk ?_ g1, by rw [PtConcatenation.leaves, g2],
      by rw [PtConcatenation.erase, PtConcatenation.erase, g3]⟩
    rintro rfl
    cases rs with
    | nil => exact hn rfl
    | cons r rs => rw [repsErase, repsErase] at g3; cases g3

theorem reps_relabel {x : List (PtRepetition Sp)} : RepsComplete x →
    Relabels (Sp' := Sp') RepsComplete repsLeaves repsErase (repsErase x) (repsLeaves x)
  | .nil => by
    intro ds hd
    simp only [repsLeaves, List.map_nil, List.map_eq_nil_iff] at hd
    subst hd
    exact ⟨[], .nil, by rw [repsLeaves], by rw [repsErase, repsErase]⟩
  | .cons hr hs => by
    intro ds hd
    rw [repsLeaves] at hd
    obtain ⟨d1, d2, rfl, h1, h2⟩ := split_erase hd
    obtain ⟨r', g1, g2, g3⟩ := repetition_relabel hr d1 h1
    obtain ⟨s', f1, f2, f3⟩ := reps_relabel hs d2 h2
    exact ⟨r' :: s', .cons g1 f1, by rw [repsLeaves, g2, f2], by rw [repsErase, repsErase, g3, f3]⟩

theorem repetition_relabel {x : PtRepetition Sp} : x.Complete →
    Relabels (Sp' := Sp') PtRepetition.Complete PtRepetition.leaves PtRepetition.erase x.erase x.leaves
  | .maybe hs hq => by
    intro ds hd
    rw [PtRepetition.leaves] at hd
    obtain ⟨d1, d2, rfl, h1, h2⟩ := split_erase hd
    obtain ⟨s', g1, g2, g3⟩ := singular_relabel hs d1 h1
    obtain ⟨q', f1, f2, f3⟩ := pt_relabel hq d2 h2
    exact ⟨.maybe s' q', .maybe g1 f1, by rw [PtRepetition.leaves, g2, f2],
      by rw [PtRepetition.erase, PtRepetition.erase, g3, f3]⟩
  | .any hs hq => by
    intro ds hd
    rw [PtRepetition.leaves] at hd
    obtain ⟨d1, d2, rfl, h1, h2⟩ := split_erase hd
    obtain ⟨s', g1, g2, g3⟩ := singular_relabel hs d1 h1
    obtain ⟨q', f1, f2, f3⟩ := pt_relabel hq d2 h2
    exact ⟨.any s' q', .any g1 f1, by rw [PtRepetition.leaves, g2, f2],
      by rw [PtRepetition.erase, PtRepetition.erase, g3, f3]⟩
  | .many hs hq => by
    intro ds hd
    rw [PtRepetition.leaves] at hd
    obtain ⟨d1, d2, rfl, h1, h2⟩ := split_erase hd
    obtain ⟨s', g1, g2, g3⟩ := singular_relabel hs d1 h1
    obtain ⟨q', f1, f2, f3⟩ := pt_relabel hq d2 h2
    exact ⟨.many s' q', .many g1 f1, by rw [PtRepetition.leaves, g2, f2],
      by rw [PtRepetition.erase, PtRepetition.erase, g3, f3]⟩
  | .one hs => by
    intro ds hd
    rw [PtRepetition.leaves] at hd
    obtain ⟨s', g1, g2, g3⟩ := singular_relabel hs ds hd
    exact ⟨.one s', .one g1, by rw [PtRepetition.leaves, g2], by rw [PtRepetition.erase, PtRepetition.erase, g3]⟩

theorem singular_relabel {x : PtSingular Sp} : x.Complete →
    Relabels (Sp' := Sp') PtSingular.Complete PtSingular.leaves PtSingular.erase x.erase x.leaves
  | .nested hl ha hr => by
    intro ds hd
    rw [PtSingular.leaves] at hd
    obtain ⟨d12, d3, rfl, h12, h3⟩ := split_erase hd
    obtain ⟨d1, d2, rfl, h1, h2⟩ := split_erase h12
    obtain ⟨l', e1, e2, e3⟩ := pt_relabel hl d1 h1
    obtain ⟨a', g1, g2, g3⟩ := alternation_relabel ha d2 h2
    obtain ⟨r', f1, f2, f3⟩ := pt_relabel hr d3 h3
    exact ⟨.nested l' a' r', .nested e1 g1 f1, by rw [PtSingular.leaves, e2, g2, f2],
      by rw [PtSingular.erase, PtSingular.erase, e3, g3, f3]⟩
  | .symbol h => by
    intro ds hd
    rw [PtSingular.leaves] at hd
    obtain ⟨x', e1, e2, e3⟩ := pt_relabel h ds hd
    exact ⟨.symbol x', .symbol e1, by rw [PtSingular.leaves, e2], by rw [PtSingular.erase, PtSingular.erase, e3]⟩
  | .stringLiteral h => by
    intro ds hd
    rw [PtSingular.leaves] at hd
    obtain ⟨x', e1, e2, e3⟩ := pt_relabel h ds hd
    exact ⟨.stringLiteral x', .stringLiteral e1, by rw [PtSingular.leaves, e2],
      by rw [PtSingular.erase, PtSingular.erase, e3]⟩
  | .characterSet h => by
    intro ds hd
    rw [PtSingular.leaves] at hd
    obtain ⟨x', e1, e2, e3⟩ := pt_relabel h ds hd
    exact ⟨.characterSet x', .characterSet e1, by rw [PtSingular.leaves, e2],
      by rw [PtSingular.erase, PtSingular.erase, e3]⟩
  | .characterLiteral h => by
    intro ds hd
    rw [PtSingular.leaves] at hd
    obtain ⟨x', e1, e2, e3⟩ := pt_relabel h ds hd
    exact ⟨.characterLiteral x', .characterLiteral e1, by rw [PtSingular.leaves, e2],
      by rw [PtSingular.erase, PtSingular.erase, e3]⟩

end

theorem alterName_relabel {x : PtAlterName Sp} (h : x.Complete) :
    Relabels (Sp' := Sp') PtAlterName.Complete PtAlterName.leaves PtAlterName.erase x.erase x.leaves := by
  intro ds hd
  obtain ⟨d1, d2, rfl, h1, h2⟩ := split_erase hd
  obtain ⟨a, g1, g2, g3⟩ := pt_relabel h.1 d1 h1
  obtain ⟨b, f1, f2, f3⟩ := pt_relabel h.2 d2 h2
  exact ⟨⟨a, b⟩, ⟨g1, f1⟩, by simp only [PtAlterName.leaves, g2, f2], by simp only [PtAlterName.erase, g3, f3]⟩

theorem firstAlter_relabel {x : PtFirstAlter Sp} (h : x.Complete) :
    Relabels (Sp' := Sp') PtFirstAlter.Complete PtFirstAlter.leaves PtFirstAlter.erase x.erase x.leaves := by
  obtain ⟨c1, c2, c3, c4⟩ := h
  intro ds hd
  obtain ⟨d123, d4, rfl, h123, h4⟩ := split_erase hd
  obtain ⟨d12, d3, rfl, h12, h3⟩ := split_erase h123
  obtain ⟨d1, d2, rfl, h1, h2⟩ := split_erase h12
  obtain ⟨a1, p1, q1, r1⟩ := opt_relabel (fun _ => pt_relabel) c1 d1 h1
  obtain ⟨a2, p2, q2, r2⟩ := pt_relabel c2 d2 h2
  obtain ⟨a3, p3, q3, r3⟩ := concatenation_relabel c3 d3 h3
  obtain ⟨a4, p4, q4, r4⟩ := opt_relabel (fun _ => alterName_relabel) c4 d4 h4
  exact ⟨⟨a1, a2, a3, a4⟩, ⟨p1, p2, p3, p4⟩, by simp only [PtFirstAlter.leaves, q1, q2, q3, q4],
    by simp only [PtFirstAlter.erase, r1, r2, r3, r4]⟩

theorem subseqAlter_relabel {x : PtSubseqAlter Sp} (h : x.Complete) :
    Relabels (Sp' := Sp') PtSubseqAlter.Complete PtSubseqAlter.leaves PtSubseqAlter.erase x.erase x.leaves := by
  obtain ⟨c1, c2, c3, c4⟩ := h
  intro ds hd
  obtain ⟨d123, d4, rfl, h123, h4⟩ := split_erase hd
  obtain ⟨d12, d3, rfl, h12, h3⟩ := split_erase h123
  obtain ⟨d1, d2, rfl, h1, h2⟩ := split_erase h12
  obtain ⟨a1, p1, q1, r1⟩ := opt_relabel (fun _ => pt_relabel) c1 d1 h1
  obtain ⟨a2, p2, q2, r2⟩ := pt_relabel c2 d2 h2
  obtain ⟨a3, p3, q3, r3⟩ := concatenation_relabel c3 d3 h3
  obtain ⟨a4, p4, q4, r4⟩ := opt_relabel (fun _ => alterName_relabel) c4 d4 h4
  exact ⟨⟨a1, a2, a3, a4⟩, ⟨p1, p2, p3, p4⟩, by simp only [PtSubseqAlter.leaves, q1, q2, q3, q4],
    by simp only [PtSubseqAlter.erase, r1, r2, r3, r4]⟩

theorem rule_relabel {x : PtRule Sp} (h : x.Complete) :
    Relabels (Sp' := Sp') PtRule.Complete PtRule.leaves PtRule.erase x.erase x.leaves := by
  intro ds hd
  cases h with
  | tokenRule c1 c2 c3 c4 c5 =>
    obtain ⟨d1234, d5, rfl, h1234, h5⟩ := split_erase hd
    obtain ⟨d123, d4, rfl, h123, h4⟩ := split_erase h1234
    obtain ⟨d12, d3, rfl, h12, h3⟩ := split_erase h123
    obtain ⟨d1, d2, rfl, h1, h2⟩ := split_erase h12
    obtain ⟨a1, p1, q1, r1⟩ := opt_relabel (fun _ => pt_relabel) c1 d1 h1
    obtain ⟨a2, p2, q2, r2⟩ := pt_relabel c2 d2 h2
    obtain ⟨a3, p3, q3, r3⟩ := pt_relabel c3 d3 h3
    obtain ⟨a4, p4, q4, r4⟩ := alternation_relabel c4 d4 h4
    obtain ⟨a5, p5, q5, r5⟩ := pt_relabel c5 d5 h5
    exact ⟨.tokenRule a1 a2 a3 a4 a5, .tokenRule p1 p2 p3 p4 p5, by simp only [PtRule.leaves, q1, q2, q3, q4, q5],
      by simp only [PtRule.erase, r1, r2, r3, r4, r5]⟩
  | whitespaceRule c1 c2 c3 c4 c5 =>
    obtain ⟨d1234, d5, rfl, h1234, h5⟩ := split_erase hd
    obtain ⟨d123, d4, rfl, h123, h4⟩ := split_erase h1234
    obtain ⟨d12, d3, rfl, h12, h3⟩ := split_erase h123
    obtain ⟨d1, d2, rfl, h1, h2⟩ := split_erase h12
    obtain ⟨a1, p1, q1, r1⟩ := opt_relabel (fun _ => pt_relabel) c1 d1 h1
    obtain ⟨a2, p2, q2, r2⟩ := pt_relabel c2 d2 h2
    obtain ⟨a3, p3, q3, r3⟩ := pt_relabel c3 d3 h3
    obtain ⟨a4, p4, q4, r4⟩ := alternation_relabel c4 d4 h4
    obtain ⟨a5, p5, q5, r5⟩ := pt_relabel c5 d5 h5
    exact ⟨.whitespaceRule a1 a2 a3 a4 a5, .whitespaceRule p1 p2 p3 p4 p5,
      by simp only [PtRule.leaves, q1, q2, q3, q4, q5], by simp only [PtRule.erase, r1, r2, r3, r4, r5]⟩
  | grammarRule c1 c2 c3 c4 c5 =>
    obtain ⟨d1234, d5, rfl, h1234, h5⟩ := split_erase hd
    obtain ⟨d123, d4, rfl, h123, h4⟩ := split_erase h1234
    obtain ⟨d12, d3, rfl, h12, h3⟩ := split_erase h123
    obtain ⟨d1, d2, rfl, h1, h2⟩ := split_erase h12
    obtain ⟨a1, p1, q1, r1⟩ := opt_relabel (fun _ => pt_relabel) c1 d1 h1
    obtain ⟨a2, p2, q2, r2⟩ := pt_relabel c2 d2 h2
    obtain ⟨a3, p3, q3, r3⟩ := firstAlter_relabel c3 d3 h3
    obtain ⟨a4, p4, q4, r4⟩ := row_relabel (fun _ => subseqAlter_relabel) c4 d4 h4
    obtain ⟨a5, p5, q5, r5⟩ := pt_relabel c5 d5 h5
    exact ⟨.grammarRule a1 a2 a3 a4 a5, .grammarRule p1 p2 p3 p4 p5,
      by simp only [PtRule.leaves, q1, q2, q3, q4, q5], by simp only [PtRule.erase, r1, r2, r3, r4, r5]⟩

theorem grammar_relabel {x : PtGrammar Sp} (h : x.Complete) :
    Relabels (Sp' := Sp') PtGrammar.Complete PtGrammar.leaves PtGrammar.erase x.erase x.leaves := by
  intro ds hd
  obtain ⟨l, p, q, r⟩ := row_relabel (fun _ => rule_relabel) h.2 ds hd
  refine ⟨⟨l⟩, ⟨?_, p⟩, q, by simp only [PtGrammar.erase, r]⟩
  rintro rfl
  exact h.1 (List.map_eq_nil_iff.1 r.symm)

end PPC.Pangram
