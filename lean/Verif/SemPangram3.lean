import Verif.SemPangram2

/-!
# What the parsers of grammar files accept: rules and grammars
-/

namespace PPC.Pangram

open PPC

variable {Sp : Type} {e : Env (tokSig Sp)} {i j k : Nat} {D : Defs (tokSig Sp) (names Sp)} {d : Sp}

local notation "pats" => TerminalPatterns.default d

/-! ## Optional parts -/

theorem optional_sound {α : Type} {g : P Sp α} {c : α → Prop} {l : α → List (TokenData Sp)}
    (hg : ∀ a i j, Accepts e D g i a j → c a ∧ Reads e i (l a) j) {o : Option α}
    (h : Accepts e D (optional g) i o j) : OptComplete c o ∧ Reads e i (optLeaves l o) j := by
  rcases acc_optional.1 h with ⟨a, rfl, h'⟩ | ⟨rfl, rfl, _⟩
  · obtain ⟨h1, h2⟩ := hg a i j h'
    exact ⟨fun y hy => (by cases hy; exact h1), h2⟩
  · exact ⟨fun y hy => (by cases hy), rfl⟩

theorem doc_sound {x : TokenType} {o : Option (Pt x Sp)} (h : Accepts e D (optional (terminal pats x)) i o j) :
    OptComplete Pt.Complete o ∧ Reads e i (optLeaves Pt.leaves o) j :=
  optional_sound (fun _ _ _ h => acc_terminal.1 h) h

theorem doc_complete {x : TokenType} {o : Option (Pt x Sp)} (h : OptComplete Pt.Complete o)
    (h' : Reads e i (optLeaves Pt.leaves o) j) (hj : ¬ Next e j x) : Accepts e D (optional (terminal pats x)) i o j := by
  rw [acc_optional]
  cases o with
  | none =>
    cases h'
    exact .inr ⟨rfl, rfl, rej_terminal.2 hj⟩
  | some a => exact .inl ⟨a, rfl, acc_terminal.2 ⟨h a rfl, h'⟩⟩

/-! ## Names of alternatives -/

theorem acc_alterName {x : PtAlterName Sp} : Acc d e .alterName i x j ↔ x.Complete ∧ Reads e i x.leaves j := by
  rw [acc_call (g := alterNameDef pats) rfl]
  unfold alterNameDef PtAlterName.Complete PtAlterName.leaves
  rw [acc_boxed, acc_map]
  constructor
  · rintro ⟨⟨a, b⟩, h, rfl⟩
    rw [acc_boxed, acc_map] at h
    obtain ⟨⟨a', b'⟩, h, h'⟩ := h
    cases h'
    obtain ⟨k, h1, h2⟩ := acc_then.1 h
    rw [acc_terminal] at h1 h2
    exact ⟨⟨h1.1, h2.1⟩, reads_append.2 ⟨k, h1.2, h2.2⟩⟩
  · obtain ⟨a, b⟩ := x
    rintro ⟨⟨h1, h2⟩, h3⟩
    obtain ⟨k, h4, h5⟩ := reads_append.1 h3
    exact ⟨(a, b), acc_boxed.2 (acc_map.2 ⟨(a, b), acc_then.2 ⟨k, acc_terminal.2 ⟨h1, h4⟩, acc_terminal.2 ⟨h2, h5⟩⟩, rfl⟩), rfl⟩

theorem rej_alterName (h : ¬ Next e i .minGt) : Rej d e .alterName i := by
  rw [rej_call (g := alterNameDef pats) rfl]
  exact rej_boxed.2 (rej_map.2 (rej_boxed.2 (rej_map.2 (.thenFirst (rej_terminal.2 h)))))

theorem name_sound {o : Option (PtAlterName Sp)} (h : Accepts e (defs pats) (optional (ref .alterName)) i o j) :
    OptComplete PtAlterName.Complete o ∧ Reads e i (optLeaves PtAlterName.leaves o) j :=
  optional_sound (fun _ _ _ h => acc_alterName.1 (acc_ref.1 h)) h

theorem name_complete {o : Option (PtAlterName Sp)} (h : OptComplete PtAlterName.Complete o)
    (h' : Reads e i (optLeaves PtAlterName.leaves o) j) (hj : ¬ Next e j .minGt) :
    Accepts e (defs pats) (optional (ref .alterName)) i o j := by
  rw [acc_optional]
  cases o with
  | none =>
    cases h'
    exact .inr ⟨rfl, rfl, rej_ref.2 (rej_alterName hj)⟩
  | some a => exact .inl ⟨a, rfl, acc_ref.2 (acc_alterName.2 ⟨h a rfl, h'⟩)⟩

theorem name_next {o : Option (PtAlterName Sp)} (h : OptComplete PtAlterName.Complete o)
    (h' : Reads e i (optLeaves PtAlterName.leaves o) j) (hj : Free e j (suffixes ++ starts)) :
    Free e i (suffixes ++ starts) := by
  cases o with
  | none => cases h'; exact hj
  | some a => exact ((h a rfl).1.next h').free (by simp [suffixes, starts])

/-! ## Alternatives of rules -/

theorem alter_sound {y : TokenType} {α : Type} {f : Option (Pt .doc Sp) → Pt y Sp → PtConcatenation Sp → Option (PtAlterName Sp) → α} {r : α}
    (h : Accepts e (defs pats) (.map (fun x => f x.1 x.2.1 x.2.2.1 x.2.2.2) (.boxed (.map group4
      (.then_ (.then_ (.then_ (optional (terminal pats .doc)) (terminal pats y)) (ref .concatenation)) (optional (ref .alterName)))))) i r j) :
    ∃ x1 x2 x3 x4, r = f x1 x2 x3 x4 ∧ OptComplete Pt.Complete x1 ∧ x2.Complete ∧ x3.Complete ∧ OptComplete PtAlterName.Complete x4 ∧
      Reads e i (optLeaves Pt.leaves x1 ++ x2.leaves ++ x3.leaves ++ optLeaves PtAlterName.leaves x4) j := by
  obtain ⟨x1, x2, x3, x4, k1, k2, k3, rfl, h1, h2, h3, h4⟩ := acc_four.1 h
  have h1 := doc_sound h1
  have h3 := concatenation_sound x3 (acc_ref.1 h3)
  have h4 := name_sound h4
  exact ⟨x1, x2, x3, x4, rfl, h1.1, h2.1, h3.1, h4.1, reads_append.2 ⟨k3, reads_append.2 ⟨k2, reads_append.2
    ⟨k1, h1.2, h2.2⟩, h3.2⟩, h4.2⟩⟩

theorem alter_complete {y : TokenType} {α : Type} {f : Option (Pt .doc Sp) → Pt y Sp → PtConcatenation Sp → Option (PtAlterName Sp) → α}
    (hy : y ≠ .doc) {x1 : Option (Pt .doc Sp)} {x2 : Pt y Sp} {x3 : PtConcatenation Sp} {x4 : Option (PtAlterName Sp)}
    (h1 : OptComplete Pt.Complete x1) (h2 : x2.Complete) (h3 : x3.Complete) (h4 : OptComplete PtAlterName.Complete x4)
    (h : Reads e i (optLeaves Pt.leaves x1 ++ x2.leaves ++ x3.leaves ++ optLeaves PtAlterName.leaves x4) j)
    (hj : Free e j afterAlter) :
    Accepts e (defs pats) (.map (fun x => f x.1 x.2.1 x.2.2.1 x.2.2.2) (.boxed (.map group4
      (.then_ (.then_ (.then_ (optional (terminal pats .doc)) (terminal pats y)) (ref .concatenation))
        (optional (ref .alterName)))))) i (f x1 x2 x3 x4) j := by
  obtain ⟨k3, h, r4⟩ := reads_append.1 h
  obtain ⟨k2, h, r3⟩ := reads_append.1 h
  obtain ⟨k1, r1, r2⟩ := reads_append.1 h
  exact acc_four.2 ⟨x1, x2, x3, x4, k1, k2, k3, rfl, doc_complete h1 r1 ((h2.next' r2).ne hy), ⟨h2, r2⟩,
    acc_ref.2 (concatenation_complete x3 h3 r3 (name_next h4 r4 (free_app hj).1)),
    name_complete h4 r4 (hj _ (by simp [afterAlter]))⟩

theorem firstAlter_sound {x : PtFirstAlter Sp} (h : Acc d e .firstAlter i x j) : x.Complete ∧ Reads e i x.leaves j := by
  rw [acc_call (g := firstAlterDef pats) rfl] at h
  unfold firstAlterDef at h
  rw [acc_boxed] at h
  obtain ⟨x1, x2, x3, x4, rfl, h1, h2, h3, h4, h5⟩ := alter_sound (f := fun a b c d => PtFirstAlter.mk a b c d) h
  exact ⟨⟨h1, h2, h3, h4⟩, h5⟩

theorem firstAlter_complete {x : PtFirstAlter Sp} (h : x.Complete) (hr : Reads e i x.leaves j) (hj : Free e j afterAlter) :
    Acc d e .firstAlter i x j := by
  rw [acc_call (g := firstAlterDef pats) rfl]
  exact acc_boxed.2 (alter_complete (f := fun a b c d => PtFirstAlter.mk a b c d) (by decide) h.1 h.2.1 h.2.2.1 h.2.2.2 hr hj)

theorem subseqAlter_sound {x : PtSubseqAlter Sp} (h : Acc d e .subseqAlter i x j) : x.Complete ∧ Reads e i x.leaves j := by
  rw [acc_call (g := subseqAlterDef pats) rfl] at h
  unfold subseqAlterDef at h
  rw [acc_boxed] at h
  obtain ⟨x1, x2, x3, x4, rfl, h1, h2, h3, h4, h5⟩ := alter_sound (f := fun a b c d => PtSubseqAlter.mk a b c d) h
  exact ⟨⟨h1, h2, h3, h4⟩, h5⟩

theorem subseqAlter_complete {x : PtSubseqAlter Sp} (h : x.Complete) (hr : Reads e i x.leaves j) (hj : Free e j afterAlter) :
    Acc d e .subseqAlter i x j := by
  rw [acc_call (g := subseqAlterDef pats) rfl]
  exact acc_boxed.2 (alter_complete (f := fun a b c d => PtSubseqAlter.mk a b c d) (by decide) h.1 h.2.1 h.2.2.1 h.2.2.2 hr hj)

theorem rej_subseqAlter (h : Free e i [.doc, .bar]) : Rej d e .subseqAlter i := by
  rw [rej_call (g := subseqAlterDef pats) rfl]
  refine rej_boxed.2 (rej_map.2 (rej_boxed.2 (rej_map.2 (.thenFirst (.thenFirst (.thenSecond (j := i) (x := none) ?_ ?_))))))
  · exact acc_optional.2 (.inr ⟨rfl, rfl, rej_terminal.2 (h _ (by simp))⟩)
  · exact rej_terminal.2 (h _ (by simp))

theorem row_sound {x : NT} {c : NT.out Sp x → Prop} {l : NT.out Sp x → List (TokenData Sp)}
    (hg : ∀ a i j, Acc d e x i a j → c a ∧ Reads e i (l a) j) : ∀ {os : List (NT.out Sp x)} {i j : Nat},
    Run e (defs pats) (.call (N := names Sp) x) i os j → (∀ a ∈ os, c a) ∧ Reads e i (rowLeaves l os) j
  | [], i, j, h => by
    cases h
    exact ⟨by simp, rfl⟩
  | o :: os, i, j, h => by
    cases h with
    | cons h h' =>
      obtain ⟨h1, h2⟩ := hg _ _ _ h
      obtain ⟨h3, h4⟩ := row_sound hg h'
      exact ⟨by simpa using ⟨h1, h3⟩, reads_append.2 ⟨_, h2, h4⟩⟩

theorem alter_next {x : PtSubseqAlter Sp} {t : List (TokenData Sp)} (h : x.Complete) (hr : Reads e i (x.leaves ++ t) j) :
    Next e i .doc ∨ Next e i .bar := by
  obtain ⟨x1, x2, x3, x4⟩ := x
  obtain ⟨h1, h2, _⟩ := h
  unfold PtSubseqAlter.leaves at hr
  cases x1 with
  | none => exact .inr (h2.next (t := _ ++ (_ ++ t)) (by simpa [optLeaves] using hr))
  | some a => exact .inl ((h1 a rfl).next (t := _ ++ (_ ++ (_ ++ t))) (by simpa [optLeaves] using hr))

theorem alters_complete : ∀ {os : List (PtSubseqAlter Sp)} {i j : Nat}, (∀ a ∈ os, a.Complete) →
    Reads e i (rowLeaves PtSubseqAlter.leaves os) j → Free e j afterAlter →
    Run e (defs pats) (.call (N := names Sp) .subseqAlter) i os j ∧ Free e i afterAlter
  | [], i, j, _, hr, hj => by
    cases hr
    exact ⟨.nil, hj⟩
  | o :: os, i, j, h, hr, hj => by
    have ho := h o (by simp)
    have hn : Free e i afterAlter := by
      rcases alter_next ho hr with hn | hn <;> exact hn.free (by simp [afterAlter, suffixes, starts])
    obtain ⟨k, h1, h2⟩ := reads_append.1 hr
    obtain ⟨h3, h4⟩ := alters_complete (fun a ha => h a (by simp [ha])) h2 hj
    exact ⟨.cons (subseqAlter_complete ho h1 h4) h3, hn⟩

/-! ## Rules -/

theorem acc_row {x : NT} {os : List (NT.out Sp x)} :
    Accepts e D (.boxed (ref x).repeatedWith.parser) i os j ↔
      Run e D (.call (N := names Sp) x) i os j ∧ Rejects e D (.call (N := names Sp) x) j := by
  rw [acc_boxed]
  show Accepts e D (.repeated ⟨0, none, false, false⟩ (ref x)) _ _ _ ↔ _
  rw [accepts_repeated, run_ref, rej_ref]
  simp

theorem rule_sound {r : PtRule Sp} (h : Acc d e .rule i r j) : r.Complete ∧ Reads e i r.leaves j := by
  rw [acc_call (g := ruleDef pats) rfl] at h
  unfold ruleDef at h
  rw [acc_boxed, acc_or, acc_or] at h
  rcases h with (h | ⟨_, h⟩) | ⟨_, h⟩
  · obtain ⟨x1, x2, x3, x4, x5, k1, k2, k3, k4, rfl, h1, h2, h3, h4, h5⟩ := acc_five.1 h
    have h1 := doc_sound h1
    have h3 := acc_terminal.1 h3
    have h4 := alternation_sound x4 (acc_ref.1 h4)
    exact ⟨.tokenRule h1.1 h2.1 h3.1 h4.1 h5.1, reads_append.2 ⟨k4, reads_append.2 ⟨k3, reads_append.2 ⟨k2,
      reads_append.2 ⟨k1, h1.2, h2.2⟩, h3.2⟩, h4.2⟩, h5.2⟩⟩
  · obtain ⟨x1, x2, x3, x4, x5, k1, k2, k3, k4, rfl, h1, h2, h3, h4, h5⟩ := acc_five.1 h
    have h1 := doc_sound h1
    have h3 := acc_terminal.1 h3
    have h4 := alternation_sound x4 (acc_ref.1 h4)
    exact ⟨.whitespaceRule h1.1 h2.1 h3.1 h4.1 h5.1, reads_append.2 ⟨k4, reads_append.2 ⟨k3, reads_append.2 ⟨k2,
      reads_append.2 ⟨k1, h1.2, h2.2⟩, h3.2⟩, h4.2⟩, h5.2⟩⟩
  · obtain ⟨x1, x2, x3, x4, x5, k1, k2, k3, k4, rfl, h1, h2, h3, h4, h5⟩ := acc_five.1 h
    have h1 := doc_sound h1
    have h3 := firstAlter_sound (acc_ref.1 h3)
    have h4 := row_sound (c := PtSubseqAlter.Complete) (l := PtSubseqAlter.leaves) (fun _ _ _ h => subseqAlter_sound h) (acc_row.1 h4).1
    exact ⟨.grammarRule h1.1 h2.1 h3.1 h4.1 h5.1, reads_append.2 ⟨k4, reads_append.2 ⟨k3, reads_append.2 ⟨k2,
      reads_append.2 ⟨k1, h1.2, h2.2⟩, h3.2⟩, h4.2⟩, h5.2⟩⟩

/-- The optional documentation and the token after it are there, but not what comes next. -/
theorem rej_five {α β γ δ : Type} {y z : TokenType} {f : α → β}
    {h : (((Option (Pt .doc Sp) × Pt y Sp) × δ) × γ) × Pt z Sp → α} {g : P Sp γ} {g' : P Sp δ}
    {x1 : Option (Pt .doc Sp)} (h1 : Accepts e D (optional (terminal pats .doc)) i x1 j)
    (h2 : ¬ Next e j y ∨ ∃ (x2 : Pt y Sp) (k : Nat), Tok e j x2 k ∧ Rejects e D g' k) :
    Rejects e D (.map f (.boxed (.map h (.then_ (.then_ (.then_ (.then_ (optional (terminal pats .doc)) (terminal pats y))
      g') g) (terminal pats z))))) i := by
  refine rej_map.2 (rej_boxed.2 (rej_map.2 (.thenFirst (.thenFirst ?_))))
  rcases h2 with h2 | ⟨x2, k, h2, h3⟩
  · exact .thenFirst (.thenSecond h1 (rej_terminal.2 h2))
  · exact .thenSecond (.then_ h1 (acc_terminal.2 h2)) h3

theorem first_next {x : PtFirstAlter Sp} (h : x.Complete) (hr : Reads e i x.leaves j) :
    Next e i .doc ∨ Next e i .colColEq := by
  obtain ⟨x1, x2, x3, x4⟩ := x
  obtain ⟨h1, h2, _⟩ := h
  unfold PtFirstAlter.leaves at hr
  cases x1 with
  | none => exact .inr (h2.next (t := _ ++ _) (by simpa [optLeaves] using hr))
  | some a => exact .inl ((h1 a rfl).next (t := _ ++ (_ ++ _)) (by simpa [optLeaves] using hr))

theorem rule_complete {r : PtRule Sp} (h : r.Complete) (hr : Reads e i r.leaves j) : Acc d e .rule i r j := by
  rw [acc_call (g := ruleDef pats) rfl]
  unfold ruleDef
  rw [acc_boxed, acc_or, acc_or]
  cases h with
  | tokenRule h1 h2 h3 h4 h5 =>
    obtain ⟨k4, hr, r5⟩ := reads_append.1 hr
    obtain ⟨k3, hr, r4⟩ := reads_append.1 hr
    obtain ⟨k2, hr, r3⟩ := reads_append.1 hr
    obtain ⟨k1, r1, r2⟩ := reads_append.1 hr
    refine .inl (.inl (acc_five.2 ⟨_, _, _, _, _, k1, k2, k3, k4, rfl, doc_complete h1 r1 ((h2.next' r2).ne (by decide)),
      ⟨h2, r2⟩, acc_terminal.2 ⟨h3, r3⟩, acc_ref.2 (alternation_complete _ h4 r4 ?_), ⟨h5, r5⟩⟩))
    exact (h5.next' r5).free (by simp [suffixes, starts])
  | whitespaceRule h1 h2 h3 h4 h5 =>
    obtain ⟨k4, hr, r5⟩ := reads_append.1 hr
    obtain ⟨k3, hr, r4⟩ := reads_append.1 hr
    obtain ⟨k2, hr, r3⟩ := reads_append.1 hr
    obtain ⟨k1, r1, r2⟩ := reads_append.1 hr
    have hd := doc_complete (D := defs pats) (d := d) h1 r1 ((h2.next' r2).ne (by decide))
    refine .inl (.inr ⟨rej_five hd (.inl ((h2.next' r2).ne (by decide))), acc_five.2 ⟨_, _, _, _, _, k1, k2, k3, k4, rfl, hd,
      ⟨h2, r2⟩, acc_terminal.2 ⟨h3, r3⟩, acc_ref.2 (alternation_complete _ h4 r4 ?_), ⟨h5, r5⟩⟩⟩)
    exact (h5.next' r5).free (by simp [suffixes, starts])
  | grammarRule h1 h2 h3 h4 h5 =>
    obtain ⟨k4, hr, r5⟩ := reads_append.1 hr
    obtain ⟨k3, hr, r4⟩ := reads_append.1 hr
    obtain ⟨k2, hr, r3⟩ := reads_append.1 hr
    obtain ⟨k1, r1, r2⟩ := reads_append.1 hr
    have hd := doc_complete (D := defs pats) (d := d) h1 r1 ((h2.next' r2).ne (by decide))
    obtain ⟨h6, h7⟩ := alters_complete (d := d) h4 r4 ((h5.next' r5).free (by simp [afterAlter, suffixes, starts]))
    have hc : ¬ Next e k2 .colEqEq := by
      rcases first_next h3 r3 with hn | hn <;> exact hn.ne (by decide)
    refine .inr ⟨.or (rej_five hd (.inr ⟨_, k2, ⟨h2, r2⟩, rej_terminal.2 hc⟩)) (rej_five hd (.inl ((h2.next' r2).ne (by decide)))),
      acc_five.2 ⟨_, _, _, _, _, k1, k2, k3, k4, rfl, hd, ⟨h2, r2⟩, acc_ref.2 (firstAlter_complete h3 r3 h7),
        acc_row.2 ⟨h6, rej_subseqAlter ((h5.next' r5).free (by simp))⟩, ⟨h5, r5⟩⟩⟩

theorem rej_rule (h : Free e i [.doc, .symbol, .usc]) : Rej d e .rule i := by
  rw [rej_call (g := ruleDef pats) rfl]
  have hd : Accepts e (defs pats) (optional (terminal pats .doc)) i none i :=
    acc_optional.2 (.inr ⟨rfl, rfl, rej_terminal.2 (h _ (by simp))⟩)
  exact rej_boxed.2 (.or (.or (rej_five hd (.inl (h _ (by simp)))) (rej_five hd (.inl (h _ (by simp)))))
    (rej_five hd (.inl (h _ (by simp)))))

/-! ## Grammars -/

theorem acc_grammar {x : PtGrammar Sp} : Acc d e .grammar i x j ↔
    1 ≤ x.x1.length ∧ Run e (defs pats) (.call (N := names Sp) .rule) i x.x1 j ∧ Rej d e .rule j := by
  rw [acc_call (g := grammarDef) rfl]
  unfold grammarDef
  rw [acc_boxed]
  refine (acc_many (x := .rule) (m := 1)).trans ?_
  constructor
  · rintro ⟨os, rfl, h⟩
    exact h
  · intro h
    exact ⟨x.x1, rfl, h⟩

theorem grammar_sound {x : PtGrammar Sp} (h : Acc d e .grammar i x j) : x.Complete ∧ Reads e i x.leaves j := by
  obtain ⟨h1, h2, _⟩ := acc_grammar.1 h
  have h3 := row_sound (c := PtRule.Complete) (l := PtRule.leaves) (fun _ _ _ h => rule_sound h) h2
  exact ⟨⟨List.length_pos_iff.1 h1, h3.1⟩, h3.2⟩

theorem rules_complete : ∀ {os : List (PtRule Sp)} {i j : Nat}, (∀ a ∈ os, a.Complete) →
    Reads e i (rowLeaves PtRule.leaves os) j → Run e (defs pats) (.call (N := names Sp) .rule) i os j
  | [], i, j, _, hr => by
    cases hr
    exact .nil
  | o :: os, i, j, h, hr => by
    obtain ⟨k, h1, h2⟩ := reads_append.1 hr
    exact .cons (rule_complete (h o (by simp)) h1) (rules_complete (fun a ha => h a (by simp [ha])) h2)

theorem grammar_complete {x : PtGrammar Sp} (h : x.Complete) (hr : Reads e i x.leaves j)
    (hj : Free e j [.doc, .symbol, .usc]) : Acc d e .grammar i x j :=
  acc_grammar.2 ⟨List.length_pos_iff.2 h.1, rules_complete h.2 hr, rej_rule hj⟩

/-! ## All of them -/

theorem nt_sound : ∀ {n : NT} {x : NT.out Sp n}, Acc d e n i x j → Complete x ∧ Reads e i (leaves x) j
  | .grammar, _, h => grammar_sound h
  | .rule, _, h => rule_sound h
  | .alternation, x, h => alternation_sound x h
  | .firstAlter, _, h => firstAlter_sound h
  | .subseqAlter, _, h => subseqAlter_sound h
  | .alterName, _, h => acc_alterName.1 h
  | .concatenation, x, h => concatenation_sound x h
  | .repetition, x, h => repetition_sound x h
  | .singular, x, h => singular_sound x h

theorem nt_complete : ∀ {n : NT} {x : NT.out Sp n}, Complete x → Reads e i (leaves x) j → Free e j (continues n) →
    Acc d e n i x j
  | .grammar, _, h, hr, hj => grammar_complete h hr hj
  | .rule, _, h, hr, _ => rule_complete h hr
  | .alternation, x, h, hr, hj => alternation_complete x h hr hj
  | .firstAlter, _, h, hr, hj => firstAlter_complete h hr hj
  | .subseqAlter, _, h, hr, hj => subseqAlter_complete h hr hj
  | .alterName, _, h, hr, _ => acc_alterName.2 ⟨h, hr⟩
  | .concatenation, x, h, hr, hj => concatenation_complete x h hr hj
  | .repetition, x, h, hr, hj => repetition_complete x h hr hj
  | .singular, x, h, hr, _ => singular_complete x h hr

end PPC.Pangram
