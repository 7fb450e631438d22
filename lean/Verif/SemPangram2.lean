import Verif.SemPangram

/-!
# What the parsers of grammar files accept: completeness, for expressions
-/

namespace PPC.Pangram

open PPC

variable {Sp : Type} {e : Env (tokSig Sp)} {i j k : Nat} {D : Defs (tokSig Sp) (names Sp)} {d : Sp}

local notation "pats" => TerminalPatterns.default d

theorem Next.free {x : TokenType} {l : List TokenType} (h : Next e i x) (hx : x ∉ l) : Free e i l :=
  fun _ hy => h.ne fun hxy => hx (hxy ▸ hy)

theorem Free.mono {l l' : List TokenType} (h : Free e i l) (hl : ∀ x ∈ l', x ∈ l) : Free e i l' :=
  fun x hx => h x (hl x hx)

theorem free_end (h : e.source i = none) {l : List TokenType} : Free e i l := by
  rintro x _ ⟨t, h1, _⟩
  rw [h] at h1
  cases h1

theorem Pt.Complete.next {x : TokenType} {o : Pt x Sp} {t : List (TokenData Sp)} (h : o.Complete)
    (h' : Reads e i (o.leaves ++ t) j) : Next e i x := by
  obtain ⟨⟨u, n⟩, h1, h2⟩ := h
  unfold Pt.leaves at h'
  rw [h1] at h'
  exact ⟨u, h'.1, h2⟩

theorem Pt.Complete.next' {x : TokenType} {o : Pt x Sp} (h : o.Complete)
    (h' : Reads e i o.leaves j) : Next e i x := h.next (t := []) (by simpa using h')

theorem singular_first {s : PtSingular Sp} {t : List (TokenData Sp)} (h : s.Complete)
    (h' : Reads e i (s.leaves ++ t) j) : ∃ x ∈ starts, Next e i x := by
  cases h with
  | nested h1 h2 h3 =>
    rw [PtSingular.leaves, List.append_assoc, List.append_assoc] at h'
    exact ⟨_, by simp [starts], h1.next h'⟩
  | symbol h1 => rw [PtSingular.leaves] at h'; exact ⟨_, by simp [starts], h1.next h'⟩
  | stringLiteral h1 => rw [PtSingular.leaves] at h'; exact ⟨_, by simp [starts], h1.next h'⟩
  | characterSet h1 => rw [PtSingular.leaves] at h'; exact ⟨_, by simp [starts], h1.next h'⟩
  | characterLiteral h1 => rw [PtSingular.leaves] at h'; exact ⟨_, by simp [starts], h1.next h'⟩

theorem repetition_first {r : PtRepetition Sp} {t : List (TokenData Sp)} (h : r.Complete)
    (h' : Reads e i (r.leaves ++ t) j) : ∃ x ∈ starts, Next e i x := by
  cases h with
  | maybe h1 _ => rw [PtRepetition.leaves, List.append_assoc] at h'; exact singular_first h1 h'
  | any h1 _ => rw [PtRepetition.leaves, List.append_assoc] at h'; exact singular_first h1 h'
  | many h1 _ => rw [PtRepetition.leaves, List.append_assoc] at h'; exact singular_first h1 h'
  | one h1 => rw [PtRepetition.leaves] at h'; exact singular_first h1 h'

theorem suffixes_starts {x : TokenType} (h : x ∈ starts) : x ∉ suffixes := by
  cases x <;> simp_all [starts, suffixes]

/-! ## Rejection -/

theorem rej_leaf {x : TokenType} {α : Type} {f : Pt x Sp → α} (h : ¬ Next e i x) :
    Rejects e D (.map f (terminal pats x)) i := rej_map.2 (rej_terminal.2 h)

theorem rej_nested (h : ¬ Next e i .lp) : Rejects e D (nestedDef pats) i :=
  rej_map.2 (rej_boxed.2 (rej_map.2 (.thenFirst (.thenFirst (rej_terminal.2 h)))))

theorem rej_singular (h : Free e i starts) : Rej d e .singular i := by
  rw [rej_call (g := singularDef pats) rfl]
  exact rej_boxed.2 (.or (.or (.or (.or (rej_nested (h _ (by simp [starts]))) (rej_leaf (h _ (by simp [starts]))))
    (rej_leaf (h _ (by simp [starts])))) (rej_leaf (h _ (by simp [starts])))) (rej_leaf (h _ (by simp [starts]))))

theorem rej_suffixed {x : TokenType} {f : PtSingular Sp → Pt x Sp → PtRepetition Sp} (h : Rej d e .singular i) :
    Rejects e (defs pats) (suffixedDef pats x f) i :=
  rej_map.2 (rej_boxed.2 (rej_map.2 (.thenFirst (rej_ref.2 h))))

theorem rej_suffix {x : TokenType} {f : PtSingular Sp → Pt x Sp → PtRepetition Sp} {s : PtSingular Sp}
    (h : Acc d e .singular i s j) (hj : ¬ Next e j x) : Rejects e (defs pats) (suffixedDef pats x f) i :=
  rej_map.2 (rej_boxed.2 (rej_map.2 (.thenSecond (acc_ref.2 h) (rej_terminal.2 hj))))

theorem rej_repetition (h : Free e i starts) : Rej d e .repetition i := by
  have h := rej_singular (d := d) h
  rw [rej_call (g := repetitionDef pats) rfl]
  exact rej_boxed.2 (.or (.or (.or (rej_suffixed h) (rej_suffixed h)) (rej_suffixed h)) (rej_map.2 (rej_ref.2 h)))

theorem rej_bar (h : ¬ Next e i .bar) : Rejects e D (barDef pats) i :=
  rej_boxed.2 (rej_map.2 (.thenFirst (rej_terminal.2 h)))

/-! ## Acceptance -/

theorem free_app {l l' : List TokenType} (h : Free e i (l ++ l')) : Free e i l ∧ Free e i l' :=
  ⟨h.mono fun _ hx => List.mem_append_left _ hx, h.mono fun _ hx => List.mem_append_right _ hx⟩

mutual

theorem alternation_complete : ∀ (x : PtAlternation Sp) {i j : Nat}, x.Complete → Reads e i x.leaves j →
    Free e j (suffixes ++ starts ++ [.bar]) → Acc d e .alternation i x j
  | .mk c bs, i, j, h, hr, hj => by
    cases h with
    | mk h1 h2 =>
      rw [PtAlternation.leaves] at hr
      obtain ⟨k, h3, h4⟩ := reads_append.1 hr
      have hk : Free e k (suffixes ++ starts) := by
        cases h2 with
        | nil => rw [barsLeaves] at h4; cases h4; exact (free_app hj).1
        | cons hb _ _ =>
          rw [barsLeaves, List.append_assoc] at h4
          exact (hb.next h4).free (by simp [suffixes, starts])
      exact acc_alternation.2 ⟨k, concatenation_complete c h1 h3 hk, bars_complete bs h2 h4 (free_app hj).1,
        rej_bar (hj _ (by simp))⟩

theorem bars_complete : ∀ (bs : List (Pt .bar Sp × PtConcatenation Sp)) {i j : Nat}, BarsComplete bs →
    Reads e i (barsLeaves bs) j → Free e j (suffixes ++ starts) → Run e (defs pats) (barDef pats) i bs j
  | [], i, j, _, hr, _ => by
    rw [barsLeaves] at hr
    cases hr
    exact .nil
  | (b, c) :: bs, i, j, h, hr, hj => by
    cases h with
    | cons hb hc hbs =>
      rw [barsLeaves] at hr
      obtain ⟨k, h3, h4⟩ := reads_append.1 hr
      obtain ⟨m, h1, h2⟩ := reads_append.1 h3
      have hk : Free e k (suffixes ++ starts) := by
        cases hbs with
        | nil => rw [barsLeaves] at h4; cases h4; exact hj
        | cons hb _ _ =>
          rw [barsLeaves, List.append_assoc] at h4
          exact (hb.next h4).free (by simp [suffixes, starts])
      exact .cons (acc_bar.2 ⟨m, ⟨hb, h1⟩, concatenation_complete c hc h2 hk⟩) (bars_complete bs hbs h4 hj)

theorem concatenation_complete : ∀ (x : PtConcatenation Sp) {i j : Nat}, x.Complete → Reads e i x.leaves j →
    Free e j (suffixes ++ starts) → Acc d e .concatenation i x j
  | .mk rs, i, j, h, hr, hj => by
    cases h with
    | mk h1 h2 =>
      rw [PtConcatenation.leaves] at hr
      exact acc_concatenation.2 ⟨List.length_pos_iff.2 h1, reps_complete rs h2 hr (free_app hj).1,
        rej_repetition (free_app hj).2⟩

theorem reps_complete : ∀ (rs : List (PtRepetition Sp)) {i j : Nat}, RepsComplete rs →
    Reads e i (repsLeaves rs) j → Free e j suffixes →
    Run e (defs pats) (.call (N := names Sp) .repetition) i rs j
  | [], i, j, _, hr, _ => by
    rw [repsLeaves] at hr
    cases hr
    exact .nil
  | r :: rs, i, j, h, hr, hj => by
    cases h with
    | cons h hrs =>
      rw [repsLeaves] at hr
      obtain ⟨k, h3, h4⟩ := reads_append.1 hr
      have hk : Free e k suffixes := by
        cases hrs with
        | nil => rw [repsLeaves] at h4; cases h4; exact hj
        | cons hr' _ =>
          rw [repsLeaves] at h4
          obtain ⟨x, hx, hn⟩ := repetition_first hr' h4
          exact hn.free (suffixes_starts hx)
      exact .cons (repetition_complete r h h3 hk) (reps_complete rs hrs h4 hj)

theorem repetition_complete : ∀ (x : PtRepetition Sp) {i j : Nat}, x.Complete → Reads e i x.leaves j →
    Free e j suffixes → Acc d e .repetition i x j
  | .error, i, j, h, _, _ => by cases h
  | .maybe s q, i, j, h, hr, _ => by
    cases h with
    | maybe hs hq =>
      rw [PtRepetition.leaves] at hr
      obtain ⟨k, h3, h4⟩ := reads_append.1 hr
      have h5 := singular_complete s hs h3
      rw [acc_call (g := repetitionDef pats) rfl]
      exact acc_boxed.2 (.orLeft (.orLeft (.orLeft (acc_suffixed.2 ⟨s, q, k, rfl, h5, hq, h4⟩))))
  | .any s q, i, j, h, hr, _ => by
    cases h with
    | any hs hq =>
      rw [PtRepetition.leaves] at hr
      obtain ⟨k, h3, h4⟩ := reads_append.1 hr
      have h5 := singular_complete s hs h3
      rw [acc_call (g := repetitionDef pats) rfl]
      exact acc_boxed.2 (.orLeft (.orLeft (.orRight (rej_suffix h5 ((hq.next' h4).ne (by decide)))
        (acc_suffixed.2 ⟨s, q, k, rfl, h5, hq, h4⟩))))
  | .many s q, i, j, h, hr, _ => by
    cases h with
    | many hs hq =>
      rw [PtRepetition.leaves] at hr
      obtain ⟨k, h3, h4⟩ := reads_append.1 hr
      have h5 := singular_complete s hs h3
      rw [acc_call (g := repetitionDef pats) rfl]
      exact acc_boxed.2 (.orLeft (.orRight (.or (rej_suffix h5 ((hq.next' h4).ne (by decide)))
        (rej_suffix h5 ((hq.next' h4).ne (by decide)))) (acc_suffixed.2 ⟨s, q, k, rfl, h5, hq, h4⟩)))
  | .one s, i, j, h, hr, hj => by
    cases h with
    | one hs =>
      rw [PtRepetition.leaves] at hr
      have h5 := singular_complete s hs hr
      rw [acc_call (g := repetitionDef pats) rfl]
      exact acc_boxed.2 (.orRight (.or (.or (rej_suffix h5 (hj _ (by simp [suffixes])))
        (rej_suffix h5 (hj _ (by simp [suffixes])))) (rej_suffix h5 (hj _ (by simp [suffixes]))))
        (acc_map.2 ⟨s, acc_ref.2 h5, rfl⟩))

theorem singular_complete : ∀ (x : PtSingular Sp) {i j : Nat}, x.Complete → Reads e i x.leaves j →
    Acc d e .singular i x j
  | .error, i, j, h, _ => by cases h
  | .nested l a r, i, j, h, hr => by
    cases h with
    | nested hl ha hr' =>
      rw [PtSingular.leaves] at hr
      obtain ⟨k, h3, h4⟩ := reads_append.1 hr
      obtain ⟨m, h1, h2⟩ := reads_append.1 h3
      have h5 := alternation_complete a ha h2 ((hr'.next' h4).free (by simp [suffixes, starts]))
      rw [acc_call (g := singularDef pats) rfl]
      exact acc_boxed.2 (.orLeft (.orLeft (.orLeft (.orLeft
        (acc_nested.2 ⟨l, a, r, m, k, rfl, ⟨hl, h1⟩, h5, ⟨hr', h4⟩⟩)))))
  | .symbol o, i, j, h, hr => by
    cases h with
    | symbol h =>
      rw [PtSingular.leaves] at hr
      have hn := h.next' hr
      rw [acc_call (g := singularDef pats) rfl]
      exact acc_boxed.2 (.orLeft (.orLeft (.orLeft (.orRight (rej_nested (hn.ne (by decide)))
        (acc_leaf.2 ⟨o, rfl, h, hr⟩)))))
  | .stringLiteral o, i, j, h, hr => by
    cases h with
    | stringLiteral h =>
      rw [PtSingular.leaves] at hr
      have hn := h.next' hr
      rw [acc_call (g := singularDef pats) rfl]
      exact acc_boxed.2 (.orLeft (.orLeft (.orRight (.or (rej_nested (hn.ne (by decide)))
        (rej_leaf (hn.ne (by decide)))) (acc_leaf.2 ⟨o, rfl, h, hr⟩))))
  | .characterSet o, i, j, h, hr => by
    cases h with
    | characterSet h =>
      rw [PtSingular.leaves] at hr
      have hn := h.next' hr
      rw [acc_call (g := singularDef pats) rfl]
      exact acc_boxed.2 (.orLeft (.orRight (.or (.or (rej_nested (hn.ne (by decide)))
        (rej_leaf (hn.ne (by decide)))) (rej_leaf (hn.ne (by decide)))) (acc_leaf.2 ⟨o, rfl, h, hr⟩)))
  | .characterLiteral o, i, j, h, hr => by
    cases h with
    | characterLiteral h =>
      rw [PtSingular.leaves] at hr
      have hn := h.next' hr
      rw [acc_call (g := singularDef pats) rfl]
      exact acc_boxed.2 (.orRight (.or (.or (.or (rej_nested (hn.ne (by decide)))
        (rej_leaf (hn.ne (by decide)))) (rej_leaf (hn.ne (by decide)))) (rej_leaf (hn.ne (by decide))))
        (acc_leaf.2 ⟨o, rfl, h, hr⟩))

end

end PPC.Pangram
