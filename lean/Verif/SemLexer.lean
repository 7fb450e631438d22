import Verif.LexerRegexes

/-!
# The language of each expression is the set of words of its token type
-/

namespace PPC.Pangram

set_option linter.unusedSimpArgs false

open Re

theorem char_eq_iff {a c : Char} : (a ≤ c ∧ c ≤ a) ↔ c = a := by
  constructor
  · intro h; exact Char.le_antisymm h.2 h.1
  · rintro rfl; exact ⟨Char.le_refl _, Char.le_refl _⟩

theorem char_ne_iff {a c : Char} : (c < a ∨ a < c) ↔ c ≠ a := by
  constructor
  · rintro h rfl
    rcases h with h | h <;> exact Char.lt_irrefl _ h
  · intro h
    by_cases h1 : c < a
    · exact .inl h1
    · by_cases h2 : a < c
      · exact .inr h2
      · exact (h (Char.le_antisymm (Char.not_lt.1 h2) (Char.not_lt.1 h1))).elim

theorem lang_chr {a : Char} {w : List Char} : Lang (chr a) w ↔ w = [a] := by
  simp [chr, Lang, inSet, char_eq_iff, char_ne_iff]

theorem lang_seq {a b : Re} {w : List Char} : Lang (.seq a b) w ↔ ∃ u v, Lang a u ∧ Lang b v ∧ w = u ++ v := Iff.rfl

theorem lang_alt {a b : Re} {w : List Char} : Lang (.alt a b) w ↔ Lang a w ∨ Lang b w := Iff.rfl

theorem lang_eps {w : List Char} : Lang .eps w ↔ w = [] := Iff.rfl

theorem lang_opt {a : Re} {w : List Char} : Lang (opt a) w ↔ Lang a w ∨ w = [] := Iff.rfl

theorem lang_star {a : Re} {w : List Char} : Lang (.star a) w ↔ Star (Lang a) w := Iff.rfl

theorem lang_chr_seq {a : Char} {b : Re} {w : List Char} :
    Lang (.seq (chr a) b) w ↔ ∃ v, Lang b v ∧ w = a :: v := by
  simp [lang_seq, lang_chr]

theorem lang_seq_chr {a : Re} {c : Char} {w : List Char} :
    Lang (.seq a (chr c)) w ↔ ∃ v, Lang a v ∧ w = v ++ [c] := by
  simp [lang_seq, lang_chr]

theorem lang_hex {w : List Char} : Lang hexRe w ↔ ∃ c, HexDigit c ∧ w = [c] := by
  simp [hexRe, Lang, inSet, HexDigit, Digit]

theorem lang_hexes (n : Nat) : ∀ {w : List Char}, Lang (hexesRe n) w ↔ w.length = n ∧ ∀ c ∈ w, HexDigit c := by
  induction n with
  | zero => intro w; simp [hexesRe, cat, Lang, List.length_eq_zero_iff]; rintro rfl; simp
  | succ n ih =>
    intro w
    cases n with
    | zero =>
      simp only [hexesRe, List.replicate, cat, lang_hex]
      constructor
      · rintro ⟨c, hc, rfl⟩; simpa using hc
      · rintro ⟨h1, h2⟩
        obtain ⟨c, rfl⟩ := List.length_eq_one_iff.1 h1
        exact ⟨c, h2 c (by simp), rfl⟩
    | succ n =>
      have : hexesRe (n + 1 + 1) = .seq hexRe (hexesRe (n + 1)) := rfl
      rw [this, lang_seq]
      constructor
      · rintro ⟨u, v, hu, hv, rfl⟩
        obtain ⟨c, hc, rfl⟩ := lang_hex.1 hu
        obtain ⟨h1, h2⟩ := ih.1 hv
        refine ⟨by simp [h1], ?_⟩
        intro d hd
        rcases List.mem_append.1 hd with hd | hd
        · rw [List.mem_singleton] at hd; rw [hd]; exact hc
        · exact h2 d hd
      · rintro ⟨h1, h2⟩
        cases w with
        | nil => simp at h1
        | cons c w =>
          refine ⟨[c], w, lang_hex.2 ⟨c, h2 c (by simp), rfl⟩, ih.2 ⟨by simpa using h1, ?_⟩, rfl⟩
          intro d hd; exact h2 d (by simp [hd])

theorem lang_hash {w : List Char} : Lang hashRe w ↔ HashWord w := by
  rw [hashRe, lang_chr_seq]
  constructor
  · rintro ⟨v, h, rfl⟩
    rcases h with ⟨c, hc, rfl⟩ | h | h | h
    · simp [inSet, char_eq_iff, char_ne_iff] at hc
      exact .simple hc.1 hc.2.1 hc.2.2
    · obtain ⟨h, hh, rfl⟩ := lang_chr_seq.1 h
      obtain ⟨h1, h2⟩ := (lang_hexes 2).1 hh
      exact .hex2 h1 h2
    · obtain ⟨h, hh, rfl⟩ := lang_chr_seq.1 h
      obtain ⟨h1, h2⟩ := (lang_hexes 4).1 hh
      exact .hex4 h1 h2
    · obtain ⟨h, hh, rfl⟩ := lang_chr_seq.1 h
      obtain ⟨h1, h2⟩ := (lang_hexes 8).1 hh
      exact .hex8 h1 h2
  · intro h
    cases h with
    | @simple c h1 h2 h3 => exact ⟨[c], .inl ⟨c, by simp [inSet, char_eq_iff, char_ne_iff, h1, h2, h3], rfl⟩, rfl⟩
    | hex2 h1 h2 => exact ⟨_, .inr (.inl (lang_chr_seq.2 ⟨_, (lang_hexes 2).2 ⟨h1, h2⟩, rfl⟩)), rfl⟩
    | hex4 h1 h2 => exact ⟨_, .inr (.inr (.inl (lang_chr_seq.2 ⟨_, (lang_hexes 4).2 ⟨h1, h2⟩, rfl⟩))), rfl⟩
    | hex8 h1 h2 => exact ⟨_, .inr (.inr (.inr (lang_chr_seq.2 ⟨_, (lang_hexes 8).2 ⟨h1, h2⟩, rfl⟩))), rfl⟩

theorem lang_item {w : List Char} : Lang itemRe w ↔ SetItem w := by
  rw [itemRe, lang_alt, lang_hash]
  constructor
  · rintro (⟨c, hc, rfl⟩ | h)
    · simp [inSet, char_eq_iff, char_ne_iff] at hc
      exact .plain hc.1 hc.2.1 hc.2.2.1 hc.2.2.2
    · exact .escape h
  · intro h
    cases h with
    | @plain c h1 h2 h3 h4 => exact .inl ⟨c, by simp [inSet, char_eq_iff, char_ne_iff, h1, h2, h3, h4], rfl⟩
    | escape h => exact .inr h

theorem lang_body {w : List Char} : Lang bodyRe w ↔ SetBody w := by
  rw [bodyRe, lang_star]
  constructor
  · intro h
    induction h with
    | nil => exact .nil
    | cons hu _ ih =>
      obtain ⟨a, o, ha, ho, rfl⟩ := hu
      rcases ho with ho | ho
      · obtain ⟨b, hb, rfl⟩ := lang_chr_seq.1 ho
        exact .range (lang_item.1 ha) (lang_item.1 hb) ih
      · rw [lang_eps] at ho; subst ho
        rw [List.append_nil]
        exact .one (lang_item.1 ha) ih
  · intro h
    induction h with
    | nil => exact .nil
    | @one a w ha _ ih =>
      refine .cons ⟨a, [], lang_item.2 ha, .inr rfl, by simp⟩ ih
    | @range a b w ha hb _ ih =>
      exact .cons ⟨a, '-' :: b, lang_item.2 ha, .inl (lang_chr_seq.2 ⟨b, lang_item.2 hb, rfl⟩), rfl⟩ ih

theorem lang_set {w : List Char} : Lang setRe w ↔ SetWord w := by
  rw [setRe]
  simp only [cat, lang_chr_seq]
  constructor
  · rintro ⟨v, h, rfl⟩
    obtain ⟨o, b, ho, hb, rfl⟩ := h
    obtain ⟨b, hb', rfl⟩ := lang_seq_chr.1 hb
    rcases ho with ho | ho
    · rw [lang_chr] at ho; subst ho; exact ⟨b, lang_body.1 hb', .inr rfl⟩
    · rw [lang_eps] at ho; subst ho; exact ⟨b, lang_body.1 hb', .inl rfl⟩
  · rintro ⟨b, hb, rfl | rfl⟩
    · exact ⟨_, ⟨[], b ++ [']'], .inr rfl, lang_seq_chr.2 ⟨b, lang_body.2 hb, rfl⟩, rfl⟩, rfl⟩
    · exact ⟨_, ⟨['^'], b ++ [']'], .inl (lang_chr.2 rfl), lang_seq_chr.2 ⟨b, lang_body.2 hb, rfl⟩, rfl⟩, rfl⟩

theorem lang_piece {q : Char} {w : List Char} :
    Lang (.alt (.set true [(q, q), ('#', '#')]) (.seq (chr '#') dot)) w ↔
      (∃ c, c ≠ q ∧ c ≠ '#' ∧ w = [c]) ∨ ∃ c, c ≠ '\n' ∧ w = ['#', c] := by
  have h1 : ∀ c, inSet true [(q, q), ('#', '#')] c = true ↔ c ≠ q ∧ c ≠ '#' := by
    intro c; simp [inSet, char_eq_iff, char_ne_iff]
  have h2 : ∀ c, inSet true [('\n', '\n')] c = true ↔ c ≠ '\n' := by
    intro c; simp [inSet, char_eq_iff, char_ne_iff]
  rw [lang_alt, lang_chr_seq]
  constructor
  · rintro (⟨c, hc, rfl⟩ | ⟨v, ⟨c, hc, rfl⟩, rfl⟩)
    · exact .inl ⟨c, ((h1 c).1 hc).1, ((h1 c).1 hc).2, rfl⟩
    · exact .inr ⟨c, (h2 c).1 hc, rfl⟩
  · rintro (⟨c, h3, h4, rfl⟩ | ⟨c, h3, rfl⟩)
    · exact .inl ⟨c, (h1 c).2 ⟨h3, h4⟩, rfl⟩
    · exact .inr ⟨_, ⟨c, (h2 c).2 h3, rfl⟩, rfl⟩

theorem star_pieces {q : Char} {w : List Char} :
    Star (Lang (.alt (.set true [(q, q), ('#', '#')]) (.seq (chr '#') dot))) w ↔ Quoted q w := by
  constructor
  · intro h
    induction h with
    | nil => exact .nil
    | cons hu _ ih =>
      rcases lang_piece.1 hu with ⟨c, h1, h2, rfl⟩ | ⟨c, h1, rfl⟩
      · exact .plain h1 h2 ih
      · exact .escape h1 ih
  · intro h
    induction h with
    | nil => exact .nil
    | @plain c w h1 h2 _ ih => exact .cons (u := [c]) (lang_piece.2 (.inl ⟨c, h1, h2, rfl⟩)) ih
    | @escape c w h1 _ ih => exact .cons (u := ['#', c]) (lang_piece.2 (.inr ⟨c, h1, rfl⟩)) ih

theorem lang_quoted {q : Char} {w : List Char} :
    Lang (quotedRe q) w ↔ ∃ b, b ≠ [] ∧ Quoted q b ∧ w = q :: (b ++ [q]) := by
  rw [quotedRe]
  simp only [cat, lang_chr_seq, lang_seq_chr]
  constructor
  · rintro ⟨v, ⟨b, ⟨u, v, hu, hv, rfl⟩, rfl⟩, rfl⟩
    refine ⟨u ++ v, ?_, star_pieces.1 (.cons hu hv), rfl⟩
    rcases lang_piece.1 hu with ⟨c, _, _, rfl⟩ | ⟨c, _, rfl⟩ <;> simp
  · rintro ⟨b, hb, hq, rfl⟩
    refine ⟨_, ⟨b, ?_, rfl⟩, rfl⟩
    cases hq with
    | nil => exact (hb rfl).elim
    | @plain c w h1 h2 hw => exact ⟨[c], w, lang_piece.2 (.inl ⟨c, h1, h2, rfl⟩), star_pieces.2 hw, rfl⟩
    | @escape c w h1 hw => exact ⟨['#', c], w, lang_piece.2 (.inr ⟨c, h1, rfl⟩), star_pieces.2 hw, rfl⟩

theorem lang_string {w : List Char} : Lang (tokenRe .stringLiteral) w ↔ StringWord w := by
  rw [tokenRe, lang_alt, lang_quoted, lang_quoted]
  constructor
  · rintro (⟨b, h1, h2, rfl⟩ | ⟨b, h1, h2, rfl⟩)
    · exact ⟨_, b, .inl rfl, h1, h2, rfl⟩
    · exact ⟨_, b, .inr rfl, h1, h2, rfl⟩
  · rintro ⟨q, b, rfl | rfl, h1, h2, rfl⟩
    · exact .inl ⟨b, h1, h2, rfl⟩
    · exact .inr ⟨b, h1, h2, rfl⟩

/-- Text without `*/`, by its first characters. -/
theorem noClose_cons {c : Char} {w : List Char} :
    ¬ ['*', '/'] <:+: (c :: w) ↔ ¬ (c = '*' ∧ w.head? = some '/') ∧ ¬ ['*', '/'] <:+: w := by
  rw [List.infix_cons_iff, not_or]
  refine and_congr_left fun _ => not_congr ?_
  cases w with
  | nil => simp
  | cons d w => simp [eq_comm]

theorem noClose_append_left {u w : List Char} (hu : ¬ ['*', '/'] <:+: u) (hw : ¬ ['*', '/'] <:+: w)
    (hl : u.getLast? ≠ some '*') : ¬ ['*', '/'] <:+: (u ++ w) := by
  induction u with
  | nil => exact hw
  | cons c u ih =>
    rw [noClose_cons] at hu
    rw [List.cons_append, noClose_cons]
    cases u with
    | nil =>
      refine ⟨?_, hw⟩
      rintro ⟨rfl, _⟩
      simp at hl
    | cons d u =>
      refine ⟨by simpa using hu.1, ih hu.2 ?_⟩
      rw [List.getLast?_cons_cons] at hl; exact hl

theorem noClose_stars {w : List Char} (h : ∀ c ∈ w, c = '*') : ¬ ['*', '/'] <:+: w := by
  intro hi
  have := h '/' (hi.subset (by simp))
  exact absurd this (by decide)

theorem star_chr {a : Char} {w : List Char} : Star (Lang (chr a)) w ↔ ∀ c ∈ w, c = a := by
  rw [chr, mem_star_set]
  simp [inSet, char_eq_iff, char_ne_iff]

/-- The pieces of text without `*/`. -/
def TextPiece (w : List Char) : Prop :=
  (∃ c, c ≠ '*' ∧ w = [c]) ∨ ∃ s c, s ≠ [] ∧ (∀ d ∈ s, d = '*') ∧ c ≠ '*' ∧ c ≠ '/' ∧ w = s ++ [c]

theorem lang_textPiece {w : List Char} :
    Lang (.alt (.set true [('*', '*')]) (.seq (plus (chr '*')) (.set true [('*', '*'), ('/', '/')]))) w ↔ TextPiece w := by
  rw [lang_alt, TextPiece, lang_seq]
  refine or_congr ?_ ?_
  · simp [Lang, inSet, char_eq_iff, char_ne_iff]
  · constructor
    · rintro ⟨u, v, hu, ⟨c, hc, rfl⟩, rfl⟩
      obtain ⟨x, y, hx, hy, rfl⟩ := hu
      rw [lang_chr] at hx; subst hx
      simp [inSet, char_eq_iff, char_ne_iff] at hc
      refine ⟨_, c, by simp, ?_, hc.1, hc.2, rfl⟩
      have := star_chr.1 hy
      simpa using this
    · rintro ⟨s, c, hs, h1, h2, h3, rfl⟩
      cases s with
      | nil => exact (hs rfl).elim
      | cons d s =>
        have hd := h1 d (by simp)
        subst hd
        exact ⟨_, [c], ⟨['*'], s, lang_chr.2 rfl, star_chr.2 (fun x hx => h1 x (by simp [hx])), rfl⟩,
          ⟨c, by simp [inSet, char_eq_iff, char_ne_iff, h2, h3], rfl⟩, rfl⟩

theorem TextPiece.noClose {w : List Char} (h : TextPiece w) : ¬ ['*', '/'] <:+: w ∧ w.getLast? ≠ some '*' := by
  rcases h with ⟨c, hc, rfl⟩ | ⟨s, c, _, hs, h1, h2, rfl⟩
  · refine ⟨fun h => ?_, by simpa using hc⟩
    have := h.length_le
    simp at this
  · refine ⟨?_, by simpa using h1⟩
    rename_i hne
    clear hne
    induction s with
    | nil => intro h; have := h.length_le; simp at this
    | cons d s ih =>
      rw [List.cons_append, noClose_cons]
      refine ⟨?_, ih fun x hx => hs x (by simp [hx])⟩
      rintro ⟨_, h⟩
      cases s with
      | nil => simp at h; exact h2 h
      | cons e s =>
        have := hs e (by simp)
        subst this
        simp at h

theorem lang_text {w : List Char} : Lang textRe w ↔ ¬ ['*', '/'] <:+: w := by
  rw [textRe, lang_seq]
  constructor
  · rintro ⟨u, v, hu, hv, rfl⟩
    have hv' : ¬ ['*', '/'] <:+: v := noClose_stars (star_chr.1 hv)
    rw [lang_star] at hu
    clear hv
    induction hu with
    | nil => exact hv'
    | cons hu _ ih =>
      obtain ⟨h1, h2⟩ := (lang_textPiece.1 hu).noClose
      rw [List.append_assoc]
      exact noClose_append_left h1 ih h2
  · suffices ∀ n, ∀ w : List Char, w.length = n → ¬ ['*', '/'] <:+: w →
        ∃ u v, Star (Lang (.alt (.set true [('*', '*')]) (.seq (plus (chr '*')) (.set true [('*', '*'), ('/', '/')])))) u ∧
          Lang (.star (chr '*')) v ∧ w = u ++ v from fun h => this _ w rfl h
    intro n
    induction n using Nat.strongRecOn with
    | _ n ih =>
      intro w hn hw
      -- split off the leading stars
      have hsplit : w = w.takeWhile (· == '*') ++ w.dropWhile (· == '*') := List.takeWhile_append_dropWhile.symm
      have hstars : ∀ c ∈ w.takeWhile (· == '*'), c = '*' := by
        intro c hc
        have := List.all_eq_true.1 (List.all_takeWhile (p := (· == '*')) (l := w)) c hc
        simpa using this
      cases hd : w.dropWhile (· == '*') with
      | nil =>
        rw [hd, List.append_nil] at hsplit
        refine ⟨[], w, .nil, star_chr.2 ?_, rfl⟩
        rw [hsplit]; exact hstars
      | cons c r =>
        have hc : c ≠ '*' := by
          have := List.head?_dropWhile_not (· == '*') w
          rw [hd] at this
          simpa using this
        rw [hd] at hsplit
        generalize w.takeWhile (· == '*') = s at hsplit hstars
        subst hsplit
        have hr : ¬ ['*', '/'] <:+: r := fun h => hw (h.trans ((List.suffix_cons c r).isInfix.trans (List.suffix_append s _).isInfix))
        obtain ⟨u, v, hu, hv, rfl⟩ := ih r.length (by simp at hn; omega) r rfl hr
        by_cases hs : s = []
        · subst hs
          exact ⟨[c] ++ u, v, .cons (lang_textPiece.2 (.inl ⟨c, hc, rfl⟩)) hu, hv, by simp⟩
        · have hc2 : c ≠ '/' := by
            rintro rfl
            apply hw
            obtain ⟨s', rfl⟩ : ∃ s', s = s' ++ ['*'] := by
              refine ⟨s.dropLast, ?_⟩
              have h1 := List.dropLast_concat_getLast hs
              rw [hstars _ (List.getLast_mem hs)] at h1
              exact h1.symm
            exact ⟨s', u ++ v, by simp⟩
          exact ⟨(s ++ [c]) ++ u, v, .cons (lang_textPiece.2 (.inr ⟨s, c, hs, hstars, hc, hc2, rfl⟩)) hu, hv, by simp⟩

theorem lang_doc {w : List Char} : Lang docRe w ↔ DocWord w := by
  rw [docRe]
  simp only [cat]
  rw [lang_seq]
  simp only [lang_chr_seq, lang_chr]
  constructor
  · rintro ⟨u, v, ⟨u', ⟨u'', rfl, rfl⟩, rfl⟩, hv, rfl⟩
    obtain ⟨b, x, hb, hx, rfl⟩ := hv
    obtain ⟨x, hx', rfl⟩ := lang_chr_seq.1 hx
    rw [lang_chr] at hx'; subst hx'
    exact ⟨b, lang_text.1 hb, rfl⟩
  · rintro ⟨b, hb, rfl⟩
    exact ⟨_, _, ⟨_, ⟨_, rfl, rfl⟩, rfl⟩, ⟨b, ['*', '/'], lang_text.2 hb, lang_chr_seq.2 ⟨_, lang_chr.2 rfl, rfl⟩, rfl⟩, rfl⟩

theorem lang_comment {w : List Char} : Lang commentRe w ↔ CommentWord w := by
  rw [commentRe]
  simp only [cat]
  rw [lang_seq]
  simp only [lang_chr_seq, lang_chr]
  constructor
  · rintro ⟨u, v, ⟨u', rfl, rfl⟩, hv, rfl⟩
    obtain ⟨b, x, hb, hx, rfl⟩ := hv
    obtain ⟨x, hx', rfl⟩ := lang_chr_seq.1 hx
    rw [lang_chr] at hx'; subst hx'
    rcases lang_opt.1 hb with ⟨c, t, ⟨c, hc, rfl⟩, ht, rfl⟩ | rfl
    · simp [inSet, char_eq_iff, char_ne_iff] at hc
      refine ⟨[c] ++ t, ?_, by simpa using hc, rfl⟩
      rw [List.singleton_append, noClose_cons]
      exact ⟨fun h => hc h.1, lang_text.1 ht⟩
    · exact ⟨[], by simp, by simp, rfl⟩
  · rintro ⟨b, hb, hh, rfl⟩
    refine ⟨_, _, ⟨_, rfl, rfl⟩, ⟨b, ['*', '/'], ?_, lang_chr_seq.2 ⟨_, lang_chr.2 rfl, rfl⟩, rfl⟩, rfl⟩
    rw [lang_opt]
    cases b with
    | nil => exact .inr rfl
    | cons c b =>
      have hc : c ≠ '*' := by simpa using hh
      exact .inl ⟨[c], b, ⟨c, by simp [inSet, char_eq_iff, char_ne_iff, hc], rfl⟩, lang_text.2 (noClose_cons.1 hb).2, rfl⟩

theorem lang_blank {w : List Char} : Lang blankRe w ↔ BlankWord w := by
  have hb : ∀ c, inSet false [(' ', ' '), ('\t', '\t'), ('\n', '\n'), ('\r', '\r')] c = true ↔ BlankChar c := by
    intro c; simp [inSet, char_eq_iff, char_ne_iff, BlankChar]
  rw [blankRe, plus, lang_seq]
  constructor
  · rintro ⟨u, v, ⟨c, hc, rfl⟩, hv, rfl⟩
    rw [lang_star, mem_star_set] at hv
    refine ⟨by simp, fun d hd => ?_⟩
    rcases List.mem_cons.1 hd with rfl | hd
    · exact (hb _).1 hc
    · exact (hb _).1 (hv d hd)
  · rintro ⟨h1, h2⟩
    cases w with
    | nil => exact (h1 rfl).elim
    | cons c w =>
      refine ⟨[c], w, ⟨c, (hb c).2 (h2 c (by simp)), rfl⟩, ?_, rfl⟩
      rw [lang_star, mem_star_set]
      exact fun d hd => (hb d).2 (h2 d (by simp [hd]))

theorem lang_symbol {w : List Char} : Lang symbolRe w ↔ SymbolWord w := by
  rw [symbolRe, lang_seq]
  have h1 : ∀ c, inSet false [('a', 'z')] c = true ↔ Lower c := by intro c; simp [inSet, Lower]
  have h2 : ∀ c, inSet false [('a', 'z'), ('0', '9'), ('-', '-')] c = true ↔ SymbolChar c := by
    intro c; simp [inSet, SymbolChar, Lower, Digit, char_eq_iff]
  constructor
  · rintro ⟨u, v, ⟨c, hc, rfl⟩, hv, rfl⟩
    rw [lang_star, mem_star_set] at hv
    exact ⟨c, v, rfl, (h1 c).1 hc, fun d hd => (h2 d).1 (hv d hd)⟩
  · rintro ⟨c, cs, rfl, hc, hcs⟩
    refine ⟨[c], cs, ⟨c, (h1 c).2 hc, rfl⟩, ?_, rfl⟩
    rw [lang_star, mem_star_set]
    exact fun d hd => (h2 d).2 (hcs d hd)

theorem lang_token (k : TokenType) {w : List Char} : Lang (tokenRe k) w ↔ Word (.normal k) w := by
  cases k
  case symbol => exact lang_symbol
  case stringLiteral => exact lang_string
  case characterSet => exact lang_set
  case characterLiteral => exact lang_hash
  case doc => exact lang_doc
  all_goals simp [tokenRe, cat, lang_chr_seq, lang_chr, Word]

theorem lang_whitespace {w : List Char} : Lang whitespaceRe w ↔ Word .whitespace w := by
  rw [whitespaceRe, lang_alt, lang_comment, lang_blank]; rfl

end PPC.Pangram
