import Verif.SpecEbnf
import Verif.SemLexer

/-!
# Words described by the grammar of grammar files in its own notation
-/

namespace PPC.Pangram

open Ebnf Re

section
variable {N T A : Type} {rules : N → Ebnf N T} {is : T → A → Prop} {x y : Ebnf N T} {w : List A}

theorem derives_tok {t : T} : Derives rules is (.tok t) w ↔ ∃ a, is t a ∧ w = [a] :=
  ⟨fun h => by cases h with | tok h => exact ⟨_, h, rfl⟩, fun ⟨_, h, e⟩ => e ▸ .tok h⟩

theorem derives_name {n : N} : Derives rules is (.name n) w ↔ Derives rules is (rules n) w :=
  ⟨fun h => by cases h with | name h => exact h, .name⟩

theorem derives_seq : Derives rules is (.seq x y) w ↔ ∃ u v, Derives rules is x u ∧ Derives rules is y v ∧ w = u ++ v :=
  ⟨fun h => by cases h with | seq h h' => exact ⟨_, _, h, h', rfl⟩, fun ⟨_, _, h, h', e⟩ => e ▸ .seq h h'⟩

theorem derives_alt : Derives rules is (.alt x y) w ↔ Derives rules is x w ∨ Derives rules is y w :=
  ⟨fun h => by
    cases h with
    | altLeft h => exact .inl h
    | altRight h => exact .inr h,
  fun h => h.elim .altLeft .altRight⟩

theorem derives_opt : Derives rules is (.opt x) w ↔ Derives rules is x w ∨ w = [] :=
  ⟨fun h => by
    cases h with
    | optNone => exact .inr rfl
    | optSome h => exact .inl h,
  fun h => h.elim .optSome fun e => e ▸ .optNone⟩

theorem derives_plus : Derives rules is (.plus x) w ↔ Derives rules is (.seq x (.star x)) w :=
  ⟨fun h => by cases h with | plus h h' => exact .seq h h', fun h => by cases h with | seq h h' => exact .plus h h'⟩

end

/-- The expression of the notation and the regular expression describe the same words. -/
def Same (x : Ebnf TokenRule CharSet) (r : Re) : Prop := ∀ w, Derives tokenRule CharSet.Has x w ↔ Lang r w

variable {x y z : Ebnf TokenRule CharSet} {r s t : Re}

theorem has_iff {b : Bool} {l : List (Char × Char)} {c : Char} : CharSet.Has ⟨b, l⟩ c ↔ inSet b l c = true := by
  cases b <;> simp [CharSet.Has, inSet]

theorem same_set {b : Bool} {l : List (Char × Char)} : Same (.tok ⟨b, l⟩) (.set b l) := by
  intro w
  rw [derives_tok]
  simp [Lang, has_iff]

theorem Same.name {n : TokenRule} (h : Same (tokenRule n) r) : Same (.name n) r := fun w => derives_name.trans (h w)

theorem Same.seq (h : Same x r) (h' : Same y s) : Same (.seq x y) (.seq r s) := fun w => by
  rw [derives_seq, lang_seq]
  simp only [h _, h' _]

theorem Same.alt (h : Same x r) (h' : Same y s) : Same (.alt x y) (.alt r s) := fun w => by
  rw [derives_alt, lang_alt, h, h']

theorem Same.opt (h : Same x r) : Same (.opt x) (Re.opt r) := fun w => by
  rw [derives_opt, lang_opt, h]

theorem Same.star (h : Same x r) : Same (.star x) (.star r) := fun w => by
  rw [lang_star]
  constructor
  · intro hd
    generalize hy : Ebnf.star x = y at hd
    induction hd with
    | starNone => exact .nil
    | starMore h1 _ _ ih => cases hy; exact .cons ((h _).1 h1) (ih rfl)
    | _ => cases hy
  · intro hs
    induction hs with
    | nil => exact .starNone
    | cons h1 _ ih => exact .starMore ((h _).2 h1) ih

theorem Same.plus (h : Same x r) : Same (.plus x) (Re.plus r) := fun w => derives_plus.trans (h.seq h.star w)

theorem Same.assoc (h : Same (.seq x (.seq y z)) r) : Same (.seq (.seq x y) z) r := fun w => by
  rw [← h w]
  simp only [derives_seq]
  constructor
  · rintro ⟨_, v, ⟨a, b, h1, h2, rfl⟩, h3, rfl⟩
    exact ⟨a, b ++ v, h1, ⟨b, v, h2, h3, rfl⟩, List.append_assoc ..⟩
  · rintro ⟨a, _, h1, ⟨b, v, h2, h3, rfl⟩, rfl⟩
    exact ⟨a ++ b, v, ⟨a, b, h1, h2, rfl⟩, h3, (List.append_assoc ..).symm⟩

theorem Same.assocRe (h : Same x (.seq r (.seq s t))) : Same x (.seq (.seq r s) t) := fun w => by
  rw [h w]
  simp only [lang_seq]
  constructor
  · rintro ⟨a, _, h1, ⟨b, v, h2, h3, rfl⟩, rfl⟩
    exact ⟨a ++ b, v, ⟨a, b, h1, h2, rfl⟩, h3, (List.append_assoc ..).symm⟩
  · rintro ⟨_, v, ⟨a, b, h1, h2, rfl⟩, h3, rfl⟩
    exact ⟨a, b ++ v, h1, ⟨b, v, h2, h3, rfl⟩, List.append_assoc ..⟩

theorem same_chr {c : Char} : Same (char c) (chr c) := same_set

/-- Regroups to the right and compares part by part. -/
macro "same_parts" : tactic => `(tactic|
  repeat first
    | exact same_chr
    | exact same_set
    | assumption
    | apply Same.assoc
    | apply Same.assocRe
    | apply Same.seq
    | apply Same.plus
    | apply Same.opt
    | apply Same.star
    | apply Same.alt)

theorem same_hex : Same (.name .hex) hexRe := .name same_set

theorem same_hash : Same (.name .escapeSequence) hashRe := by
  refine .name (.seq same_chr ?_)
  have assocAlt : ∀ {a b c : Ebnf TokenRule CharSet} {r : Re}, Same (.alt a (.alt b c)) r → Same (.alt (.alt a b) c) r :=
    fun h w => by rw [← h w]; simp only [derives_alt, or_assoc]
  refine assocAlt (assocAlt (.alt same_set (.alt ?_ (.alt ?_ ?_))))
  all_goals
    have := same_hex
    simp only [hexesRe, List.replicate, Re.cat]
    show Same (Ebnf.cat _ [_, _]) _
    simp only [Ebnf.cat, List.foldl]
    same_parts

theorem same_item : Same (.name .characterSetChar) itemRe := .name (.alt same_set same_hash)

theorem same_symbol : Same (.name .symbol) symbolRe := .name (.seq same_set (.star same_set))

theorem same_characterSet : Same (.name .characterSet) setRe :=
  .name (.assoc (.assoc (.seq same_chr (.seq (.opt same_chr) (.seq
    (.star (.seq same_item (.opt (.seq same_chr same_item)))) same_chr)))))

theorem same_text : Same (.name .commentBody) textRe :=
  .name (.seq (.star (.alt same_set (.seq (.plus same_chr) same_set))) (.star same_chr))

theorem same_doc : Same (.name .doc) docRe :=
  .name (.assoc (.assoc (.assoc (.assocRe (.assoc (.seq same_chr (.assocRe
    (.seq same_chr (.seq same_chr (.seq same_text (.seq same_chr same_chr)))))))))))

theorem same_comment : Same (.name .whitespace) whitespaceRe :=
  .name (.alt (.assoc (.assoc (.assocRe (.assoc (.seq same_chr (.seq same_chr
    (.seq (.opt (.seq same_set same_text)) (.seq same_chr same_chr)))))))) (.plus same_set))

/-! ## Strings -/

/-- What may stand between two quotes according to the self-specification. -/
inductive AnyQuoted (q : Char) : List Char → Prop where
  | nil : AnyQuoted q []
  | plain {c : Char} {w : List Char} : c ≠ q → c ≠ '#' → AnyQuoted q w → AnyQuoted q (c :: w)
  | escape {c : Char} {w : List Char} : AnyQuoted q w → AnyQuoted q ('#' :: c :: w)

theorem AnyQuoted.of {q : Char} {w : List Char} (h : Quoted q w) : AnyQuoted q w := by
  induction h with
  | nil => exact .nil
  | plain h1 h2 _ ih => exact .plain h1 h2 ih
  | escape _ _ ih => exact .escape ih

theorem NoEscapedLineFeed.of_infix {u w : List Char} (h : NoEscapedLineFeed w) (hu : u <:+: w) : NoEscapedLineFeed u :=
  fun h' => h (h'.trans hu)

theorem AnyQuoted.to {q : Char} {w : List Char} (h : AnyQuoted q w) (hw : NoEscapedLineFeed w) : Quoted q w := by
  induction h with
  | nil => exact .nil
  | plain h1 h2 _ ih => exact .plain h1 h2 (ih (hw.of_infix (List.suffix_cons ..).isInfix))
  | @escape c w _ ih =>
    refine .escape (fun h => hw ?_) (ih (hw.of_infix ((List.suffix_cons ..).trans (List.suffix_cons ..)).isInfix))
    subst h
    exact ⟨[], w, rfl⟩

/-- One character between two quotes, or an escape. -/
abbrev pieceE (q : Char) : Ebnf TokenRule CharSet := .alt (noneOf [q, '#']) (.seq (char '#') (noneOf []))

theorem same_piece {q : Char} :
    Same (pieceE q) (.alt (.set true [(q, q), ('#', '#')]) (.seq (chr '#') (.set true []))) :=
  .alt same_set (.seq same_chr same_set)

theorem piece_iff {q : Char} {w : List Char} : Derives tokenRule CharSet.Has (pieceE q) w ↔
    (∃ c, c ≠ q ∧ c ≠ '#' ∧ w = [c]) ∨ ∃ c, w = ['#', c] := by
  rw [same_piece w, lang_alt, lang_chr_seq]
  have h1 : ∀ c, inSet true [(q, q), ('#', '#')] c = true ↔ c ≠ q ∧ c ≠ '#' := by
    intro c; simp [inSet, char_ne_iff]
  have h2 : ∀ c, inSet true [] c = true := by intro c; simp [inSet]
  simp only [Lang, h1, h2, true_and]
  constructor
  · rintro (⟨c, ⟨h3, h4⟩, rfl⟩ | ⟨_, ⟨c, rfl⟩, rfl⟩)
    · exact .inl ⟨c, h3, h4, rfl⟩
    · exact .inr ⟨c, rfl⟩
  · rintro (⟨c, h3, h4, rfl⟩ | ⟨c, rfl⟩)
    · exact .inl ⟨c, ⟨h3, h4⟩, rfl⟩
    · exact .inr ⟨_, ⟨c, rfl⟩, rfl⟩

theorem pieces_iff {q : Char} {w : List Char} :
    Derives tokenRule CharSet.Has (.star (pieceE q)) w ↔ AnyQuoted q w := by
  constructor
  · intro h
    generalize hy : Ebnf.star (pieceE q) = y at h
    induction h with
    | starNone => exact .nil
    | starMore h1 _ _ ih =>
      cases hy
      rcases piece_iff.1 h1 with ⟨c, h3, h4, rfl⟩ | ⟨c, rfl⟩
      · exact .plain h3 h4 (ih rfl)
      · exact .escape (ih rfl)
    | _ => cases hy
  · intro h
    induction h with
    | nil => exact .starNone
    | plain h1 h2 _ ih => exact .starMore (u := [_]) (piece_iff.2 (.inl ⟨_, h1, h2, rfl⟩)) ih
    | escape _ ih => exact .starMore (u := ['#', _]) (piece_iff.2 (.inr ⟨_, rfl⟩)) ih

theorem piecesPlus_iff {q : Char} {w : List Char} :
    Derives tokenRule CharSet.Has (.plus (pieceE q)) w ↔ w ≠ [] ∧ AnyQuoted q w := by
  rw [derives_plus]
  constructor
  · intro h
    obtain ⟨u, v, h1, h2, rfl⟩ := derives_seq.1 h
    exact ⟨by rcases piece_iff.1 h1 with ⟨c, _, _, rfl⟩ | ⟨c, rfl⟩ <;> simp, pieces_iff.1 (.starMore h1 h2)⟩
  · rintro ⟨h1, h2⟩
    cases h2 with
    | nil => exact (h1 rfl).elim
    | plain h3 h4 h5 => exact .seq (u := [_]) (piece_iff.2 (.inl ⟨_, h3, h4, rfl⟩)) (pieces_iff.2 h5)
    | escape h5 => exact .seq (u := ['#', _]) (piece_iff.2 (.inr ⟨_, rfl⟩)) (pieces_iff.2 h5)

theorem derives_char {c : Char} {w : List Char} : Derives tokenRule CharSet.Has (char c) w ↔ w = [c] :=
  (same_chr w).trans lang_chr

theorem string_iff {w : List Char} : Derives tokenRule CharSet.Has (.name .stringLiteral) w ↔
    ∃ q b, (q = '\'' ∨ q = '"') ∧ b ≠ [] ∧ AnyQuoted q b ∧ w = q :: (b ++ [q]) := by
  rw [derives_name]
  show Derives tokenRule CharSet.Has (.alt (.seq (.seq (char '\'') (.plus (pieceE '\''))) (char '\''))
    (.seq (.seq (char '"') (.plus (pieceE '"'))) (char '"'))) w ↔ _
  simp only [derives_alt, derives_seq, derives_char, piecesPlus_iff]
  constructor
  · rintro (⟨_, _, ⟨_, b, rfl, ⟨h1, h2⟩, rfl⟩, rfl, rfl⟩ | ⟨_, _, ⟨_, b, rfl, ⟨h1, h2⟩, rfl⟩, rfl, rfl⟩)
    · exact ⟨_, b, .inl rfl, h1, h2, rfl⟩
    · exact ⟨_, b, .inr rfl, h1, h2, rfl⟩
  · rintro ⟨q, b, rfl | rfl, h1, h2, rfl⟩
    · exact .inl ⟨_, _, ⟨_, b, rfl, ⟨h1, h2⟩, rfl⟩, rfl, rfl⟩
    · exact .inr ⟨_, _, ⟨_, b, rfl, ⟨h1, h2⟩, rfl⟩, rfl, rfl⟩

end PPC.Pangram
