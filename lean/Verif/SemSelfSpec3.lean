import Verif.SemSelfSpec2
import Verif.SemPangram4
import Verif.PropsPeg

/-!
# The parsers of grammar files match as the grammar in its own notation says
-/

namespace PPC.Pangram

open PPC Ebnf

variable {Sp : Type}

/-- A parser is put together like an expression of the notation. -/
inductive Mirrors (d : Sp) : {α : Type} → P Sp α → Ebnf NT TokenType → Prop where
  | boxed {α : Type} {g : P Sp α} {x : Ebnf NT TokenType} : Mirrors d g x → Mirrors d (.boxed g) x
  | map {α β : Type} {f : α → β} {g : P Sp α} {x : Ebnf NT TokenType} : Mirrors d g x → Mirrors d (.map f g) x
  | tok {k : TokenType} : Mirrors d (terminal (.default d) k) (.tok k)
  | name {k : NT} : Mirrors d (.call (N := names Sp) k) (.name k)
  | seq {α β : Type} {g : P Sp α} {g' : P Sp β} {x y : Ebnf NT TokenType} : Mirrors d g x → Mirrors d g' y →
      Mirrors d (.then_ g g') (.seq x y)
  | alt {α : Type} {g g' : P Sp α} {x y : Ebnf NT TokenType} : Mirrors d g x → Mirrors d g' y →
      Mirrors d (.or g g') (.alt x y)
  | opt {α : Type} {g : P Sp α} {x : Ebnf NT TokenType} : Mirrors d g x → Mirrors d (optional g) (.opt x)
  | star {α : Type} {g : P Sp α} {x : Ebnf NT TokenType} : Mirrors d g x →
      Mirrors d (.repeated ⟨0, none, false, false⟩ g) (.star x)
  | plus {α : Type} {g : P Sp α} {x : Ebnf NT TokenType} : Mirrors d g x →
      Mirrors d (.repeated ⟨1, none, false, false⟩ g) (.plus x)

variable {d : Sp}

theorem mirrors_defs (k : NT) : ∃ g, defs (.default d) k = some g ∧ Mirrors d g (production k) := by
  cases k
  case grammar => exact ⟨_, rfl, .boxed (.map (.boxed (.plus (.map .name))))⟩
  case rule => exact ⟨_, rfl, .boxed (.alt (.alt
      (.map (.boxed (.map (.seq (.seq (.seq (.seq (.opt .tok) .tok) .tok) (.map .name)) .tok))))
      (.map (.boxed (.map (.seq (.seq (.seq (.seq (.opt .tok) .tok) .tok) (.map .name)) .tok)))))
      (.map (.boxed (.map (.seq (.seq (.seq (.seq (.opt .tok) .tok) (.map .name)) (.boxed (.star (.map .name)))) .tok)))))⟩
  case alternation => exact ⟨_, rfl, .boxed (.map (.boxed (.map (.seq (.map .name)
      (.boxed (.star (.boxed (.map (.seq .tok (.map .name))))))))))⟩
  case firstAlter => exact ⟨_, rfl, .boxed (.map (.boxed (.map (.seq (.seq (.seq (.opt .tok) .tok) (.map .name))
      (.opt (.map .name))))))⟩
  case subseqAlter => exact ⟨_, rfl, .boxed (.map (.boxed (.map (.seq (.seq (.seq (.opt .tok) .tok) (.map .name))
      (.opt (.map .name))))))⟩
  case alterName => exact ⟨_, rfl, .boxed (.map (.boxed (.map (.seq .tok .tok))))⟩
  case concatenation => exact ⟨_, rfl, .boxed (.map (.boxed (.plus (.map .name))))⟩
  case repetition => exact ⟨_, rfl, .boxed (.alt (.alt (.alt (.map (.boxed (.map (.seq (.map .name) .tok))))
      (.map (.boxed (.map (.seq (.map .name) .tok))))) (.map (.boxed (.map (.seq (.map .name) .tok)))))
      (.map (.map .name)))⟩
  case singular => exact ⟨_, rfl, .boxed (.alt (.alt (.alt (.alt
      (.map (.boxed (.map (.seq (.seq .tok (.map .name)) .tok)))) (.map .tok)) (.map .tok)) (.map .tok)) (.map .tok))⟩

variable {ts : List (TerminalToken TokenType Sp)}

/-- The types of the tokens from a position on. -/
def rest (ts : List (TerminalToken TokenType Sp)) (i : Nat) : List TokenType := (ts.drop i).map (·.tokenType)

theorem rest_cons {i : Nat} {k : TokenType} {w : List TokenType} (h : k :: w = rest ts i) :
    (∃ t, (tokEnv ts).source i = some t ∧ t.tokenType = k) ∧ w = rest ts (i + 1) := by
  unfold rest at *
  cases h1 : ts.drop i with
  | nil => rw [h1] at h; cases h
  | cons t us =>
    rw [h1] at h
    cases h
    have h2 : ts[i]? = some t := by rw [← List.head?_drop, h1]; rfl
    refine ⟨⟨t, h2, rfl⟩, ?_⟩
    rw [← List.tail_drop, h1]
    rfl

theorem rest_nil {i : Nat} (h : [] = rest ts i) : (tokEnv ts).source i = none := by
  unfold rest at h
  exact List.getElem?_eq_none (List.drop_eq_nil_iff.1 (List.map_eq_nil_iff.1 h.symm))

/-- The parser does at the position what matching came to. -/
def Does (c : Sp) (ts : List (TerminalToken TokenType Sp)) {α : Type} (g : P Sp α) (i : Nat) : Option (List TokenType) → Prop
  | some v => ∃ o j, Accepts (tokEnv ts) (defs (.default c)) g i o j ∧ v = rest ts j
  | none => Rejects (tokEnv ts) (defs (.default c)) g i

variable {α : Type} {g : P Sp α} {x y : Ebnf NT TokenType} {i : Nat} {r : Option (List TokenType)}

theorem Does.boxed (h : Does d ts g i r) : Does d ts (.boxed g) i r := by
  cases r with
  | none => exact rej_boxed.2 h
  | some v =>
    obtain ⟨o, j, h1, h2⟩ := h
    exact ⟨o, j, acc_boxed.2 h1, h2⟩

theorem Does.map {β : Type} {f : α → β} (h : Does d ts g i r) : Does d ts (.map f g) i r := by
  cases r with
  | none => exact rej_map.2 h
  | some v =>
    obtain ⟨o, j, h1, h2⟩ := h
    exact ⟨f o, j, acc_map.2 ⟨o, h1, rfl⟩, h2⟩

theorem Mirrors.tok_inv {k : TokenType} (h : Mirrors d g (.tok k)) (hd : Does d ts (terminal (.default d) k) i r) :
    Does d ts g i r := by
  generalize hz : Ebnf.tok k = z at h
  induction h with
  | boxed _ ih => exact (ih hz).boxed
  | map _ ih => exact (ih hz).map
  | tok => cases hz; exact hd
  | _ => cases hz

theorem Mirrors.name_inv {k : NT} (h : Mirrors d g (.name k))
    (hd : Does d ts (.call (N := names Sp) k : P Sp (NT.out Sp k)) i r) : Does d ts g i r := by
  generalize hz : Ebnf.name k = z at h
  induction h with
  | boxed _ ih => exact (ih hz).boxed
  | map _ ih => exact (ih hz).map
  | name => cases hz; exact hd
  | _ => cases hz

theorem Mirrors.seq_inv (h : Mirrors d g (.seq x y)) (hd : ∀ {β γ : Type} {a : P Sp β} {b : P Sp γ}, Mirrors d a x →
    Mirrors d b y → Does d ts (.then_ a b) i r) : Does d ts g i r := by
  generalize hz : Ebnf.seq x y = z at h
  induction h with
  | boxed _ ih => exact (ih hz).boxed
  | map _ ih => exact (ih hz).map
  | seq h1 h2 => cases hz; exact hd h1 h2
  | _ => cases hz

theorem Mirrors.alt_inv (h : Mirrors d g (.alt x y)) (hd : ∀ {β : Type} {a b : P Sp β}, Mirrors d a x →
    Mirrors d b y → Does d ts (.or a b) i r) : Does d ts g i r := by
  generalize hz : Ebnf.alt x y = z at h
  induction h with
  | boxed _ ih => exact (ih hz).boxed
  | map _ ih => exact (ih hz).map
  | alt h1 h2 => cases hz; exact hd h1 h2
  | _ => cases hz

theorem Mirrors.opt_inv (h : Mirrors d g (.opt x)) (hd : ∀ {β : Type} {a : P Sp β}, Mirrors d a x →
    Does d ts (optional a) i r) : Does d ts g i r := by
  generalize hz : Ebnf.opt x = z at h
  induction h with
  | boxed _ ih => exact (ih hz).boxed
  | map _ ih => exact (ih hz).map
  | opt h1 => cases hz; exact hd h1
  | _ => cases hz

theorem Mirrors.star_inv (h : Mirrors d g (.star x)) (hd : ∀ {β : Type} {a : P Sp β}, Mirrors d a x →
    Does d ts (.repeated ⟨0, none, false, false⟩ a) i r) : Does d ts g i r := by
  generalize hz : Ebnf.star x = z at h
  induction h with
  | boxed _ ih => exact (ih hz).boxed
  | map _ ih => exact (ih hz).map
  | star h1 => cases hz; exact hd h1
  | _ => cases hz

theorem Mirrors.plus_inv (h : Mirrors d g (.plus x)) (hd : ∀ {β : Type} {a : P Sp β}, Mirrors d a x →
    Does d ts (.repeated ⟨1, none, false, false⟩ a) i r) : Does d ts g i r := by
  generalize hz : Ebnf.plus x = z at h
  induction h with
  | boxed _ ih => exact (ih hz).boxed
  | map _ ih => exact (ih hz).map
  | plus h1 => cases hz; exact hd h1
  | _ => cases hz

theorem Ebnf.Matches.star_some {N T A : Type} {rules : N → Ebnf N T} {is : T → A → Prop} {x : Ebnf N T} {w : List A}
    {r : Option (List A)} (h : Matches rules is (.star x) w r) : ∃ v, r = some v := by
  generalize hz : Ebnf.star x = z at h
  induction h with
  | starMore _ _ _ ih => cases hz; exact ih rfl
  | starNone => exact ⟨_, rfl⟩
  | _ => cases hz

/-- A parser that mirrors an expression does what matching the expression comes to. -/
theorem Ebnf.Matches.does {w : List TokenType} (h : Matches production (· = ·) x w r) : ∀ {α : Type} {g : P Sp α} {i : Nat},
    Mirrors d g x → w = rest ts i → Does d ts g i r := by
  induction h with
  | @tok t a w ha =>
    intro α g i hg hw
    obtain ⟨⟨t, h1, rfl⟩, h2⟩ := rest_cons hw
    subst ha
    exact hg.tok_inv ⟨⟨some ⟨t, i⟩⟩, i + 1, acc_terminal.2 ⟨⟨_, rfl, rfl⟩, h1, rfl, rfl⟩, h2⟩
  | @tokOther t a w ha =>
    intro α g i hg hw
    obtain ⟨⟨t, h1, rfl⟩, h2⟩ := rest_cons hw
    refine hg.tok_inv (r := none) (rej_terminal.2 ?_)
    rintro ⟨u, h3, h4⟩
    rw [h1] at h3
    cases h3
    exact ha h4.symm
  | tokEnd =>
    intro α g i hg hw
    refine hg.tok_inv (r := none) (rej_terminal.2 ?_)
    rintro ⟨u, h3, h4⟩
    rw [rest_nil hw] at h3
    cases h3
  | @name n w r _ ih =>
    intro α g i hg hw
    obtain ⟨g', h1, h2⟩ := mirrors_defs (d := d) n
    have h3 := ih (i := i) h2 hw
    refine hg.name_inv ?_
    cases r with
    | none => exact (rej_call h1).2 h3
    | some v =>
      obtain ⟨o, j, h4, h5⟩ := h3
      exact ⟨o, j, (acc_call h1).2 h4, h5⟩
  | @seq x y w v r _ _ ih ih' =>
    intro α g i hg hw
    refine hg.seq_inv fun ha hb => ?_
    obtain ⟨o, k, h1, h2⟩ := ih ha hw
    have h3 := ih' hb h2
    cases r with
    | none => exact rejects_iff.2 (.inr ⟨_, _, h1, h3⟩)
    | some v =>
      obtain ⟨o', j, h4, h5⟩ := h3
      exact ⟨(o, o'), j, acc_then.2 ⟨k, h1, h4⟩, h5⟩
  | seqNone _ ih =>
    intro α g i hg hw
    exact hg.seq_inv (r := none) fun ha _ => rejects_iff.2 (.inl (ih ha hw))
  | altLeft _ ih =>
    intro α g i hg hw
    refine hg.alt_inv fun ha _ => ?_
    obtain ⟨o, k, h1, h2⟩ := ih ha hw
    exact ⟨o, k, acc_or.2 (.inl h1), h2⟩
  | @altRight x y w r _ _ ih ih' =>
    intro α g i hg hw
    refine hg.alt_inv fun ha hb => ?_
    have h1 := ih ha hw
    have h2 := ih' hb hw
    cases r with
    | none => exact rejects_iff.2 ⟨h1, h2⟩
    | some v =>
      obtain ⟨o, j, h4, h5⟩ := h2
      exact ⟨o, j, acc_or.2 (.inr ⟨h1, h4⟩), h5⟩
  | optSome _ ih =>
    intro α g i hg hw
    refine hg.opt_inv fun ha => ?_
    obtain ⟨o, k, h1, h2⟩ := ih ha hw
    exact ⟨some o, k, acc_optional.2 (.inl ⟨o, rfl, h1⟩), h2⟩
  | optNone _ ih =>
    intro α g i hg hw
    refine hg.opt_inv fun ha => ?_
    exact ⟨none, i, acc_optional.2 (.inr ⟨rfl, rfl, ih ha hw⟩), hw⟩
  | starMore _ h' ih ih' =>
    intro α g i hg hw
    obtain ⟨v, rfl⟩ := Ebnf.Matches.star_some h'
    refine hg.star_inv fun ha => ?_
    obtain ⟨o, k, h1, h2⟩ := ih ha hw
    obtain ⟨os, j, h3, h4⟩ := ih' (.star ha) h2
    obtain ⟨-, h5, h6⟩ := accepts_repeated.1 h3
    exact ⟨o :: os, j, accepts_repeated.2 ⟨Nat.zero_le _, .cons h1 h5, h6⟩, h4⟩
  | starNone _ ih =>
    intro α g i hg hw
    refine hg.star_inv fun ha => ?_
    exact ⟨[], i, accepts_repeated.2 ⟨Nat.zero_le _, .nil, ih ha hw⟩, hw⟩
  | plus _ h' ih ih' =>
    intro α g i hg hw
    obtain ⟨v, rfl⟩ := Ebnf.Matches.star_some h'
    refine hg.plus_inv fun ha => ?_
    obtain ⟨o, k, h1, h2⟩ := ih ha hw
    obtain ⟨os, j, h3, h4⟩ := ih' (.star ha) h2
    obtain ⟨-, h5, h6⟩ := accepts_repeated.1 h3
    exact ⟨o :: os, j, accepts_repeated.2 ⟨by simp, .cons h1 h5, h6⟩, h4⟩
  | plusNone _ ih =>
    intro α g i hg hw
    refine hg.plus_inv (r := none) fun ha => ?_
    refine rejects_iff.2 ?_
    exact .tooFew (fun h => not_full h) (.plain (ih ha hw)) (by simp)

/-! ## Matching always comes to something -/

/-- On all sequences of at most `l` tokens, matching comes to something, and takes `s` tokens at least if there is a
match. -/
def Total (s l : Nat) (x : Ebnf NT TokenType) : Prop :=
  ∀ w : List TokenType, w.length ≤ l →
    ∃ r, Matches production (· = ·) x w r ∧ ∀ v, r = some v → v.length + s ≤ w.length

section
variable {s t l : Nat}

theorem Total.mono {s' l' : Nat} (h : Total s l x) (hs : s' ≤ s) (hl : l' ≤ l) : Total s' l' x := by
  intro w hw
  obtain ⟨r, h1, h2⟩ := h w (by omega)
  exact ⟨r, h1, fun v hv => by have := h2 v hv; omega⟩

theorem Total.tok {k : TokenType} : Total 1 l (.tok k) := by
  intro w _
  cases w with
  | nil => exact ⟨none, .tokEnd, fun v hv => by cases hv⟩
  | cons a w =>
    by_cases h : k = a
    · exact ⟨some w, .tok h, fun v hv => by cases hv; simp⟩
    · exact ⟨none, .tokOther h, fun v hv => by cases hv⟩

theorem Total.name {n : NT} (h : Total s l (production n)) : Total s l (.name n) := by
  intro w hw
  obtain ⟨r, h1, h2⟩ := h w hw
  exact ⟨r, .name h1, h2⟩

theorem Total.seq (h : Total s l x) (h' : ∀ l', l' + s ≤ l → Total t l' y) : Total (s + t) l (.seq x y) := by
  intro w hw
  obtain ⟨r, h1, h2⟩ := h w hw
  cases r with
  | none => exact ⟨none, .seqNone h1, fun v hv => by cases hv⟩
  | some v =>
    have h3 : v.length + s ≤ w.length := h2 v rfl
    obtain ⟨r, h4, h5⟩ := h' v.length (by omega) v (Nat.le_refl _)
    exact ⟨r, .seq h1 h4, fun u hu => by have := h5 u hu; omega⟩

theorem Total.alt (h : Total s l x) (h' : Total s l y) : Total s l (.alt x y) := by
  intro w hw
  obtain ⟨r, h1, h2⟩ := h w hw
  cases r with
  | some v => exact ⟨some v, .altLeft h1, h2⟩
  | none =>
    obtain ⟨r, h3, h4⟩ := h' w hw
    exact ⟨r, .altRight h1 h3, h4⟩

theorem Total.opt (h : Total s l x) : Total 0 l (.opt x) := by
  intro w hw
  obtain ⟨r, h1, h2⟩ := h w hw
  cases r with
  | some v => exact ⟨some v, .optSome h1, fun u hu => by have := h2 u hu; omega⟩
  | none => exact ⟨some w, .optNone h1, fun u hu => by cases hu; simp⟩

theorem Total.star (h : Total 1 l x) : Total 0 l (.star x) := by
  suffices hn : ∀ n, n ≤ l → Total 0 n (.star x) from hn l (Nat.le_refl _)
  intro n
  induction n with
  | zero =>
    intro _ w hw
    obtain ⟨r, h1, h2⟩ := h w (by omega)
    cases r with
    | some v => have : v.length + 1 ≤ w.length := h2 v rfl; omega
    | none => exact ⟨some w, .starNone h1, fun u hu => by cases hu; simp⟩
  | succ n ih =>
    intro hn w hw
    obtain ⟨r, h1, h2⟩ := h w (by omega)
    cases r with
    | some v =>
      have h3 : v.length + 1 ≤ w.length := h2 v rfl
      obtain ⟨r, h4, h5⟩ := ih (by omega) v (by omega)
      exact ⟨r, .starMore h1 h4, fun u hu => by have := h5 u hu; omega⟩
    | none => exact ⟨some w, .starNone h1, fun u hu => by cases hu; simp⟩

theorem Total.plus (h : Total 1 l x) : Total 1 l (.plus x) := by
  intro w hw
  obtain ⟨r, h1, h2⟩ := h w hw
  cases r with
  | none => exact ⟨none, .plusNone h1, fun v hv => by cases hv⟩
  | some v =>
    have h3 : v.length + 1 ≤ w.length := h2 v rfl
    obtain ⟨r, h4, h5⟩ := h.star v (by omega)
    exact ⟨r, .plus h1 h4, fun u hu => by have := h5 u hu; omega⟩

end

theorem total (l : Nat) : ∀ k : NT, Total 1 l (.name k) := by
  induction l using Nat.strongRecOn with
  | _ l ih =>
    have sing : Total 1 l (.name .singular) :=
      .name (.alt (.alt (.alt (.alt ((Total.seq (t := 1) (.seq (t := 1) .tok fun l' hl => ih l' (by omega) _)
        fun _ _ => .tok).mono (by omega) (Nat.le_refl _)) .tok) .tok) .tok) .tok)
    have rep : Total 1 l (.name .repetition) := by
      have suf : ∀ k, Total 1 l (.seq (.name .singular) (.tok k)) := fun k =>
        (Total.seq (t := 1) sing fun _ _ => .tok).mono (by omega) (Nat.le_refl _)
      exact .name (.alt (.alt (.alt (suf _) (suf _)) (suf _)) sing)
    have con : Total 1 l (.name .concatenation) := .name (.plus rep)
    have alter : Total 1 l (.name .alternation) :=
      .name (.seq (t := 0) con fun l' hl => .star ((Total.seq (t := 1) .tok fun l'' hl' =>
        con.mono (Nat.le_refl _) (by omega)).mono (by omega) (Nat.le_refl _)))
    have an : Total 1 l (.name .alterName) :=
      .name ((Total.seq (t := 1) .tok fun _ _ => .tok).mono (by omega) (Nat.le_refl _))
    have fa : ∀ k, Total 1 l (.seq (.seq (.seq (.opt (.tok .doc)) (.tok k)) (.name .concatenation)) (.opt (.name .alterName))) :=
      fun k => (Total.seq (t := 0) (.seq (t := 1) (.seq (t := 1) (.opt .tok) fun _ _ => .tok) fun l' hl =>
        con.mono (Nat.le_refl _) (by omega)) fun l' hl => .opt (an.mono (Nat.le_refl _) (by omega))).mono (by omega) (Nat.le_refl _)
    have first : Total 1 l (.name .firstAlter) := .name (fa _)
    have sub : Total 1 l (.name .subseqAlter) := .name (fa _)
    have tr : ∀ k, Total 1 l (.seq (.seq (.seq (.seq (.opt (.tok .doc)) (.tok k)) (.tok .colEqEq)) (.name .alternation)) (.tok .sem)) :=
      fun k => (Total.seq (t := 1) (.seq (t := 1) (.seq (t := 1) (.seq (t := 1) (.opt .tok) fun _ _ => .tok) fun _ _ => .tok)
        fun l' hl => alter.mono (Nat.le_refl _) (by omega)) fun _ _ => .tok).mono (by omega) (Nat.le_refl _)
    have rule : Total 1 l (.name .rule) :=
      .name (.alt (.alt (tr _) (tr _)) ((Total.seq (t := 1) (.seq (t := 0) (.seq (t := 1) (.seq (t := 1) (.opt .tok)
        fun _ _ => .tok) fun l' hl => first.mono (Nat.le_refl _) (by omega)) fun l' hl =>
          .star (sub.mono (Nat.le_refl _) (by omega))) fun _ _ => .tok).mono (by omega) (Nat.le_refl _)))
    intro k
    cases k with
    | grammar => exact .name (.plus rule)
    | rule => exact rule
    | alternation => exact alter
    | firstAlter => exact first
    | subseqAlter => exact sub
    | alterName => exact an
    | concatenation => exact con
    | repetition => exact rep
    | singular => exact sing

theorem selfMatches_total (k : NT) (w : List TokenType) : ∃ r, SelfMatches k w r := by
  obtain ⟨r, h, -⟩ := total w.length k w (Nat.le_refl _)
  exact ⟨r, h⟩

/-! ## Together -/

theorem call_plain {k : NT} : (.call (N := names Sp) k : P Sp (NT.out Sp k)).All (plainL _ _) := by
  simp [G.All, plainL, G.Plain]

theorem selfMatches_some {k : NT} {i : Nat} {v : List TokenType} : SelfMatches k (rest ts i) (some v) ↔
    ∃ o j, Accepts (tokEnv ts) (defs (.default d)) (.call (N := names Sp) k) i o j ∧ v = rest ts j := by
  constructor
  · intro h
    exact h.does .name rfl
  · rintro ⟨o, j, h1, rfl⟩
    obtain ⟨r, h2⟩ := selfMatches_total k (rest ts i)
    have h3 := h2.does (ts := ts) (d := d) .name rfl
    cases r with
    | none => exact (C34_exclusive defs_plain call_plain h1 h3).elim
    | some v =>
      obtain ⟨o', j', h4, rfl⟩ := h3
      obtain ⟨-, rfl⟩ := C34_deterministic defs_plain call_plain h1 h4
      exact h2

theorem selfMatches_none {k : NT} {i : Nat} : SelfMatches k (rest ts i) none ↔
    Rejects (tokEnv ts) (defs (.default d)) (.call (N := names Sp) k) i := by
  constructor
  · intro h
    exact h.does .name rfl
  · intro h1
    obtain ⟨r, h2⟩ := selfMatches_total k (rest ts i)
    have h3 := h2.does (ts := ts) (d := d) .name rfl
    cases r with
    | none => exact h2
    | some v =>
      obtain ⟨o', j', h4, rfl⟩ := h3
      exact (C34_exclusive defs_plain call_plain h4 h1).elim

end PPC.Pangram
