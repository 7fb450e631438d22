import Verif.SpecPangram
import Verif.SemPegStep

/-!
# What the parsers of grammar files accept: soundness
-/

namespace PPC.Pangram

open PPC

variable {Sp : Type} {e : Env (tokSig Sp)} {i j k : Nat}

/-! ## Tokens in the input -/

theorem reads_append : ∀ {s t : List (TokenData Sp)} {i k : Nat},
    Reads e i (s ++ t) k ↔ ∃ j, Reads e i s j ∧ Reads e j t k
  | [], t, i, k => by simp [Reads]
  | d :: s, t, i, k => by
    simp only [List.cons_append, Reads]
    rw [reads_append]
    constructor
    · rintro ⟨h1, h2, j, h3, h4⟩
      exact ⟨j, ⟨h1, h2, h3⟩, h4⟩
    · rintro ⟨j, ⟨h1, h2, h3⟩, h4⟩
      exact ⟨h1, h2, j, h3, h4⟩

theorem Next.unique {x y : TokenType} (h : Next e i x) (h' : Next e i y) : x = y := by
  obtain ⟨t, h1, rfl⟩ := h
  obtain ⟨u, h2, rfl⟩ := h'
  rw [h1] at h2
  cases h2
  rfl

theorem Next.ne {x y : TokenType} (h : Next e i x) (hxy : x ≠ y) : ¬ Next e i y := fun h' => hxy (h.unique h')

/-! ## The parts -/

variable {D : Defs (tokSig Sp) (names Sp)} {d : Sp}

local notation "pats" => TerminalPatterns.default d

theorem spanOf_eq : e.spanOf i j = (i, j) := rfl

theorem acc_terminal {x : TokenType} {o : Pt x Sp} :
    Accepts e D (terminal pats x) i o j ↔ o.Complete ∧ Reads e i o.leaves j := by
  unfold terminal
  rw [accepts_iff]
  show Accepts e D (.mapWithSpan _ (.oneOf [_])) i o j ↔ _
  rw [accepts_iff]
  constructor
  · rintro ⟨t, h, rfl⟩
    obtain ⟨h1, ⟨y, h2, h3⟩, rfl⟩ := accepts_iff.1 h
    cases List.mem_singleton.1 h2
    exact ⟨⟨⟨t, i⟩, rfl, of_decide_eq_true h3⟩, h1, rfl, rfl⟩
  · rintro ⟨⟨⟨t, n⟩, h1, h2⟩, h3⟩
    obtain ⟨o⟩ := o
    cases h1
    obtain ⟨h3, h4, h5⟩ := h3
    cases h4
    cases h5
    exact ⟨t, accepts_iff.2 ⟨h3, ⟨_, List.mem_singleton.2 rfl, decide_eq_true h2⟩, rfl⟩, rfl⟩

theorem rej_terminal {x : TokenType} : Rejects e D (terminal pats x) i ↔ ¬ Next e i x := by
  unfold terminal
  rw [rejects_iff]
  show Rejects e D (.mapWithSpan _ (.oneOf [_])) i ↔ _
  rw [rejects_iff]
  show Rejects e D (.oneOf [_]) i ↔ _
  rw [rejects_iff]
  constructor
  · rintro h ⟨t, h1, h2⟩
    exact of_decide_eq_false (h t h1 _ (List.mem_singleton.2 rfl)) h2
  · intro h t h1 y hy
    cases List.mem_singleton.1 hy
    exact decide_eq_false fun h2 => h ⟨t, h1, h2⟩

theorem acc_boxed {α : Type} {g : P Sp α} {o : α} : Accepts e D (.boxed g) i o j ↔ Accepts e D g i o j := accepts_iff
theorem rej_boxed {α : Type} {g : P Sp α} : Rejects e D (.boxed g) i ↔ Rejects e D g i := rejects_iff
theorem acc_map {α β : Type} {f : α → β} {g : P Sp α} {o : β} :
    Accepts e D (.map f g) i o j ↔ ∃ a, Accepts e D g i a j ∧ o = f a := accepts_iff
theorem rej_map {α β : Type} {f : α → β} {g : P Sp α} : Rejects e D (.map f g) i ↔ Rejects e D g i := rejects_iff
theorem acc_then {α β : Type} {g : P Sp α} {g' : P Sp β} {o : α × β} :
    Accepts e D (.then_ g g') i o j ↔ ∃ k, Accepts e D g i o.1 k ∧ Accepts e D g' k o.2 j := accepts_iff
theorem acc_or {α : Type} {g g' : P Sp α} {o : α} :
    Accepts e D (.or g g') i o j ↔ Accepts e D g i o j ∨ Rejects e D g i ∧ Accepts e D g' i o j := accepts_iff

theorem acc_optional {α : Type} {g : P Sp α} {o : Option α} : Accepts e D (optional g) i o j ↔
    (∃ a, o = some a ∧ Accepts e D g i a j) ∨ o = none ∧ j = i ∧ Rejects e D g i := by
  unfold optional
  rw [acc_boxed, acc_or, acc_map, acc_map, rej_map]
  constructor
  · rintro (⟨a, h, rfl⟩ | ⟨h, a, h', rfl⟩)
    · exact .inl ⟨a, rfl, h⟩
    · exact .inr ⟨rfl, accepts_iff.1 h', h⟩
  · rintro (⟨a, rfl, h⟩ | ⟨rfl, rfl, h⟩)
    · exact .inl ⟨a, h, rfl⟩
    · exact .inr ⟨h, (), .empty, rfl⟩

theorem acc_ref {x : NT} {o : NT.out Sp x} :
    Accepts e D (ref x) i o j ↔ Accepts e D (.call (N := names Sp) x) i o j := by
  unfold ref
  rw [acc_map]
  exact ⟨fun ⟨_, h, h'⟩ => h' ▸ h, fun h => ⟨_, h, rfl⟩⟩

theorem rej_ref {x : NT} :
    Rejects e D (ref (Sp := Sp) x) i ↔ Rejects e D (.call (N := names Sp) x) i := by
  unfold ref
  rw [rej_map]

/-- `x` is what the recursive parser accepts from `i` to `j`. -/
abbrev Acc (d : Sp) (e : Env (tokSig Sp)) (n : NT) (i : Nat) (x : NT.out Sp n) (j : Nat) : Prop :=
  Accepts e (defs (TerminalPatterns.default d)) (.call (N := names Sp) n) i x j

/-- The recursive parser rejects at `i`. -/
abbrev Rej (d : Sp) (e : Env (tokSig Sp)) (n : NT) (i : Nat) : Prop :=
  Rejects e (defs (TerminalPatterns.default d)) (.call (N := names Sp) n) i

theorem acc_call {n : NT} {g : P Sp (NT.out Sp n)} (h : defs pats n = some g) {x : NT.out Sp n} :
    Acc d e n i x j ↔ Accepts e (defs pats) g i x j := by
  unfold Acc
  rw [accepts_iff]
  constructor
  · rintro ⟨g', h1, h2⟩
    rw [h] at h1
    cases h1
    exact h2
  · intro h1
    exact ⟨g, h, h1⟩

theorem rej_call {n : NT} {g : P Sp (NT.out Sp n)} (h : defs pats n = some g) :
    Rej d e n i ↔ Rejects e (defs pats) g i := by
  unfold Rej
  rw [rejects_iff]
  constructor
  · rintro ⟨g', h1, h2⟩
    rw [h] at h1
    cases h1
    exact h2
  · intro h1
    exact ⟨g, h, h1⟩

/-- A part of a tree: what it consists of is in the input. -/
abbrev PartAt {α : Type} (c : α → Prop) (l : α → List (TokenData Sp)) (e : Env (tokSig Sp)) (i : Nat) (x : α) (j : Nat) : Prop :=
  c x ∧ Reads e i (l x) j

abbrev Tok {x : TokenType} (e : Env (tokSig Sp)) (i : Nat) (o : Pt x Sp) (j : Nat) : Prop :=
  PartAt Pt.Complete Pt.leaves e i o j

theorem acc_suffixed {x : TokenType} {f : PtSingular Sp → Pt x Sp → PtRepetition Sp} {r : PtRepetition Sp} :
    Accepts e D (suffixedDef pats x f) i r j ↔
      ∃ s q k, r = f s q ∧ Accepts e D (.call (N := names Sp) .singular) i s k ∧ Tok e k q j := by
  unfold suffixedDef
  rw [acc_map]
  constructor
  · rintro ⟨⟨s, q⟩, h, rfl⟩
    rw [acc_boxed, acc_map] at h
    obtain ⟨⟨s', q'⟩, h, h'⟩ := h
    cases h'
    rw [acc_then] at h
    obtain ⟨k, h1, h2⟩ := h
    exact ⟨_, _, k, rfl, acc_ref.1 h1, acc_terminal.1 h2⟩
  · rintro ⟨s, q, k, rfl, h1, h2⟩
    exact ⟨(s, q), acc_boxed.2 (acc_map.2 ⟨(s, q), acc_then.2 ⟨k, acc_ref.2 h1, acc_terminal.2 h2⟩, rfl⟩), rfl⟩

theorem acc_nested {s : PtSingular Sp} : Accepts e D (nestedDef pats) i s j ↔
    ∃ l a r k h, s = .nested l a r ∧ Tok e i l k ∧
      Accepts e D (.call (N := names Sp) .alternation) k a h ∧ Tok e h r j := by
  unfold nestedDef
  rw [acc_map]
  constructor
  · rintro ⟨⟨l, a, r⟩, h, rfl⟩
    rw [acc_boxed, acc_map] at h
    obtain ⟨⟨⟨l', a'⟩, r'⟩, h, h'⟩ := h
    cases h'
    rw [acc_then] at h
    obtain ⟨k, h1, h2⟩ := h
    rw [acc_then] at h1
    obtain ⟨m, h1, h3⟩ := h1
    exact ⟨_, _, _, m, k, rfl, acc_terminal.1 h1, acc_ref.1 h3, acc_terminal.1 h2⟩
  · rintro ⟨l, a, r, m, k, rfl, h1, h3, h2⟩
    exact ⟨(l, a, r), acc_boxed.2 (acc_map.2 ⟨((l, a), r), acc_then.2 ⟨k, acc_then.2
      ⟨m, acc_terminal.2 h1, acc_ref.2 h3⟩, acc_terminal.2 h2⟩, rfl⟩), rfl⟩

theorem acc_leaf {x : TokenType} {α : Type} {f : Pt x Sp → α} {s : α} :
    Accepts e D (.map f (terminal pats x)) i s j ↔ ∃ o, s = f o ∧ Tok e i o j := by
  rw [acc_map]
  constructor
  · rintro ⟨o, h, rfl⟩; exact ⟨o, rfl, acc_terminal.1 h⟩
  · rintro ⟨o, rfl, h⟩; exact ⟨o, acc_terminal.2 h, rfl⟩

theorem acc_five {x y z : TokenType} {α β δ : Type} {f : Option (Pt x Sp) → Pt y Sp → α → β → Pt z Sp → δ}
    {a : P Sp α} {b : P Sp β} {r : δ} :
    Accepts e D (.map (fun x => f x.1 x.2.1 x.2.2.1 x.2.2.2.1 x.2.2.2.2) (.boxed (.map group5
      (.then_ (.then_ (.then_ (.then_ (optional (terminal pats x)) (terminal pats y)) a) b) (terminal pats z))))) i r j ↔
    ∃ x1 x2 x3 x4 x5 k1 k2 k3 k4, r = f x1 x2 x3 x4 x5 ∧ Accepts e D (optional (terminal pats x)) i x1 k1 ∧ Tok e k1 x2 k2 ∧
      Accepts e D a k2 x3 k3 ∧ Accepts e D b k3 x4 k4 ∧ Tok e k4 x5 j := by
  rw [acc_map]
  constructor
  · rintro ⟨⟨x1, x2, x3, x4, x5⟩, h, rfl⟩
    rw [acc_boxed, acc_map] at h
    obtain ⟨⟨⟨⟨⟨y1, y2⟩, y3⟩, y4⟩, y5⟩, h, h'⟩ := h
    cases h'
    obtain ⟨k4, h, h5⟩ := acc_then.1 h
    obtain ⟨k3, h, h4⟩ := acc_then.1 h
    obtain ⟨k2, h, h3⟩ := acc_then.1 h
    obtain ⟨k1, h, h2⟩ := acc_then.1 h
    exact ⟨_, _, _, _, _, k1, k2, k3, k4, rfl, h, acc_terminal.1 h2, h3, h4, acc_terminal.1 h5⟩
  · rintro ⟨x1, x2, x3, x4, x5, k1, k2, k3, k4, rfl, h1, h2, h3, h4, h5⟩
    exact ⟨(x1, x2, x3, x4, x5), acc_boxed.2 (acc_map.2 ⟨((((x1, x2), x3), x4), x5), acc_then.2 ⟨k4, acc_then.2
      ⟨k3, acc_then.2 ⟨k2, acc_then.2 ⟨k1, h1, acc_terminal.2 h2⟩, h3⟩, h4⟩, acc_terminal.2 h5⟩, rfl⟩), rfl⟩

theorem acc_four {x y : TokenType} {α β δ : Type} {f : Option (Pt x Sp) → Pt y Sp → α → β → δ}
    {a : P Sp α} {b : P Sp β} {r : δ} :
    Accepts e D (.map (fun x => f x.1 x.2.1 x.2.2.1 x.2.2.2) (.boxed (.map group4
      (.then_ (.then_ (.then_ (optional (terminal pats x)) (terminal pats y)) a) b)))) i r j ↔
    ∃ x1 x2 x3 x4 k1 k2 k3, r = f x1 x2 x3 x4 ∧ Accepts e D (optional (terminal pats x)) i x1 k1 ∧ Tok e k1 x2 k2 ∧
      Accepts e D a k2 x3 k3 ∧ Accepts e D b k3 x4 j := by
  rw [acc_map]
  constructor
  · rintro ⟨⟨x1, x2, x3, x4⟩, h, rfl⟩
    rw [acc_boxed, acc_map] at h
    obtain ⟨⟨⟨⟨y1, y2⟩, y3⟩, y4⟩, h, h'⟩ := h
    cases h'
    obtain ⟨k3, h, h4⟩ := acc_then.1 h
    obtain ⟨k2, h, h3⟩ := acc_then.1 h
    obtain ⟨k1, h, h2⟩ := acc_then.1 h
    exact ⟨_, _, _, _, k1, k2, k3, rfl, h, acc_terminal.1 h2, h3, h4⟩
  · rintro ⟨x1, x2, x3, x4, k1, k2, k3, rfl, h1, h2, h3, h4⟩
    exact ⟨(x1, x2, x3, x4), acc_boxed.2 (acc_map.2 ⟨(((x1, x2), x3), x4), acc_then.2 
      ⟨k3, acc_then.2 ⟨k2, acc_then.2 ⟨k1, h1, acc_terminal.2 h2⟩, h3⟩, h4⟩, rfl⟩), rfl⟩

/-! ## Expressions -/

/-- One alternative with the bar before it (src/test_pangram.rs:1830-1838) -/
def barDef (patterns : TerminalPatterns Sp) : P Sp (Pt .bar Sp × PtConcatenation Sp) :=
  .boxed (.map group2 (.then_ (terminal patterns .bar) (ref .concatenation)))

theorem acc_bar {o : Pt .bar Sp × PtConcatenation Sp} : Accepts e D (barDef pats) i o j ↔
    ∃ k, Tok e i o.1 k ∧ Accepts e D (.call (N := names Sp) .concatenation) k o.2 j := by
  unfold barDef
  rw [acc_boxed, acc_map]
  constructor
  · rintro ⟨⟨b, c⟩, h, rfl⟩
    obtain ⟨k, h1, h2⟩ := acc_then.1 h
    exact ⟨k, acc_terminal.1 h1, acc_ref.1 h2⟩
  · obtain ⟨b, c⟩ := o
    rintro ⟨k, h1, h2⟩
    exact ⟨(b, c), acc_then.2 ⟨k, acc_terminal.2 h1, acc_ref.2 h2⟩, rfl⟩

theorem acc_alternation {c : PtConcatenation Sp} {bs : List (Pt .bar Sp × PtConcatenation Sp)} :
    Acc d e .alternation i (.mk c bs) j ↔ ∃ k, Acc d e .concatenation i c k ∧
      Run e (defs pats) (barDef pats) k bs j ∧ Rejects e (defs pats) (barDef pats) j := by
  rw [acc_call (g := alternationDef pats) rfl]
  unfold alternationDef
  rw [acc_boxed, acc_map]
  constructor
  · rintro ⟨⟨c', bs'⟩, h, h'⟩
    cases h'
    rw [acc_boxed, acc_map] at h
    obtain ⟨⟨c', bs'⟩, h, h'⟩ := h
    cases h'
    obtain ⟨k, h1, h2⟩ := acc_then.1 h
    rw [acc_boxed] at h2
    obtain ⟨_, h2, h3⟩ := accepts_repeated.1 (show Accepts e (defs pats) (.repeated ⟨0, none, false, false⟩ (barDef pats)) _ _ _ from h2)
    exact ⟨k, acc_ref.1 h1, h2, h3⟩
  · rintro ⟨k, h1, h2, h3⟩
    exact ⟨(c, bs), acc_boxed.2 (acc_map.2 ⟨(c, bs), acc_then.2 ⟨k, acc_ref.2 h1, acc_boxed.2
      (show Accepts e (defs pats) (.repeated ⟨0, none, false, false⟩ (barDef pats)) _ _ _ from
        accepts_repeated.2 ⟨Nat.zero_le _, h2, h3⟩)⟩, rfl⟩), rfl⟩

theorem run_ref {x : NT} : ∀ {os : List (NT.out Sp x)} {i j : Nat},
    Run e D (ref x) i os j ↔ Run e D (.call (N := names Sp) x) i os j
  | [], i, j => ⟨fun h => by cases h; exact .nil, fun h => by cases h; exact .nil⟩
  | o :: os, i, j => by
    constructor
    · intro h
      cases h with
      | cons h h' => exact .cons (acc_ref.1 h) (run_ref.1 h')
    · intro h
      cases h with
      | cons h h' => exact .cons (acc_ref.2 h) (run_ref.2 h')

theorem acc_many {x : NT} {α : Type} {m : Nat} {f : List (NT.out Sp x) → α} {r : α} :
    Accepts e D (.map f (.boxed (((ref x).repeatedWith.atLeast m).parser))) i r j ↔
      ∃ os, r = f os ∧ m ≤ os.length ∧ Run e D (.call (N := names Sp) x) i os j ∧
        Rejects e D (.call (N := names Sp) x) j := by
  rw [acc_map]
  constructor
  · rintro ⟨os, h, rfl⟩
    rw [acc_boxed] at h
    obtain ⟨h1, h2, h3⟩ := accepts_repeated.1 (show Accepts e D (.repeated ⟨m, none, false, false⟩ (ref x)) _ _ _ from h)
    exact ⟨os, rfl, h1, run_ref.1 h2, rej_ref.1 h3⟩
  · rintro ⟨os, rfl, h1, h2, h3⟩
    refine ⟨os, acc_boxed.2 ?_, rfl⟩
    show Accepts e D (.repeated ⟨m, none, false, false⟩ (ref x)) _ _ _
    exact accepts_repeated.2 ⟨h1, run_ref.2 h2, rej_ref.2 h3⟩

theorem acc_concatenation {rs : List (PtRepetition Sp)} : Acc d e .concatenation i (.mk rs) j ↔
    1 ≤ rs.length ∧ Run e (defs pats) (.call (N := names Sp) .repetition) i rs j ∧ Rej d e .repetition j := by
  rw [acc_call (g := concatenationDef) rfl]
  unfold concatenationDef
  rw [acc_boxed]
  refine (acc_many (x := .repetition) (m := 1)).trans ?_
  constructor
  · rintro ⟨os, h, h'⟩
    cases h
    exact h'
  · intro h
    exact ⟨rs, rfl, h⟩

theorem acc_repetition {r : PtRepetition Sp} (h : Acc d e .repetition i r j) :
    (∃ s q k, r = .maybe s q ∧ Acc d e .singular i s k ∧ Tok e k q j) ∨
    (∃ s q k, r = .any s q ∧ Acc d e .singular i s k ∧ Tok e k q j) ∨
    (∃ s q k, r = .many s q ∧ Acc d e .singular i s k ∧ Tok e k q j) ∨
    (∃ s, r = .one s ∧ Acc d e .singular i s j) := by
  rw [acc_call (g := repetitionDef pats) rfl] at h
  unfold repetitionDef at h
  rw [acc_boxed, acc_or, acc_or, acc_or] at h
  rcases h with ((h | ⟨_, h⟩) | ⟨_, h⟩) | ⟨_, h⟩
  · exact .inl (acc_suffixed.1 h)
  · exact .inr (.inl (acc_suffixed.1 h))
  · exact .inr (.inr (.inl (acc_suffixed.1 h)))
  · obtain ⟨s, h1, rfl⟩ := acc_map.1 h
    exact .inr (.inr (.inr ⟨s, rfl, acc_ref.1 h1⟩))

theorem acc_singular {s : PtSingular Sp} (h : Acc d e .singular i s j) :
    (∃ l a r k h, s = .nested l a r ∧ Tok e i l k ∧ Acc d e .alternation k a h ∧ Tok e h r j) ∨
    (∃ o, s = .symbol o ∧ Tok e i o j) ∨ (∃ o, s = .stringLiteral o ∧ Tok e i o j) ∨
    (∃ o, s = .characterSet o ∧ Tok e i o j) ∨ (∃ o, s = .characterLiteral o ∧ Tok e i o j) := by
  rw [acc_call (g := singularDef pats) rfl] at h
  unfold singularDef at h
  rw [acc_boxed, acc_or, acc_or, acc_or, acc_or] at h
  rcases h with (((h | ⟨_, h⟩) | ⟨_, h⟩) | ⟨_, h⟩) | ⟨_, h⟩
  · exact .inl (acc_nested.1 h)
  · exact .inr (.inl (acc_leaf.1 h))
  · exact .inr (.inr (.inl (acc_leaf.1 h)))
  · exact .inr (.inr (.inr (.inl (acc_leaf.1 h))))
  · exact .inr (.inr (.inr (.inr (acc_leaf.1 h))))

mutual

theorem alternation_sound : ∀ (x : PtAlternation Sp) {i j : Nat}, Acc d e .alternation i x j →
    x.Complete ∧ Reads e i x.leaves j
  | .mk c bs, i, j, h => by
    obtain ⟨k, h1, h2, _⟩ := acc_alternation.1 h
    have h3 := concatenation_sound c h1
    have h4 := bars_sound bs h2
    exact ⟨.mk h3.1 h4.1, by
      rw [PtAlternation.leaves]
      exact reads_append.2 ⟨k, h3.2, h4.2⟩⟩

theorem bars_sound : ∀ (bs : List (Pt .bar Sp × PtConcatenation Sp)) {i j : Nat},
    Run e (defs pats) (barDef pats) i bs j → BarsComplete bs ∧ Reads e i (barsLeaves bs) j
  | [], i, j, h => by
    cases h
    exact ⟨.nil, by rw [barsLeaves]; exact rfl⟩
  | (b, c) :: bs, i, j, h => by
    cases h with
    | cons h h' =>
      obtain ⟨k, h1, h2⟩ := acc_bar.1 h
      have h3 := concatenation_sound c h2
      have h4 := bars_sound bs h'
      exact ⟨.cons h1.1 h3.1 h4.1, by
        rw [barsLeaves]
        exact reads_append.2 ⟨_, reads_append.2 ⟨_, h1.2, h3.2⟩, h4.2⟩⟩

theorem concatenation_sound : ∀ (x : PtConcatenation Sp) {i j : Nat}, Acc d e .concatenation i x j →
    x.Complete ∧ Reads e i x.leaves j
  | .mk rs, i, j, h => by
    obtain ⟨h1, h2, _⟩ := acc_concatenation.1 h
    have h3 := reps_sound rs h2
    exact ⟨.mk (by rintro rfl; cases h1) h3.1, by rw [PtConcatenation.leaves]; exact h3.2⟩

theorem reps_sound : ∀ (rs : List (PtRepetition Sp)) {i j : Nat},
    Run e (defs pats) (.call (N := names Sp) .repetition) i rs j → RepsComplete rs ∧ Reads e i (repsLeaves rs) j
  | [], i, j, h => by
    cases h
    exact ⟨.nil, by rw [repsLeaves]; exact rfl⟩
  | r :: rs, i, j, h => by
    cases h with
    | cons h h' =>
      have h3 := repetition_sound r h
      have h4 := reps_sound rs h'
      exact ⟨.cons h3.1 h4.1, by
        rw [repsLeaves]
        exact reads_append.2 ⟨_, h3.2, h4.2⟩⟩

theorem repetition_sound : ∀ (x : PtRepetition Sp) {i j : Nat}, Acc d e .repetition i x j →
    x.Complete ∧ Reads e i x.leaves j
  | .error, i, j, h => by
    rcases acc_repetition h with ⟨_, _, _, h, _⟩ | ⟨_, _, _, h, _⟩ | ⟨_, _, _, h, _⟩ | ⟨_, h, _⟩ <;> cases h
  | .maybe s q, i, j, h => by
    rcases acc_repetition h with ⟨_, _, _, h, h1, h2⟩ | ⟨_, _, _, h, _⟩ | ⟨_, _, _, h, _⟩ | ⟨_, h, _⟩ <;> cases h
    have h3 := singular_sound s h1
    exact ⟨.maybe h3.1 h2.1, by rw [PtRepetition.leaves]; exact reads_append.2 ⟨_, h3.2, h2.2⟩⟩
  | .any s q, i, j, h => by
    rcases acc_repetition h with ⟨_, _, _, h, _⟩ | ⟨_, _, _, h, h1, h2⟩ | ⟨_, _, _, h, _⟩ | ⟨_, h, _⟩ <;> cases h
    have h3 := singular_sound s h1
    exact ⟨.any h3.1 h2.1, by rw [PtRepetition.leaves]; exact reads_append.2 ⟨_, h3.2, h2.2⟩⟩
  | .many s q, i, j, h => by
    rcases acc_repetition h with ⟨_, _, _, h, _⟩ | ⟨_, _, _, h, _⟩ | ⟨_, _, _, h, h1, h2⟩ | ⟨_, h, _⟩ <;> cases h
    have h3 := singular_sound s h1
    exact ⟨.many h3.1 h2.1, by rw [PtRepetition.leaves]; exact reads_append.2 ⟨_, h3.2, h2.2⟩⟩
  | .one s, i, j, h => by
    rcases acc_repetition h with ⟨_, _, _, h, _⟩ | ⟨_, _, _, h, _⟩ | ⟨_, _, _, h, _⟩ | ⟨_, h, h1⟩ <;> cases h
    have h3 := singular_sound s h1
    exact ⟨.one h3.1, by rw [PtRepetition.leaves]; exact h3.2⟩

theorem singular_sound : ∀ (x : PtSingular Sp) {i j : Nat}, Acc d e .singular i x j →
    x.Complete ∧ Reads e i x.leaves j
  | .error, i, j, h => by
    rcases acc_singular h with ⟨_, _, _, _, _, h, _⟩ | ⟨_, h, _⟩ | ⟨_, h, _⟩ | ⟨_, h, _⟩ | ⟨_, h, _⟩ <;> cases h
  | .nested l a r, i, j, h => by
    rcases acc_singular h with ⟨_, _, _, _, _, h, h1, h2, h3⟩ | ⟨_, h, _⟩ | ⟨_, h, _⟩ | ⟨_, h, _⟩ | ⟨_, h, _⟩ <;> cases h
    have h4 := alternation_sound a h2
    exact ⟨.nested h1.1 h4.1 h3.1, by
      rw [PtSingular.leaves]
      exact reads_append.2 ⟨_, reads_append.2 ⟨_, h1.2, h4.2⟩, h3.2⟩⟩
  | .symbol o, i, j, h => by
    rcases acc_singular h with ⟨_, _, _, _, _, h, _⟩ | ⟨_, h, h1⟩ | ⟨_, h, _⟩ | ⟨_, h, _⟩ | ⟨_, h, _⟩ <;> cases h
    exact ⟨.symbol h1.1, by rw [PtSingular.leaves]; exact h1.2⟩
  | .stringLiteral o, i, j, h => by
    rcases acc_singular h with ⟨_, _, _, _, _, h, _⟩ | ⟨_, h, _⟩ | ⟨_, h, h1⟩ | ⟨_, h, _⟩ | ⟨_, h, _⟩ <;> cases h
    exact ⟨.stringLiteral h1.1, by rw [PtSingular.leaves]; exact h1.2⟩
  | .characterSet o, i, j, h => by
    rcases acc_singular h with ⟨_, _, _, _, _, h, _⟩ | ⟨_, h, _⟩ | ⟨_, h, _⟩ | ⟨_, h, h1⟩ | ⟨_, h, _⟩ <;> cases h
    exact ⟨.characterSet h1.1, by rw [PtSingular.leaves]; exact h1.2⟩
  | .characterLiteral o, i, j, h => by
    rcases acc_singular h with ⟨_, _, _, _, _, h, _⟩ | ⟨_, h, _⟩ | ⟨_, h, _⟩ | ⟨_, h, _⟩ | ⟨_, h, h1⟩ <;> cases h
    exact ⟨.characterLiteral h1.1, by rw [PtSingular.leaves]; exact h1.2⟩

end

end PPC.Pangram
