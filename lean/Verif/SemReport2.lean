import Verif.SemReport
import Verif.PropsPeg
import Verif.PropsError

/-!
# The reports of failing parsers are unique: lemmas
-/

namespace PPC

variable {S : Sig} {N : Names S} {e : Env S} {D : Defs S N}

/-! ## One step -/

/-- What the rules say about the report of a failing parser, by its outermost constructor. -/
def StepW (e : Env S) (D : Defs S N) : {ε : ErrTy S} → {α : Type} → G S N ε α → Nat → Report S → Prop
  | _, _, .empty, _, _ => False
  | _, _, .none _, _, _ => False
  | _, _, .eof, i, r => r = ⟨i, true, fun x => x = Option.none⟩
  | _, _, .just y, i, r => r = ⟨i, false, fun x => x = Option.some y⟩
  | _, _, .filter _, i, r => r = ⟨i, false, fun _ => False⟩
  | _, _, .filterMap _, i, r => r = ⟨i, false, fun _ => False⟩
  | _, _, .seq _ items, i, r => ∃ k y,
      (∀ l z, l < k → items[l]? = Option.some z → ∃ t, e.source (i + l) = Option.some t ∧ S.eqI t z = true) ∧
      items[k]? = Option.some y ∧ (∀ t, e.source (i + k) = Option.some t → S.eqI t y = false) ∧
      r = ⟨i + k, false, fun x => x = Option.some y⟩
  | _, _, .oneOf items, i, r => r = ⟨i, false, fun x => ∃ y, y ∈ items ∧ x = Option.some y⟩
  | _, _, .noneOf _, i, r => ((∃ t, e.source i = Option.some t) ∧ r = ⟨i, false, fun _ => False⟩) ∨
      (e.source i = Option.none ∧ r = ⟨i, true, fun _ => False⟩)
  | _, _, .boxed g, i, r => Reports e D g i r
  | _, _, .withError g, i, r => Reports e D g i r
  | _, _, .to g _, i, r => Reports e D g i r
  | _, _, .some g, i, r => Reports e D g i r
  | _, _, .map _ g, i, r => Reports e D g i r
  | _, _, .mapWithSpan _ g, i, r => Reports e D g i r
  | _, _, .mapErr _ _, _, _ => False
  | _, _, .mapErrWithSpan _ _, _, _ => False
  | _, _, .tryMap _ g, i, r => Reports e D g i r
  | _, _, .then_ a b, i, r => Reports e D a i r ∨ ∃ x j, Accepts e D a i x j ∧ Reports e D b j r
  | _, _, .thenIgnore a b, i, r => Reports e D a i r ∨ ∃ x j, Accepts e D a i x j ∧ Reports e D b j r
  | _, _, .ignoreThen a b, i, r => Reports e D a i r ∨ ∃ x j, Accepts e D a i x j ∧ Reports e D b j r
  | _, _, .delimitedBy l m c, i, r => Reports e D l i r ∨ (∃ x j, Accepts e D l i x j ∧ Reports e D m j r) ∨
      ∃ x j y k, Accepts e D l i x j ∧ Accepts e D m j y k ∧ Reports e D c k r
  | _, _, .paddedBy p m, i, r => Reports e D p i r ∨ (∃ x j, Accepts e D p i x j ∧ Reports e D m j r) ∨
      ∃ x j y k, Accepts e D p i x j ∧ Accepts e D m j y k ∧ Reports e D p k r
  | _, _, .chain gs, i, r => ReportsSome e D gs i r
  | _, _, .or a b, i, r => ∃ p q, Reports e D a i p ∧ Reports e D b i q ∧ Report.Choice [p, q] r
  | _, _, .orNot _, _, _ => False
  | _, _, .alters gs, i, r => ∃ ps, ReportsAll e D gs i ps ∧ Report.Choice ps r
  | _, _, .repeated (α := α) (ε := ε) c g, i, r => ReportsItems e D c g (Option.none : Option (G S N ε α)) 0 i r
  | _, _, .separatedBy c g sep, i, r => ReportsItems e D c g (Option.some sep) 0 i r
  | _, _, .toRecover g _, i, r => Reports e D g i r
  | _, _, .call k, i, r => ∃ g, D k = Option.some g ∧ Reports e D g i r

theorem Reports.step {ε : ErrTy S} {α : Type} {g : G S N ε α} {i : Nat} {r : Report S} (h : Reports e D g i r) :
    StepW e D g i r := by
  cases h with
  | eof h => exact rfl
  | just h => exact rfl
  | filter h => exact rfl
  | filterMap h => exact rfl
  | seq h h' h'' => exact ⟨_, _, h, h', h'', rfl⟩
  | oneOf h => exact rfl
  | noneOf h _ _ => exact .inl ⟨⟨_, h⟩, rfl⟩
  | noneOfEnd h => exact .inr ⟨h, rfl⟩
  | boxed h => exact h
  | withError h => exact h
  | to h => exact h
  | some h => exact h
  | map h => exact h
  | mapWithSpan h => exact h
  | tryMap h => exact h
  | thenFirst h => exact .inl h
  | thenSecond h h' => exact .inr ⟨_, _, h, h'⟩
  | thenIgnoreFirst h => exact .inl h
  | thenIgnoreSecond h h' => exact .inr ⟨_, _, h, h'⟩
  | ignoreThenFirst h => exact .inl h
  | ignoreThenSecond h h' => exact .inr ⟨_, _, h, h'⟩
  | delimitedByLeft h => exact .inl h
  | delimitedByMiddle h h' => exact .inr (.inl ⟨_, _, h, h'⟩)
  | delimitedByRight h h' h'' => exact .inr (.inr ⟨_, _, _, _, h, h', h''⟩)
  | paddedByLeft h => exact .inl h
  | paddedByMiddle h h' => exact .inr (.inl ⟨_, _, h, h'⟩)
  | paddedByRight h h' h'' => exact .inr (.inr ⟨_, _, _, _, h, h', h''⟩)
  | chain h => exact h
  | or h h' h'' => exact ⟨_, _, h, h', h''⟩
  | alters h h' => exact ⟨_, h, h'⟩
  | repeated h => exact h
  | separatedBy h => exact h
  | toRecover h => exact h
  | call hk h => exact ⟨_, hk, h⟩

/-! ## A parser with a report rejects -/

/-- How a repetition ends without another element. -/
def EndsAt (e : Env S) (D : Defs S N) {ε : ErrTy S} {α β : Type} (c : RepCfg) (g : G S N ε α)
    (sep : Option (G S N ε β)) (k i : Nat) : Prop := ∃ j, NoOther e D c g sep k i j

mutual

theorem Reports.rejects {ε : ErrTy S} {α : Type} {g : G S N ε α} {i : Nat} {r : Report S} :
    Reports e D g i r → Rejects e D g i
  | .eof h => .eof h
  | .just h => .just h
  | .filter h => .filter h
  | .filterMap h => .filterMap h
  | .seq _ h h' => .seq h h'
  | .oneOf h => .oneOf h
  | .noneOf h h' h'' => .noneOf fun t ht => ⟨_, h', by rw [h] at ht; cases ht; exact h''⟩
  | .noneOfEnd h => .noneOf fun t ht => by rw [h] at ht; cases ht
  | .boxed h => .boxed h.rejects
  | .withError h => .withError h.rejects
  | .to h => .to h.rejects
  | .some h => .some h.rejects
  | .map h => .map h.rejects
  | .mapWithSpan h => .mapWithSpan h.rejects
  | .tryMap h => .tryMap h.rejects
  | .thenFirst h => .thenFirst h.rejects
  | .thenSecond h h' => .thenSecond h h'.rejects
  | .thenIgnoreFirst h => .thenIgnoreFirst h.rejects
  | .thenIgnoreSecond h h' => .thenIgnoreSecond h h'.rejects
  | .ignoreThenFirst h => .ignoreThenFirst h.rejects
  | .ignoreThenSecond h h' => .ignoreThenSecond h h'.rejects
  | .delimitedByLeft h => .delimitedByLeft h.rejects
  | .delimitedByMiddle h h' => .delimitedByMiddle h h'.rejects
  | .delimitedByRight h h' h'' => .delimitedByRight h h' h''.rejects
  | .paddedByLeft h => .paddedByLeft h.rejects
  | .paddedByMiddle h h' => .paddedByMiddle h h'.rejects
  | .paddedByRight h h' h'' => .paddedByRight h h' h''.rejects
  | .chain h => .chain h.rejects
  | .or h h' _ => .or h.rejects h'.rejects
  | .alters h _ => .alters h.rejects
  | .repeated h => .repeated h.rejects
  | .separatedBy h => .separatedBy h.rejects
  | .toRecover h => .toRecover h.rejects
  | .call hk h => .call hk h.rejects

theorem ReportsSome.rejects {ε : ErrTy S} {α : Type} {gs : GL S N ε α} {i : Nat} {r : Report S} :
    ReportsSome e D gs i r → RejectsSome e D gs i
  | .here h => .here h.rejects
  | .later h h' => .later h h'.rejects

theorem ReportsAll.rejects {ε : ErrTy S} {α : Type} {gs : GL S N ε α} {i : Nat} {rs : List (Report S)} :
    ReportsAll e D gs i rs → RejectsAll e D gs i
  | .nil => .nil
  | .cons h h' => .cons h.rejects h'.rejects

theorem ReportsNoOther.ends {ε : ErrTy S} {α β : Type} {c : RepCfg} {g : G S N ε α} {sep : Option (G S N ε β)}
    {k i : Nat} {r : Report S} : ReportsNoOther e D c g sep k i r → EndsAt e D c g sep k i
  | .plain h => ⟨_, .plain h.rejects⟩
  | .unwanted hw h => ⟨_, .unwanted hw h.rejects⟩
  | .separated hw h h' => by
    have := h'.rejects
    cases ht : c.allowTrailing with
    | true => exact ⟨_, .trailing hw ht h this⟩
    | false => exact ⟨_, .notTrailing hw ht h this⟩
  | .noSeparator hk h => ⟨_, .noSeparator hk h.rejects⟩
  | .noLeading hl h h' => ⟨_, .noLeading hl h h'.rejects⟩

theorem ReportsItems.rejects {ε : ErrTy S} {α β : Type} {c : RepCfg} {g : G S N ε α} {sep : Option (G S N ε β)}
    {k i : Nat} {r : Report S} : ReportsItems e D c g sep k i r → RejectsItems e D c g sep k i
  | .another hf h h' => .another hf h h'.rejects
  | .tooFew hf h hm => by
    obtain ⟨j, h1⟩ := h.ends
    exact .tooFew hf h1 hm

end

/-! ## Uniqueness -/

theorem Report.Choice.unique {ps : List (Report S)} {r r' : Report S} (h : Report.Choice ps r)
    (h' : Report.Choice ps r') : r' = r := by
  obtain ⟨b, p, c, h1, h2, h3, h4, h5, h6⟩ := h
  obtain ⟨b', p', c', h1', h2', h3', h4', h5', h6'⟩ := h'
  have hp : p' = p := by
    rw [h1] at h1'
    rcases List.append_eq_append_iff.1 h1' with ⟨as, ha, hb⟩ | ⟨as, ha, hb⟩
    · cases as with
      | nil => simp at hb; exact hb.1.symm
      | cons a as =>
        rw [List.cons_append, List.cons.injEq] at hb
        have h7 := h2' a (by rw [ha]; simp)
        have h8 := h3 p' (by rw [hb.2]; simp)
        rw [← hb.1] at h7
        omega
    · cases as with
      | nil => simp at hb; exact hb.1
      | cons a as =>
        rw [List.cons_append, List.cons.injEq] at hb
        have h7 := h2 a (by rw [ha]; simp)
        have h8 := h3' p (by rw [hb.2]; simp)
        rw [← hb.1] at h7
        omega
  subst hp
  cases r with
  | mk i b w =>
    cases r' with
    | mk i' b' w' =>
      simp only at h4 h5 h6 h4' h5' h6'
      have hw : w' = w := funext fun x => propext ((h6' x).trans (h6 x).symm)
      rw [h4, h5, h4', h5', hw]

section

variable (hD : D.Plain)
include hD

theorem Accepts.end_unique {ε : ErrTy S} {α : Type} {g : G S N ε α} (hg : g.All (plainL S N)) {i j j' : Nat} {o o' : α}
    (h : Accepts e D g i o j) (h' : Accepts e D g i o' j') : j' = j := (C34_deterministic hD hg h h').2

theorem Accepts.no_report {ε : ErrTy S} {α : Type} {g : G S N ε α} (hg : g.All (plainL S N)) {i j : Nat} {o : α}
    {r : Report S} (h : Accepts e D g i o j) (h' : Reports e D g i r) : False := C34_exclusive hD hg h h'.rejects

theorem Another.end_unique {ε : ErrTy S} {α β : Type} {c : RepCfg} {g : G S N ε α} {sep : Option (G S N ε β)}
    (hg : g.All (plainL S N)) (hs : ∀ s, sep = some s → s.All (plainL S N)) {k i j j' : Nat} {o o' : α}
    (h : Another e D c g sep k i o j) (h' : Another e D c g sep k i o' j') : j' = j := by
  cases h with
  | plain h =>
    cases h' with
    | plain h' => exact h.end_unique hD hg h'
  | unwanted hw h =>
    cases h' with
    | unwanted _ h' => exact h.end_unique hD hg h'
    | separated hw' => exact (hw hw').elim
    | noLeading hl => exact (hw (.inr hl)).elim
  | separated hw h1 h2 =>
    cases h' with
    | unwanted hw' _ => exact (hw' hw).elim
    | separated _ h1' h2' =>
      have := h1.end_unique hD (hs _ rfl) h1'
      subst this
      exact h2.end_unique hD hg h2'
    | noLeading _ hr _ => exact (C34_exclusive hD (hs _ rfl) h1 hr).elim
  | noLeading hl hr h =>
    cases h' with
    | unwanted hw' _ => exact (hw' (.inr hl)).elim
    | separated _ h1' _ => exact (C34_exclusive hD (hs _ rfl) h1' hr).elim
    | noLeading _ _ h' => exact h.end_unique hD hg h'

theorem Another.no_report {ε : ErrTy S} {α β : Type} {c : RepCfg} {g : G S N ε α} {sep : Option (G S N ε β)}
    (hg : g.All (plainL S N)) (hs : ∀ s, sep = some s → s.All (plainL S N)) {k i j : Nat} {o : α} {r : Report S}
    (h : Another e D c g sep k i o j) (h' : ReportsNoOther e D c g sep k i r) : False := by
  cases h with
  | plain h =>
    cases h' with
    | plain h' => exact h.no_report hD hg h'
  | unwanted hw h =>
    cases h' with
    | unwanted _ h' => exact h.no_report hD hg h'
    | separated hw' => exact hw hw'
    | noSeparator hk => exact hw (.inl hk)
    | noLeading hl => exact hw (.inr hl)
  | separated hw h1 h2 =>
    cases h' with
    | unwanted hw' _ => exact hw' hw
    | separated _ h1' h2' =>
      have := h1.end_unique hD (hs _ rfl) h1'
      subst this
      exact h2.no_report hD hg h2'
    | noSeparator _ h' => exact h1.no_report hD (hs _ rfl) h'
    | noLeading _ hr _ => exact C34_exclusive hD (hs _ rfl) h1 hr
  | noLeading hl hr h =>
    cases h' with
    | unwanted hw' _ => exact hw' (.inr hl)
    | separated _ h1' _ => exact C34_exclusive hD (hs _ rfl) h1' hr
    | noSeparator hk => exact Nat.lt_irrefl _ hk
    | noLeading _ _ h' => exact h.no_report hD hg h'

omit hD in
theorem seq_unique {items : List S.I} {i k k' : Nat} {y : S.I}
    (h : ∀ l z, l < k → items[l]? = some z → ∃ t, e.source (i + l) = some t ∧ S.eqI t z = true)
    (h' : items[k']? = some y) (h'' : ∀ t, e.source (i + k') = some t → S.eqI t y = false) : k ≤ k' := by
  rcases Nat.lt_or_ge k' k with hl | hl
  · obtain ⟨t, h1, h2⟩ := h k' y hl h'
    rw [h'' t h1] at h2
    cases h2
  · exact hl

end

section

variable (hD : D.Plain)
include hD

mutual

/-- A parser fails with one report only. -/
theorem Reports.unique {ε : ErrTy S} {α : Type} {g : G S N ε α} {i : Nat} {r : Report S} :
    Reports e D g i r → g.All (plainL S N) → ∀ {r' : Report S}, Reports e D g i r' → r' = r
  | .eof _, _, _, h' => h'.step
  | .just _, _, _, h' => h'.step
  | .filter _, _, _, h' => h'.step
  | .filterMap _, _, _, h' => h'.step
  | .seq h1 h2 h3, _, _, h' => by
    obtain ⟨k', y', h4, h5, h6, rfl⟩ := h'.step
    have h7 := seq_unique (e := e) h1 h5 h6
    have h8 := seq_unique (e := e) h4 h2 h3
    have h9 := Nat.le_antisymm h7 h8
    subst h9
    rw [h2] at h5
    cases h5
    rfl
  | .oneOf _, _, _, h' => h'.step
  | .noneOf h _ _, _, _, h' => by
    rcases h'.step with ⟨_, h2⟩ | ⟨h2, _⟩
    · exact h2
    · rw [h] at h2; cases h2
  | .noneOfEnd h, _, _, h' => by
    rcases h'.step with ⟨⟨t, h2⟩, _⟩ | ⟨_, h2⟩
    · rw [h] at h2; cases h2
    · exact h2
  | .boxed h, hg, _, h' => by rw [G.All] at hg; exact h.unique hg.2 h'.step
  | .withError h, hg, _, h' => by rw [G.All] at hg; exact h.unique hg.2 h'.step
  | .to h, hg, _, h' => by rw [G.All] at hg; exact h.unique hg.2 h'.step
  | .some h, hg, _, h' => by rw [G.All] at hg; exact h.unique hg.2 h'.step
  | .map h, hg, _, h' => by rw [G.All] at hg; exact h.unique hg.2 h'.step
  | .mapWithSpan h, hg, _, h' => by rw [G.All] at hg; exact h.unique hg.2 h'.step
  | .tryMap h, hg, _, h' => by rw [G.All] at hg; exact h.unique hg.2 h'.step
  | .thenFirst h, hg, _, h' => by
    rw [G.All] at hg
    rcases h'.step with h2 | ⟨x, j, h2, h3⟩
    · exact h.unique hg.2.1 h2
    · exact (h2.no_report hD hg.2.1 h).elim
  | .thenSecond h1 h, hg, _, h' => by
    rw [G.All] at hg
    rcases h'.step with h2 | ⟨x, j, h2, h3⟩
    · exact (h1.no_report hD hg.2.1 h2).elim
    · have := (h1.end_unique hD hg.2.1 h2).symm
      subst this
      exact h.unique hg.2.2 h3
  | .thenIgnoreFirst h, hg, _, h' => by
    rw [G.All] at hg
    rcases h'.step with h2 | ⟨x, j, h2, h3⟩
    · exact h.unique hg.2.1 h2
    · exact (h2.no_report hD hg.2.1 h).elim
  | .thenIgnoreSecond h1 h, hg, _, h' => by
    rw [G.All] at hg
    rcases h'.step with h2 | ⟨x, j, h2, h3⟩
    · exact (h1.no_report hD hg.2.1 h2).elim
    · have := (h1.end_unique hD hg.2.1 h2).symm
      subst this
      exact h.unique hg.2.2 h3
  | .ignoreThenFirst h, hg, _, h' => by
    rw [G.All] at hg
    rcases h'.step with h2 | ⟨x, j, h2, h3⟩
    · exact h.unique hg.2.1 h2
    · exact (h2.no_report hD hg.2.1 h).elim
  | .ignoreThenSecond h1 h, hg, _, h' => by
    rw [G.All] at hg
    rcases h'.step with h2 | ⟨x, j, h2, h3⟩
    · exact (h1.no_report hD hg.2.1 h2).elim
    · have := (h1.end_unique hD hg.2.1 h2).symm
      subst this
      exact h.unique hg.2.2 h3
  | .delimitedByLeft h, hg, _, h' => by
    rw [G.All] at hg
    rcases h'.step with h2 | ⟨x, j, h2, h3⟩ | ⟨x, j, y, k, h2, h3, h4⟩
    · exact h.unique hg.2.1 h2
    · exact (h2.no_report hD hg.2.1 h).elim
    · exact (h2.no_report hD hg.2.1 h).elim
  | .delimitedByMiddle h1 h, hg, _, h' => by
    rw [G.All] at hg
    rcases h'.step with h2 | ⟨x, j, h2, h3⟩ | ⟨x, j, y, k, h2, h3, h4⟩
    · exact (h1.no_report hD hg.2.1 h2).elim
    · have := (h1.end_unique hD hg.2.1 h2).symm
      subst this
      exact h.unique hg.2.2.1 h3
    · have := (h1.end_unique hD hg.2.1 h2).symm
      subst this
      exact (h3.no_report hD hg.2.2.1 h).elim
  | .delimitedByRight h1 h1' h, hg, _, h' => by
    rw [G.All] at hg
    rcases h'.step with h2 | ⟨x, j, h2, h3⟩ | ⟨x, j, y, k, h2, h3, h4⟩
    · exact (h1.no_report hD hg.2.1 h2).elim
    · have := (h1.end_unique hD hg.2.1 h2).symm
      subst this
      exact (h1'.no_report hD hg.2.2.1 h3).elim
    · have := (h1.end_unique hD hg.2.1 h2).symm
      subst this
      have := (h1'.end_unique hD hg.2.2.1 h3).symm
      subst this
      exact h.unique hg.2.2.2 h4
  | .paddedByLeft h, hg, _, h' => by
    rw [G.All] at hg
    rcases h'.step with h2 | ⟨x, j, h2, h3⟩ | ⟨x, j, y, k, h2, h3, h4⟩
    · exact h.unique hg.2.1 h2
    · exact (h2.no_report hD hg.2.1 h).elim
    · exact (h2.no_report hD hg.2.1 h).elim
  | .paddedByMiddle h1 h, hg, _, h' => by
    rw [G.All] at hg
    rcases h'.step with h2 | ⟨x, j, h2, h3⟩ | ⟨x, j, y, k, h2, h3, h4⟩
    · exact (h1.no_report hD hg.2.1 h2).elim
    · have := (h1.end_unique hD hg.2.1 h2).symm
      subst this
      exact h.unique hg.2.2 h3
    · have := (h1.end_unique hD hg.2.1 h2).symm
      subst this
      exact (h3.no_report hD hg.2.2 h).elim
  | .paddedByRight h1 h1' h, hg, _, h' => by
    rw [G.All] at hg
    rcases h'.step with h2 | ⟨x, j, h2, h3⟩ | ⟨x, j, y, k, h2, h3, h4⟩
    · exact (h1.no_report hD hg.2.1 h2).elim
    · have := (h1.end_unique hD hg.2.1 h2).symm
      subst this
      exact (h1'.no_report hD hg.2.2 h3).elim
    · have := (h1.end_unique hD hg.2.1 h2).symm
      subst this
      have := (h1'.end_unique hD hg.2.2 h3).symm
      subst this
      exact h.unique hg.2.1 h4
  | .chain h, hg, _, h' => by rw [G.All] at hg; exact h.unique hg.2 h'.step
  | .or h1 h2 h3, hg, _, h' => by
    rw [G.All] at hg
    obtain ⟨p', q', h4, h5, h6⟩ := h'.step
    have h7 := (h1.unique hg.2.1 h4).symm
    have h8 := (h2.unique hg.2.2 h5).symm
    subst h7
    subst h8
    exact h3.unique h6
  | .alters h1 h3, hg, _, h' => by
    rw [G.All] at hg
    obtain ⟨ps, h4, h6⟩ := h'.step
    have h7 := (h1.unique hg.2 h4).symm
    subst h7
    exact h3.unique h6
  | .repeated h, hg, _, h' => by rw [G.All] at hg; exact h.unique hg.2 (fun s hs => by cases hs) h'.step
  | .separatedBy h, hg, _, h' => by
    rw [G.All] at hg; exact h.unique hg.2.1 (fun s hs => by cases hs; exact hg.2.2) h'.step
  | .toRecover h, hg, _, h' => by rw [G.All] at hg; exact h.unique hg.2.1 h'.step
  | .call hk h, _, _, h' => by
    obtain ⟨g', h1, h2⟩ := h'.step
    rw [hk] at h1
    cases h1
    exact h.unique (hD _ _ hk).1 h2
termination_by structural h => h

theorem ReportsSome.unique {ε : ErrTy S} {α : Type} {gs : GL S N ε α} {i : Nat} {r : Report S} :
    ReportsSome e D gs i r → gs.All (plainL S N) → ∀ {r' : Report S}, ReportsSome e D gs i r' → r' = r
  | .here h, hg, _, h' => by
    rw [GL.All] at hg
    cases h' with
    | here h' => exact h.unique hg.1 h'
    | later h1 _ => exact (h1.no_report hD hg.1 h).elim
  | .later h1 h, hg, _, h' => by
    rw [GL.All] at hg
    cases h' with
    | here h' => exact (h1.no_report hD hg.1 h').elim
    | later h2 h3 =>
      have := (h1.end_unique hD hg.1 h2).symm
      subst this
      exact h.unique hg.2 h3
termination_by structural h => h

theorem ReportsAll.unique {ε : ErrTy S} {α : Type} {gs : GL S N ε α} {i : Nat} {rs : List (Report S)} :
    ReportsAll e D gs i rs → gs.All (plainL S N) → ∀ {rs' : List (Report S)}, ReportsAll e D gs i rs' → rs' = rs
  | .nil, _, _, h' => by cases h'; rfl
  | .cons h1 h2, hg, _, h' => by
    rw [GL.All] at hg
    cases h' with
    | cons h3 h4 => rw [h1.unique hg.1 h3, h2.unique hg.2 h4]
termination_by structural h => h

theorem ReportsNoOther.unique {ε : ErrTy S} {α β : Type} {c : RepCfg} {g : G S N ε α} {sep : Option (G S N ε β)}
    {k i : Nat} {r : Report S} : ReportsNoOther e D c g sep k i r → g.All (plainL S N) →
      (∀ s, sep = some s → s.All (plainL S N)) → ∀ {r' : Report S}, ReportsNoOther e D c g sep k i r' → r' = r
  | .plain h, hg, hs, _, h' => by
    cases h' with
    | plain h' => exact h.unique hg h'
  | .unwanted hw h, hg, hs, _, h' => by
    cases h' with
    | unwanted _ h' => exact h.unique hg h'
    | separated hw' => exact (hw hw').elim
    | noSeparator hk => exact (hw (.inl hk)).elim
    | noLeading hl => exact (hw (.inr hl)).elim
  | .separated hw h1 h, hg, hs, _, h' => by
    cases h' with
    | unwanted hw' _ => exact (hw' hw).elim
    | separated _ h1' h' =>
      have := (h1.end_unique hD (hs _ rfl) h1').symm
      subst this
      exact h.unique hg h'
    | noSeparator _ h' => exact (h1.no_report hD (hs _ rfl) h').elim
    | noLeading _ hr _ => exact (C34_exclusive hD (hs _ rfl) h1 hr).elim
  | .noSeparator hk h, hg, hs, _, h' => by
    cases h' with
    | unwanted hw' _ => exact (hw' (.inl hk)).elim
    | separated _ h1' _ => exact (h1'.no_report hD (hs _ rfl) h).elim
    | noSeparator _ h' => exact h.unique (hs _ rfl) h'
    | noLeading => exact (Nat.lt_irrefl _ hk).elim
  | .noLeading hl hr h, hg, hs, _, h' => by
    cases h' with
    | unwanted hw' _ => exact (hw' (.inr hl)).elim
    | separated _ h1' _ => exact (C34_exclusive hD (hs _ rfl) h1' hr).elim
    | noSeparator hk => exact (Nat.lt_irrefl _ hk).elim
    | noLeading _ _ h' => exact h.unique hg h'
termination_by structural h => h

theorem ReportsItems.unique {ε : ErrTy S} {α β : Type} {c : RepCfg} {g : G S N ε α} {sep : Option (G S N ε β)}
    {k i : Nat} {r : Report S} : ReportsItems e D c g sep k i r → g.All (plainL S N) →
      (∀ s, sep = some s → s.All (plainL S N)) → ∀ {r' : Report S}, ReportsItems e D c g sep k i r' → r' = r
  | .another hf h1 h, hg, hs, _, h' => by
    cases h' with
    | another _ h2 h' =>
      have := (h1.end_unique hD hg hs h2).symm
      subst this
      exact h.unique hg hs h'
    | tooFew _ h' _ => exact (h1.no_report hD hg hs h').elim
  | .tooFew hf h hm, hg, hs, _, h' => by
    cases h' with
    | another _ h2 _ => exact (h2.no_report hD hg hs h).elim
    | tooFew _ h' _ => exact h.unique hg hs h'
termination_by structural h => h

end

end

/-! ## Errors of type `Simple` -/

theorem Says.simple {x : (simpleErr S).E} {W : Option S.I → Prop} {f : Option S.I} {a : At S.Loc S.Span}
    (h : Says (simpleErr S) x W f a) (hl : EqLaws S.eqI) :
    ∃ exp, x = .expectedFound exp f a ∧ ∀ z, OneOf S.eqI z exp ↔ ∃ y, W y ∧ Same S.eqI z y := by
  induction h with
  | mk exp f a =>
    refine ⟨_, rfl, fun z => ?_⟩
    rw [setExtend_one hl]
    simp [OneOf]
  | merge _ _ ih1 ih2 =>
    obtain ⟨e1, rfl, h1⟩ := ih1
    obtain ⟨e2, rfl, h2⟩ := ih2
    refine ⟨_, rfl, fun z => ?_⟩
    rw [setExtend_one hl, h1, h2]
    constructor
    · rintro (⟨y, h3, h4⟩ | ⟨y, h3, h4⟩)
      · exact ⟨y, .inl h3, h4⟩
      · exact ⟨y, .inr h3, h4⟩
    · rintro ⟨y, h3 | h3, h4⟩
      · exact .inl ⟨y, h3, h4⟩
      · exact .inr ⟨y, h3, h4⟩

theorem Speaks.simple : Speaks (simpleErr S) := by
  intro x W f a h
  induction h with
  | mk exp f a => exact ⟨rfl, rfl⟩
  | @merge x y _ _ _ _ _ _ _ _ ih1 ih2 =>
    cases x <;> cases ih1.1
    cases y <;> cases ih2.1
    exact ⟨rfl, ih1.2⟩

end PPC
