import Verif.SemRepeat
import Verif.PropsSeq

/-!
# Properties of repetition: C21, C22

`Gives e D n g en i o es rec j` (RunAt.lean): at position `i` the parser `g` returns the output
`o` and ends at `j`, as a success (`rec = false`, `es = []`) or as a recovery with errors `es`
(`rec = true`). `FailsAt e D n g en i` (PropsChoice.lean): `g` fails at `i` and does not move.
`cfg : RepCfg` are the settings made with `at_least`, `at_most`, `exactly`, `allow_leading`,
`allow_trailing`.
-/

namespace PPC

variable {S : Sig} {N : Names S} {e : Env S} {D : Defs S N} {n : Nat} {ε : ErrTy S} {α β : Type}
  {cfg : RepCfg} {item : G S N ε α} {sep : G S N ε β}
  {en : Bool} {i j x : Nat} {os : List α} {es : List ε.E} {rec : Bool}

/-! ## Specification -/

/-- Items one after the other, from position `i` to position `k`, when `m` items were there
before. An item is parsed with recovery only if recovery is enabled and it is one of the first
`min` items. -/
def ItemsAt (e : Env S) (D : Defs S N) (n : Nat) (item : G S N ε α) (en : Bool) (min : Nat) :
    Nat → Nat → List α → List ε.E → Bool → Nat → Prop
  | _, i, [], es, rec, k => k = i ∧ es = [] ∧ rec = false
  | m, i, o :: os, es, rec, k => ∃ es₁ r₁ l es₂ r₂, Gives e D n item (en && decide (m < min)) i o es₁ r₁ l ∧
      ItemsAt e D n item en min (m + 1) l os es₂ r₂ k ∧ es = es₁ ++ es₂ ∧ rec = (r₁ || r₂)

/-- What comes before item number `m` (counted from 0), from `i` to `b`: before the first item
nothing, or, if leading separators are allowed, one separator if there is one; before the other
items one separator. -/
def SepAt (e : Env S) (D : Defs S N) (n : Nat) (cfg : RepCfg) (sep : G S N ε β) (en : Bool)
    (m i b : Nat) (es : List ε.E) (rec : Bool) : Prop :=
  (m = 0 ∧ cfg.allowLeading = false ∧ b = i ∧ es = [] ∧ rec = false) ∨
  (m = 0 ∧ cfg.allowLeading = true ∧ ∃ v, Gives e D n sep false i v es rec b) ∨
  (m = 0 ∧ cfg.allowLeading = true ∧ FailsAt e D n sep false i ∧ b = i ∧ es = [] ∧ rec = false) ∨
  (m ≠ 0 ∧ ∃ v, Gives e D n sep (en && decide (m < cfg.minimum)) i v es rec b)

/-- Items with separators, from position `i` to position `k` (the end of the last item). -/
def SepItemsAt (e : Env S) (D : Defs S N) (n : Nat) (cfg : RepCfg) (item : G S N ε α)
    (sep : G S N ε β) (en : Bool) : Nat → Nat → List α → List ε.E → Bool → Nat → Prop
  | _, i, [], es, rec, k => k = i ∧ es = [] ∧ rec = false
  | m, i, o :: os, es, rec, k => ∃ b es₁ r₁ es₂ r₂ l es₃ r₃,
      SepAt e D n cfg sep en m i b es₁ r₁ ∧
      Gives e D n item (en && decide (m < cfg.minimum)) b o es₂ r₂ l ∧
      SepItemsAt e D n cfg item sep en (m + 1) l os es₃ r₃ k ∧
      es = es₁ ++ es₂ ++ es₃ ∧ rec = (r₁ || r₂ || r₃)

/-- `g` gives the output `o` from `p` to `q`, in one of the recovery modes. -/
def Matches (e : Env S) (D : Defs S N) (n : Nat) (g : G S N ε α) (p : Nat) (o : α) (q : Nat) : Prop :=
  ∃ en es rec, Gives e D n g en p o es rec q

/-- Nothing, or, if allowed, one separator. -/
def OptSep (e : Env S) (D : Defs S N) (n : Nat) (allowed : Bool) (sep : G S N ε β) (p q : Nat) : Prop :=
  q = p ∨ (allowed = true ∧ ∃ v, Matches e D n sep p v q)

/-- `sep item sep item ...` -/
def SepThenItems (e : Env S) (D : Defs S N) (n : Nat) (item : G S N ε α) (sep : G S N ε β) :
    Nat → List α → Nat → Prop
  | p, [], q => q = p
  | p, o :: os, q => ∃ v a b, Matches e D n sep p v a ∧ Matches e D n item a o b ∧
      SepThenItems e D n item sep b os q

/-! ## Auxiliary lemmas -/

theorem atMax_eq_true {c : RepCfg} {m : Nat} : c.atMax m = true ↔ ∃ mx, c.maximum = some mx ∧ mx ≤ m := by
  unfold RepCfg.atMax
  cases c.maximum <;> simp

theorem atMax_eq_false {c : RepCfg} {m : Nat} : c.atMax m = false ↔ ∀ mx, c.maximum = some mx → m < mx := by
  unfold RepCfg.atMax
  cases c.maximum <;> simp

theorem atMax_iff_of_le {c : RepCfg} {m : Nat} (h : ∀ mx, c.maximum = some mx → m ≤ mx) :
    c.atMax m = true ↔ c.maximum = some m := by
  rw [atMax_eq_true]
  constructor
  · rintro ⟨mx, h1, h2⟩
    have := h mx h1
    rw [h1]; congr; omega
  · intro h1; exact ⟨m, h1, Nat.le_refl _⟩

theorem atMax_iff_of_le' {c : RepCfg} {m : Nat} (h : ∀ mx, c.maximum = some mx → m ≤ mx) :
    c.atMax m = false ↔ c.maximum ≠ some m := by
  rw [← Bool.not_eq_true, atMax_iff_of_le h]

theorem flag_false {c : RepCfg} {m : Nat} (h : c.minimum ≤ m) : c.flag en m = false := by
  unfold RepCfg.flag
  simp; omega

theorem flag_true {c : RepCfg} {m : Nat} (h : m < c.minimum) : c.flag en m = en := by
  unfold RepCfg.flag
  simp [h]

theorem gives_flag_of_gives {g : G S N ε α} {o : α} {f : Bool} (hi : Valid e i)
    (h : Gives e D n g f i o es rec j) : rec = true → f = true :=
  not_rec_of_disabled ((gives_iff hi).1 h)

theorem flag_le {c : RepCfg} {m : Nat} (h : c.flag en m = true) : en = true := by
  unfold RepCfg.flag at h
  simp at h
  exact h.1

theorem round_none_iff {m b : Nat} {E : Type} {es : List E} :
    RoundO cfg (none : Option (PSem E β)) en m i b es rec ↔ b = i ∧ es = [] ∧ rec = false := by
  constructor
  · rintro (⟨_, h⟩ | ⟨h, _⟩)
    · exact h
    · cases h
  · intro h; exact .inl ⟨rfl, h⟩

theorem round_iff {m b : Nat} (hi : Valid e i) (hs : Rewinds e D n sep false i) :
    RoundO cfg (some (sep.sem e D n)) en m i b es rec ↔ SepAt e D n cfg sep en m i b es rec := by
  unfold RoundO SepAt RepCfg.triesSep
  simp only [gives_iff hi, failsAt_iff hi, Option.isSome_some, Bool.true_and]
  have hs' := rewindsAt_of hi hs
  by_cases hm : m = 0
  · subst hm
    simp only [bne_self_eq_false, Bool.false_or, Bool.and_false, true_and, ne_eq, not_true, false_and, or_false,
      Option.some.injEq]
    constructor
    · rintro (⟨h1, h2⟩ | ⟨h1, sp, rfl, h2 | ⟨h2, h3, x, ed, h4⟩⟩)
      · exact .inl ⟨h1, h2⟩
      · exact .inr (.inl ⟨h1, h2⟩)
      · have := hs' _ _ _ h4
        subst this
        exact .inr (.inr ⟨h1, ⟨x, ed, h4⟩, rfl, h2, h3⟩)
    · rintro (h | ⟨h1, h2⟩ | ⟨h1, ⟨x, ed, h4⟩, rfl, h2, h3⟩)
      · exact .inl h
      · exact .inr ⟨h1, _, rfl, .inl h2⟩
      · exact .inr ⟨h1, _, rfl, .inr ⟨h2, h3, x, ed, h4⟩⟩
  · have hb : (m != 0) = true := by simpa using hm
    simp only [hb, hm, Bool.true_or, Bool.and_true, false_and, or_false, false_or, ne_eq, not_false_eq_true,
      true_and, Bool.true_eq_false, Option.some.injEq, RepCfg.flag]
    constructor
    · rintro ⟨sp, rfl, h⟩; exact h
    · intro h; exact ⟨_, rfl, h⟩

theorem round_valid {m b : Nat} (hi : Valid e i)
    (h : RoundO cfg (some (sep.sem e D n)) en m i b es rec) : Valid e b := by
  rcases h with ⟨_, rfl, _⟩ | ⟨_, sp, hsp, ⟨v, h⟩ | ⟨_, _, _, x, ed, h⟩⟩
  · exact hi
  · cases hsp; exact h.valid hi
  · cases hsp; exact ((parsesAt_iff hi).2 h).valid hi

theorem round_flag {m b : Nat} (_hi : Valid e i)
    (h : RoundO cfg (some (sep.sem e D n)) en m i b es rec) : rec = true → en = true := by
  rcases h with ⟨_, _, _, h⟩ | ⟨_, sp, hsp, ⟨v, h⟩ | ⟨_, _, h, _⟩⟩
  · intro h'; rw [h] at h'; cases h'
  · cases hsp
    intro h'
    have := not_rec_of_disabled h h'
    simp only [Bool.and_eq_true] at this
    exact flag_le this.1
  · intro h'; rw [h] at h'; cases h'

theorem items_none_iff : ∀ {os : List α} {m i : Nat} {es : List ε.E} {rec : Bool}, Valid e i →
    (ItemsO cfg (item.sem e D n) (none : Option (PSem ε.E β)) en m i os es rec j ↔
      ItemsAt e D n item en cfg.minimum m i os es rec j ∧
        ∀ mx, cfg.maximum = some mx → os ≠ [] → m + os.length ≤ mx) := by
  intro os
  induction os with
  | nil => intro m i es rec hi; simp [ItemsO, ItemsAt]
  | cons o os ih =>
    intro m i es rec hi
    simp only [ItemsO, ItemsAt, round_none_iff, gives_iff hi]
    constructor
    · rintro ⟨hm, b, es1, r1, es2, r2, l, es3, r3, ⟨rfl, rfl, rfl⟩, h2, h3, rfl, rfl⟩
      obtain ⟨h4, h5⟩ := (ih (h2.valid hi)).1 h3
      refine ⟨⟨es2, r2, l, es3, r3, h2, h4, by simp, by simp⟩, ?_⟩
      intro mx hmx _
      have := atMax_eq_false.1 hm mx hmx
      cases os with
      | nil => simp; omega
      | cons _ _ => have := h5 mx hmx (by simp); simp at this ⊢; omega
    · rintro ⟨⟨es2, r2, l, es3, r3, h2, h4, rfl, rfl⟩, h5⟩
      refine ⟨atMax_eq_false.2 fun mx hmx => ?_, i, [], false, es2, r2, l, es3, r3, ⟨rfl, rfl, rfl⟩, h2,
        (ih (h2.valid hi)).2 ⟨h4, fun mx hmx _ => ?_⟩, by simp, by simp⟩
      · have := h5 mx hmx (by simp); simp at this; omega
      · have := h5 mx hmx (by simp); simp at this; omega

theorem items_iff (hs : ∀ p, Valid e p → Rewinds e D n sep false p) :
    ∀ {os : List α} {m i : Nat} {es : List ε.E} {rec : Bool}, Valid e i →
    (ItemsO cfg (item.sem e D n) (some (sep.sem e D n)) en m i os es rec j ↔
      SepItemsAt e D n cfg item sep en m i os es rec j ∧
        ∀ mx, cfg.maximum = some mx → os ≠ [] → m + os.length ≤ mx) := by
  intro os
  induction os with
  | nil => intro m i es rec hi; simp [ItemsO, SepItemsAt]
  | cons o os ih =>
    intro m i es rec hi
    simp only [ItemsO, SepItemsAt]
    constructor
    · rintro ⟨hm, b, es1, r1, es2, r2, l, es3, r3, h1, h2, h3, rfl, rfl⟩
      have hb := round_valid hi h1
      obtain ⟨h4, h5⟩ := (ih (h2.valid hb)).1 h3
      refine ⟨⟨b, es1, r1, es2, r2, l, es3, r3, (round_iff hi (hs _ hi)).1 h1, (gives_iff hb).2 h2, h4,
        by simp, by simp [Bool.or_assoc]⟩, ?_⟩
      intro mx hmx _
      have := atMax_eq_false.1 hm mx hmx
      cases os with
      | nil => simp; omega
      | cons _ _ => have := h5 mx hmx (by simp); simp at this ⊢; omega
    · rintro ⟨⟨b, es1, r1, es2, r2, l, es3, r3, h1, h2, h4, rfl, rfl⟩, h5⟩
      have h1' := (round_iff hi (hs _ hi)).2 h1
      have hb := round_valid hi h1'
      have h2' := (gives_iff hb).1 h2
      refine ⟨atMax_eq_false.2 fun mx hmx => ?_, b, es1, r1, es2, r2, l, es3, r3, h1', h2',
        (ih (h2'.valid hb)).2 ⟨h4, fun mx hmx _ => ?_⟩, by simp, by simp [Bool.or_assoc]⟩
      · have := h5 mx hmx (by simp); simp at this; omega
      · have := h5 mx hmx (by simp); simp at this; omega

theorem itemsO_valid {γ : Type} {sep : Option (PSem ε.E γ)}
    (hr : ∀ {m i b es rec}, Valid e i → RoundO cfg sep en m i b es rec → Valid e b) :
    ∀ {os : List α} {m i : Nat} {es : List ε.E} {rec : Bool}, Valid e i →
    ItemsO cfg (item.sem e D n) sep en m i os es rec j → Valid e j := by
  intro os
  induction os with
  | nil => rintro m i es rec hi ⟨rfl, _⟩; exact hi
  | cons o os ih =>
    rintro m i es rec hi ⟨hm, b, es1, r1, es2, r2, l, es3, r3, h1, h2, h3, rfl, rfl⟩
    exact ih (h2.valid (hr hi h1)) h3

theorem itemsO_flag {γ : Type} {sep : Option (PSem ε.E γ)}
    (hr : ∀ {m i b es rec}, Valid e i → RoundO cfg sep en m i b es rec → Valid e b)
    (hf : ∀ {m i b es rec}, Valid e i → RoundO cfg sep en m i b es rec → rec = true → en = true) :
    ∀ {os : List α} {m i : Nat} {es : List ε.E} {rec : Bool}, Valid e i →
    ItemsO cfg (item.sem e D n) sep en m i os es rec j → rec = true → en = true := by
  intro os
  induction os with
  | nil => rintro m i es rec hi ⟨_, _, rfl⟩ h; cases h
  | cons o os ih =>
    rintro m i es rec hi ⟨hm, b, es1, r1, es2, r2, l, es3, r3, h1, h2, h3, rfl, rfl⟩
    exact or_flag (hf hi h1) (or_flag (fun h => flag_le (not_rec_of_disabled h2 h))
      (ih (h2.valid (hr hi h1)) h3))

theorem finish_addRec {a : List α} {E : Type} {es : List E} {k : Nat} (h : rec = false → es = []) {o : List α}
    {es' : List E} {rec' : Bool} (hf : rec = true → en = true) :
    GivesO (finishSem en a (addRec none es rec) k) o es' rec' j ↔
      o = a ∧ j = k ∧ es' = es ∧ rec' = rec := by
  rw [finish_gives]
  obtain ⟨h1, h2⟩ := recErrs_addRec (r := none) h
  rw [h1, h2]
  simp only [recErrs, Option.getD_none, List.nil_append, Option.isSome_none, Bool.false_or]
  constructor
  · rintro ⟨h1, h2, h3, h4, _⟩; exact ⟨h1, h2, h3, h4⟩
  · rintro ⟨h1, h2, h3, h4⟩; exact ⟨h1, h2, h3, h4, by rw [h4]; exact hf⟩

theorem finish_addRec_failed {a : List α} {E : Type} {k : Nat} {r : Option (List E)} {ed : List E} :
    finishSem en a r k ≠ .ok (.failed x ed, j) := by
  cases r with
  | none => intro h; cases h
  | some es =>
    cases en <;> intro h <;> simp [finishSem] at h

/-- Both kinds of repetition, outputs. -/
theorem qRepeat_gives {γ : Type} {sp : Option (PSem ε.E γ)} (hi : Valid e i)
    (hr : ∀ {m i b es rec}, Valid e i → RoundO cfg sp en m i b es rec → Valid e b)
    (hf : ∀ {m i b es rec}, Valid e i → RoundO cfg sp en m i b es rec → rec = true → en = true) :
    GivesO (qRepeat n cfg (item.sem e D n) sp en i) os es rec j ↔
      ∃ es' rec' k, os.length < n ∧ ItemsO cfg (item.sem e D n) sp en 0 i os es' rec' k ∧
        ((cfg.allowTrailing = false ∧ cfg.atMax os.length = true ∧ j = k ∧ es = es' ∧ rec = rec') ∨
         (cfg.allowTrailing = true ∧ cfg.atMax os.length = true ∧
           ∃ es1 r1, RoundO cfg sp en os.length k j es1 r1 ∧ es = es' ++ es1 ∧ rec = (rec' || r1)) ∨
         (os.length ≠ 0 ∧ (cfg.allowTrailing = true ∨ cfg.atMax os.length = false) ∧
           cfg.minimum ≤ os.length ∧ es = [] ∧ rec = false ∧
           ∃ q x ed, sp = some q ∧ q false k = .ok (.failed x ed, j)) ∨
         (cfg.atMax os.length = false ∧ cfg.minimum ≤ os.length ∧ es = [] ∧ rec = false ∧
           ∃ b es1 r1 x ed l, RoundO cfg sp en os.length k b es1 r1 ∧
             item.sem e D n false b = .ok (.failed x ed, l) ∧
             j = if cfg.triesSep sp os.length && !cfg.allowTrailing then k else l)) := by
  constructor
  · intro h
    have h' : ∃ res, qRepeat n cfg (item.sem e D n) sp en i = .ok (res, j) ∧
        ((rec = false ∧ es = [] ∧ res = .success os) ∨ (rec = true ∧ res = .recovered os es)) := by
      rcases h with ⟨h1, h2, h3⟩ | ⟨h1, h3⟩
      · exact ⟨_, h3, .inl ⟨h1, h2, rfl⟩⟩
      · exact ⟨_, h3, .inr ⟨h1, rfl⟩⟩
    obtain ⟨res, h1, h2⟩ := h'
    obtain ⟨os', es', rec', k, h3, h4, h5⟩ := qRepeat_iff.1 h1
    have hk := itemsO_valid hr hi h4
    have hfl := itemsO_flag hr hf hi h4
    have hgo : ∀ {x : Out (Res (List α) ε.E × Nat)}, x = .ok (res, j) → GivesO x os es rec j := by
      intro x hx
      rcases h2 with ⟨g1, g2, rfl⟩ | ⟨g1, rfl⟩
      · exact .inl ⟨g1, g2, hx⟩
      · exact .inr ⟨g1, hx⟩
    rcases h5 with ⟨h5, h6, h7⟩ | ⟨h5, h6, b, es1, r1, h7, h8⟩ | ⟨h5, h6, q, x, ed, l, h7, h8, h9⟩ |
      ⟨h6, b, es1, r1, x, ed, l, h7, h8, h9⟩
    · obtain ⟨rfl, rfl, rfl, rfl⟩ := (finish_addRec h4.errs hfl).1 (hgo h7)
      exact ⟨es, rec, j, h3, h4, .inl ⟨h5, h6, rfl, rfl, rfl⟩⟩
    · rw [addRec_addRec h4.errs h7.errs] at h8
      obtain ⟨rfl, rfl, rfl, rfl⟩ := (finish_addRec (by
        intro h; simp only [Bool.or_eq_false_iff] at h
        rw [h4.errs h.1, h7.errs h.2]; rfl) (or_flag hfl (hf hk h7))).1 (hgo h8)
      exact ⟨es', rec', k, h3, h4, .inr (.inl ⟨h5, h6, es1, r1, h7, rfl, rfl⟩)⟩
    · rcases h9 with ⟨h9, rfl, rfl⟩ | ⟨_, rfl, _⟩
      · rcases h2 with ⟨rfl, rfl, h2⟩ | ⟨_, h2⟩
        · cases h2
          rw [flag_false h9] at h8
          exact ⟨es', rec', k, h3, h4, .inr (.inr (.inl ⟨h5, h6, h9, rfl, rfl, q, x, ed, h7, h8⟩))⟩
        · cases h2
      · rcases h2 with ⟨_, _, h2⟩ | ⟨_, h2⟩ <;> cases h2
    · rcases h9 with ⟨h9, rfl, hj⟩ | ⟨_, rfl, _⟩
      · rcases h2 with ⟨rfl, rfl, h2⟩ | ⟨_, h2⟩
        · cases h2
          rw [flag_false h9] at h8
          exact ⟨es', rec', k, h3, h4, .inr (.inr (.inr ⟨h6, h9, rfl, rfl, b, es1, r1, x, ed, l, h7, h8, hj⟩))⟩
        · cases h2
      · rcases h2 with ⟨_, _, h2⟩ | ⟨_, h2⟩ <;> cases h2
  · rintro ⟨es', rec', k, h3, h4, h⟩
    have hk := itemsO_valid hr hi h4
    have hfl := itemsO_flag hr hf hi h4
    have hback : ∀ {y : Out (Res (List α) ε.E × Nat)}, GivesO y os es rec j →
        (∀ res, y = .ok (res, j) → EndO cfg (item.sem e D n) sp en i os (addRec none es' rec') k res j) →
        GivesO (qRepeat n cfg (item.sem e D n) sp en i) os es rec j := by
      intro y hy hE
      rcases hy with ⟨h1, h2, hy⟩ | ⟨h1, hy⟩
      · exact .inl ⟨h1, h2, qRepeat_iff.2 ⟨os, es', rec', k, h3, h4, hE _ hy⟩⟩
      · exact .inr ⟨h1, qRepeat_iff.2 ⟨os, es', rec', k, h3, h4, hE _ hy⟩⟩
    rcases h with ⟨h5, h6, rfl, rfl, rfl⟩ | ⟨h5, h6, es1, r1, h7, rfl, rfl⟩ |
      ⟨h5, h6, h9, rfl, rfl, q, x, ed, h7, h8⟩ | ⟨h6, h9, rfl, rfl, b, es1, r1, x, ed, l, h7, h8, hj⟩
    · exact hback ((finish_addRec h4.errs hfl).2 ⟨rfl, rfl, rfl, rfl⟩)
        (fun res hres => .inl ⟨h5, h6, hres⟩)
    · refine hback ((finish_addRec (k := j) (by
        intro h; simp only [Bool.or_eq_false_iff] at h
        rw [h4.errs h.1, h7.errs h.2]; rfl) (or_flag hfl (hf hk h7))).2 ⟨rfl, rfl, rfl, rfl⟩)
        (fun res hres => .inr (.inl ⟨h5, h6, j, es1, r1, h7, ?_⟩))
      rw [addRec_addRec h4.errs h7.errs]
      exact hres
    · refine hback (y := .ok (.success os, j)) (givesO_success.2 ⟨rfl, rfl, rfl, rfl⟩)
        (fun res hres => .inr (.inr (.inl ⟨h5, h6, q, x, ed, j, h7, ?_, .inl ⟨h9, ?_, rfl⟩⟩)))
      · rw [flag_false h9]; exact h8
      · cases hres; rfl
    · refine hback (y := .ok (.success os, j)) (givesO_success.2 ⟨rfl, rfl, rfl, rfl⟩)
        (fun res hres => .inr (.inr (.inr ⟨h6, b, es1, r1, x, ed, l, h7, ?_, .inl ⟨h9, ?_, hj⟩⟩)))
      · rw [flag_false h9]; exact h8
      · cases hres; rfl

/-- Both kinds of repetition, failures. -/
theorem qRepeat_failed {γ : Type} {sp : Option (PSem ε.E γ)} :
    qRepeat n cfg (item.sem e D n) sp en i = .ok (.failed x es, j) ↔
      j = i ∧ ∃ os es' rec' k, os.length < n ∧ ItemsO cfg (item.sem e D n) sp en 0 i os es' rec' k ∧
        os.length < cfg.minimum ∧
        ((os.length ≠ 0 ∧ (cfg.allowTrailing = true ∨ cfg.atMax os.length = false) ∧
           ∃ q l, sp = some q ∧ q en k = .ok (.failed x es, l)) ∨
         (cfg.atMax os.length = false ∧
           ∃ b es1 r1 l, RoundO cfg sp en os.length k b es1 r1 ∧
             item.sem e D n en b = .ok (.failed x es, l))) := by
  rw [qRepeat_iff]
  constructor
  · rintro ⟨os, es', rec', k, h3, h4, h5⟩
    rcases h5 with ⟨h5, h6, h7⟩ | ⟨h5, h6, b, es1, r1, h7, h8⟩ | ⟨h5, h6, q, y, ed, l, h7, h8, h9⟩ |
      ⟨h6, b, es1, r1, y, ed, l, h7, h8, h9⟩
    · exact (finish_addRec_failed h7).elim
    · exact (finish_addRec_failed h8).elim
    · rcases h9 with ⟨_, h, _⟩ | ⟨h9, h, rfl⟩
      · cases h
      · cases h
        rw [flag_true h9] at h8
        exact ⟨rfl, os, es', rec', k, h3, h4, h9, .inl ⟨h5, h6, q, l, h7, h8⟩⟩
    · rcases h9 with ⟨_, h, _⟩ | ⟨h9, h, rfl⟩
      · cases h
      · cases h
        rw [flag_true h9] at h8
        exact ⟨rfl, os, es', rec', k, h3, h4, h9, .inr ⟨h6, b, es1, r1, l, h7, h8⟩⟩
  · rintro ⟨rfl, os, es', rec', k, h3, h4, h9, h⟩
    refine ⟨os, es', rec', k, h3, h4, ?_⟩
    rcases h with ⟨h5, h6, q, l, h7, h8⟩ | ⟨h6, b, es1, r1, l, h7, h8⟩
    · refine .inr (.inr (.inl ⟨h5, h6, q, x, es, l, h7, ?_, .inr ⟨h9, rfl, rfl⟩⟩))
      rw [flag_true h9]; exact h8
    · refine .inr (.inr (.inr ⟨h6, b, es1, r1, x, es, l, h7, ?_, .inr ⟨h9, rfl, rfl⟩⟩))
      rw [flag_true h9]; exact h8

theorem round_none_valid {b m : Nat} {E : Type} {es : List E} (hi : Valid e i)
    (h : RoundO cfg (none : Option (PSem E β)) en m i b es rec) : Valid e b := by
  rw [(round_none_iff.1 h).1]; exact hi

theorem round_none_flag {b m : Nat} {E : Type} {es : List E}
    (h : RoundO cfg (none : Option (PSem E β)) en m i b es rec) : rec = true → en = true := by
  rw [(round_none_iff.1 h).2.2]; intro h; cases h

theorem repeated_sem : (G.repeated cfg item).sem e D n =
    qRepeat n cfg (item.sem e D n) (none : Option (PSem ε.E α)) := rfl

theorem separatedBy_sem : (G.separatedBy cfg item sep).sem e D n =
    qRepeat n cfg (item.sem e D n) (some (sep.sem e D n)) := rfl

theorem bound_iff : (∀ mx, cfg.maximum = some mx → os ≠ [] → 0 + os.length ≤ mx) ↔
    ∀ mx, cfg.maximum = some mx → os.length ≤ mx := by
  constructor
  · intro h mx hmx
    by_cases ho : os = []
    · subst ho; simp
    · have := h mx hmx ho; omega
  · intro h mx hmx _; have := h mx hmx; omega

/-! ## C21: repetition counts -/

/-- C21: exactly when, and with what, `item.repeated()` with its limits returns an output. The
outputs are those of items parsed one after the other, at most `max` of them; either there are
`max` of them, or there are at least `min` and the next item does not parse (without recovery):
the repetition is greedy. In the second case errors recovered from within the items are lost
(see C16). `n` bounds the number of iterations (see C33, C35). -/
theorem C21_repeated_gives (hi : Valid e i) (hr : ∀ p, Valid e p → Rewinds e D n item false p) :
    Gives e D n (.repeated cfg item) en i os es rec j ↔
      os.length < n ∧ (∀ max, cfg.maximum = some max → os.length ≤ max) ∧
      ∃ es' rec', ItemsAt e D n item en cfg.minimum 0 i os es' rec' j ∧
        ((cfg.maximum = some os.length ∧ es = es' ∧ rec = rec') ∨
         (cfg.maximum ≠ some os.length ∧ cfg.minimum ≤ os.length ∧ FailsAt e D n item false j ∧
           es = [] ∧ rec = false)) := by
  rw [gives_iff hi, repeated_sem, qRepeat_gives hi round_none_valid (fun _ => round_none_flag)]
  constructor
  · rintro ⟨es', rec', k, h3, h4, h⟩
    have hk := itemsO_valid round_none_valid hi h4
    obtain ⟨h4', hb⟩ := (items_none_iff hi).1 h4
    have hb := bound_iff.1 hb
    refine ⟨h3, hb, ?_⟩
    rcases h with ⟨h5, h6, rfl, rfl, rfl⟩ | ⟨h5, h6, es1, r1, h7, rfl, rfl⟩ |
      ⟨h5, h6, h9, rfl, rfl, q, x, ed, h7, h8⟩ | ⟨h6, h9, rfl, rfl, b, es1, r1, x, ed, l, h7, h8, hj⟩
    · exact ⟨es, rec, h4', .inl ⟨(atMax_iff_of_le hb).1 h6, rfl, rfl⟩⟩
    · obtain ⟨rfl, rfl, rfl⟩ := round_none_iff.1 h7
      exact ⟨es', rec', h4', .inl ⟨(atMax_iff_of_le hb).1 h6, by simp, by simp⟩⟩
    · cases h7
    · obtain ⟨rfl, rfl, rfl⟩ := round_none_iff.1 h7
      have hl := hr _ hk x ed l ((parsesAt_iff hk).2 h8)
      subst hl
      have hj' : j = l := by
        rw [hj]; simp
      subst hj'
      exact ⟨es', rec', h4', .inr ⟨(atMax_iff_of_le' hb).1 h6, h9, (failsAt_iff hk).2 ⟨x, ed, h8⟩, rfl, rfl⟩⟩
  · rintro ⟨h3, hb, es', rec', h4', h⟩
    have h4 := (items_none_iff (β := α) hi).2 ⟨h4', bound_iff.2 hb⟩
    have hk := itemsO_valid round_none_valid hi h4
    refine ⟨es', rec', j, h3, h4, ?_⟩
    rcases h with ⟨h6, rfl, rfl⟩ | ⟨h6, h9, h8, rfl, rfl⟩
    · cases hc : cfg.allowTrailing with
      | false => exact .inl ⟨rfl, (atMax_iff_of_le hb).2 h6, rfl, rfl, rfl⟩
      | true => exact .inr (.inl ⟨rfl, (atMax_iff_of_le hb).2 h6, [], false,
          round_none_iff.2 ⟨rfl, rfl, rfl⟩, by simp, by simp⟩)
    · obtain ⟨x, ed, h8⟩ := (failsAt_iff hk).1 h8
      refine .inr (.inr (.inr ⟨(atMax_iff_of_le' hb).2 h6, h9, rfl, rfl, j, [], false, x, ed, j,
        round_none_iff.2 ⟨rfl, rfl, rfl⟩, h8, by simp⟩))

/-- C21: exactly when, and how, `item.repeated()` fails: fewer than `min` (and fewer than `max`)
items parse, and the failure is that of the next item. The cursor goes back to the start. -/
theorem C21_repeated_fails (hi : Valid e i) :
    ParsesAt e D n (.repeated cfg item) en i (.failed x es) j ↔
      j = i ∧ ∃ os es' rec' k, os.length < n ∧ ItemsAt e D n item en cfg.minimum 0 i os es' rec' k ∧
        os.length < cfg.minimum ∧ (∀ max, cfg.maximum = some max → os.length < max) ∧
        ∃ l, ParsesAt e D n item en k (.failed x es) l := by
  rw [parsesAt_iff hi, repeated_sem, qRepeat_failed]
  constructor
  · rintro ⟨rfl, os, es', rec', k, h3, h4, h9, h⟩
    have hk := itemsO_valid round_none_valid hi h4
    refine ⟨rfl, os, es', rec', k, h3, ((items_none_iff hi).1 h4).1, h9, ?_⟩
    rcases h with ⟨h5, h6, q, l, h7, h8⟩ | ⟨h6, b, es1, r1, l, h7, h8⟩
    · cases h7
    · obtain ⟨rfl, rfl, rfl⟩ := round_none_iff.1 h7
      exact ⟨atMax_eq_false.1 h6, l, (parsesAt_iff hk).2 h8⟩
  · rintro ⟨rfl, os, es', rec', k, h3, h4', h9, h6, l, h8⟩
    have h4 := (items_none_iff (β := α) hi).2 ⟨h4', fun mx hmx _ => by have := h6 mx hmx; omega⟩
    have hk := itemsO_valid round_none_valid hi h4
    exact ⟨rfl, os, es', rec', k, h3, h4, h9, .inr ⟨atMax_eq_false.2 h6, k, [], false, l,
      round_none_iff.2 ⟨rfl, rfl, rfl⟩, (parsesAt_iff hk).1 h8⟩⟩

theorem qRepeat_counts {γ : Type} {sp : Option (PSem ε.E γ)} (hi : Valid e i)
    (hr : ∀ {m i b es rec}, Valid e i → RoundO cfg sp en m i b es rec → Valid e b)
    (hf : ∀ {m i b es rec}, Valid e i → RoundO cfg sp en m i b es rec → rec = true → en = true)
    (h : GivesO (qRepeat n cfg (item.sem e D n) sp en i) os es rec j) :
    (∀ max, cfg.maximum = some max → os.length ≤ max) ∧
    ((∀ max, cfg.maximum = some max → cfg.minimum ≤ max) → cfg.minimum ≤ os.length) := by
  obtain ⟨es', rec', k, h3, h4, h⟩ := (qRepeat_gives hi hr hf).1 h
  have hb : ∀ max, cfg.maximum = some max → os.length ≤ max := fun mx hmx => by
    have := h4.le_max mx hmx (Nat.zero_le _)
    omega
  refine ⟨hb, fun hm => ?_⟩
  rcases h with ⟨h5, h6, rfl, rfl, rfl⟩ | ⟨h5, h6, es1, r1, h7, rfl, rfl⟩ |
      ⟨h5, h6, h9, rfl, rfl, q, x, ed, h7, h8⟩ | ⟨h6, h9, rfl, rfl, b, es1, r1, x, ed, l, h7, h8, hj⟩
  · exact hm _ ((atMax_iff_of_le hb).1 h6)
  · exact hm _ ((atMax_iff_of_le hb).1 h6)
  · exact h9
  · exact h9

/-- C21: the number of outputs of `repeated()` and of `separated_by()` is at most `max`, and at
least `min` provided `min ≤ max`. -/
theorem C21_counts (hi : Valid e i)
    (h : Gives e D n (.repeated cfg item) en i os es rec j ∨
      Gives e D n (.separatedBy cfg item sep) en i os es rec j) :
    (∀ max, cfg.maximum = some max → os.length ≤ max) ∧
    ((∀ max, cfg.maximum = some max → cfg.minimum ≤ max) → cfg.minimum ≤ os.length) := by
  rcases h with h | h
  · exact qRepeat_counts hi round_none_valid (fun _ => round_none_flag) ((gives_iff hi).1 h)
  · exact qRepeat_counts hi round_valid round_flag ((gives_iff hi).1 h)

/-- C21: `exactly(k)` gives exactly `k` outputs. -/
theorem C21_exactly {k : Nat} (hi : Valid e i)
    (h : Gives e D n (.repeated (cfg.exactly k) item) en i os es rec j ∨
      Gives e D n (.separatedBy (cfg.exactly k) item sep) en i os es rec j) : os.length = k := by
  obtain ⟨h1, h2⟩ := C21_counts hi h
  have h1 := h1 k rfl
  have h2 := h2 (fun mx hmx => by cases hmx; exact Nat.le_refl _)
  exact Nat.le_antisymm h1 h2

/-- C21: the condition `min ≤ max` is needed: `just(1).repeated().at_least(2).at_most(1)`
succeeds with one item. -/
theorem C21_max_below_min_wins : ∃ (cfg : RepCfg) (xs os : List Nat) (j : Nat),
    Gives (exEnv xs) exNoDefs 20 (.repeated cfg (.just 1) : ExG (List Nat)) false 0 os [] false j ∧
    os.length < cfg.minimum := by
  refine ⟨(({} : RepCfg).atLeast 2).atMost 1, [1, 1, 1], [1], 1, .inl ⟨rfl, rfl, ?_⟩, by decide⟩
  exact exParsesAt (by decide +kernel)

/-! ## C22: separators -/

/-- C22: exactly when, and with what, `item.separated_by(sep)` returns an output. `k` is the end
of the last item. The four cases: the maximum is reached (and no trailing separator is wanted);
the maximum is reached and a separator follows, which is consumed; no separator follows; a
separator follows, but no item after it: the separator is consumed only if trailing separators
are allowed. -/
theorem C22_separated_by_gives (hi : Valid e i) (hr : ∀ p, Valid e p → Rewinds e D n item false p)
    (hs : ∀ p, Valid e p → Rewinds e D n sep false p) :
    Gives e D n (.separatedBy cfg item sep) en i os es rec j ↔
      os.length < n ∧ (∀ max, cfg.maximum = some max → os.length ≤ max) ∧
      ∃ es' rec' k, SepItemsAt e D n cfg item sep en 0 i os es' rec' k ∧
        ((cfg.maximum = some os.length ∧ cfg.allowTrailing = false ∧ j = k ∧ es = es' ∧ rec = rec') ∨
         (cfg.maximum = some os.length ∧ cfg.allowTrailing = true ∧ ∃ es₁ r₁,
           SepAt e D n cfg sep en os.length k j es₁ r₁ ∧ es = es' ++ es₁ ∧ rec = (rec' || r₁)) ∨
         (os ≠ [] ∧ (cfg.maximum = some os.length → cfg.allowTrailing = true) ∧
           cfg.minimum ≤ os.length ∧ FailsAt e D n sep false k ∧ j = k ∧ es = [] ∧ rec = false) ∨
         (cfg.maximum ≠ some os.length ∧ cfg.minimum ≤ os.length ∧ ∃ b es₁ r₁,
           SepAt e D n cfg sep en os.length k b es₁ r₁ ∧ FailsAt e D n item false b ∧
           j = (if cfg.allowTrailing then b else k) ∧ es = [] ∧ rec = false)) := by
  rw [gives_iff hi, separatedBy_sem, qRepeat_gives hi round_valid round_flag]
  constructor
  · rintro ⟨es', rec', k, h3, h4, h⟩
    have hk := itemsO_valid round_valid hi h4
    obtain ⟨h4', hb⟩ := (items_iff hs hi).1 h4
    have hb := bound_iff.1 hb
    refine ⟨h3, hb, es', rec', k, h4', ?_⟩
    rcases h with ⟨h5, h6, rfl, rfl, rfl⟩ | ⟨h5, h6, es1, r1, h7, rfl, rfl⟩ |
      ⟨h5, h6, h9, rfl, rfl, q, x, ed, h7, h8⟩ | ⟨h6, h9, rfl, rfl, b, es1, r1, x, ed, l, h7, h8, hj⟩
    · exact .inl ⟨(atMax_iff_of_le hb).1 h6, h5, rfl, rfl, rfl⟩
    · exact .inr (.inl ⟨(atMax_iff_of_le hb).1 h6, h5, es1, r1, (round_iff hk (hs _ hk)).1 h7, rfl, rfl⟩)
    · cases h7
      have hj := hs _ hk x ed j ((parsesAt_iff hk).2 h8)
      subst hj
      refine .inr (.inr (.inl ⟨by simpa using h5, fun hm => ?_, h9, (failsAt_iff hk).2 ⟨x, ed, h8⟩, rfl, rfl, rfl⟩))
      rcases h6 with h6 | h6
      · exact h6
      · exact absurd hm ((atMax_iff_of_le' hb).1 h6)
    · have hbv := round_valid hk h7
      have hl := hr _ hbv x ed l ((parsesAt_iff hbv).2 h8)
      subst hl
      have h7' := (round_iff hk (hs _ hk)).1 h7
      refine .inr (.inr (.inr ⟨(atMax_iff_of_le' hb).1 h6, h9, l, es1, r1, h7',
        (failsAt_iff hbv).2 ⟨x, ed, h8⟩, ?_, rfl, rfl⟩))
      rw [hj]
      cases ht : cfg.triesSep (some (sep.sem e D n)) os.length with
      | true => cases ha : cfg.allowTrailing <;> simp
      | false =>
        rcases h7 with ⟨_, rfl, _⟩ | ⟨ht', _⟩
        · simp
        · rw [ht] at ht'; cases ht'
  · rintro ⟨h3, hb, es', rec', k, h4', h⟩
    have h4 := (items_iff hs hi).2 ⟨h4', bound_iff.2 hb⟩
    have hk := itemsO_valid round_valid hi h4
    refine ⟨es', rec', k, h3, h4, ?_⟩
    rcases h with ⟨h6, h5, rfl, rfl, rfl⟩ | ⟨h6, h5, es1, r1, h7, rfl, rfl⟩ |
      ⟨h5, h6, h9, h8, rfl, rfl, rfl⟩ | ⟨h6, h9, b, es1, r1, h7, h8, hj, rfl, rfl⟩
    · exact .inl ⟨h5, (atMax_iff_of_le hb).2 h6, rfl, rfl, rfl⟩
    · exact .inr (.inl ⟨h5, (atMax_iff_of_le hb).2 h6, es1, r1, (round_iff hk (hs _ hk)).2 h7, rfl, rfl⟩)
    · obtain ⟨x, ed, h8⟩ := (failsAt_iff hk).1 h8
      refine .inr (.inr (.inl ⟨by simpa using h5, ?_, h9, rfl, rfl, _, x, ed, rfl, h8⟩))
      by_cases hm : cfg.maximum = some os.length
      · exact .inl (h6 hm)
      · exact .inr ((atMax_iff_of_le' hb).2 hm)
    · have h7' := (round_iff hk (hs _ hk)).2 h7
      have hbv := round_valid hk h7'
      obtain ⟨x, ed, h8⟩ := (failsAt_iff hbv).1 h8
      refine .inr (.inr (.inr ⟨(atMax_iff_of_le' hb).2 h6, h9, rfl, rfl, b, es1, r1, x, ed, b, h7', h8, ?_⟩))
      rw [hj]
      cases ht : cfg.triesSep (some (sep.sem e D n)) os.length with
      | true => cases ha : cfg.allowTrailing <;> simp
      | false =>
        rcases h7' with ⟨_, rfl, _⟩ | ⟨ht', _⟩
        · simp
        · rw [ht] at ht'; cases ht'

/-- C22: exactly when, and how, `item.separated_by(sep)` fails: fewer than `min` items parse, and
the failure is that of the separator or item that is missing. The cursor goes back to the
start. -/
theorem C22_separated_by_fails (hi : Valid e i) (hs : ∀ p, Valid e p → Rewinds e D n sep false p) :
    ParsesAt e D n (.separatedBy cfg item sep) en i (.failed x es) j ↔
      j = i ∧ ∃ os es' rec' k, os.length < n ∧ (∀ max, cfg.maximum = some max → os.length ≤ max) ∧
        SepItemsAt e D n cfg item sep en 0 i os es' rec' k ∧ os.length < cfg.minimum ∧
        ((os ≠ [] ∧ (cfg.maximum = some os.length → cfg.allowTrailing = true) ∧
           ∃ l, ParsesAt e D n sep en k (.failed x es) l) ∨
         (cfg.maximum ≠ some os.length ∧ ∃ b es₁ r₁ l, SepAt e D n cfg sep en os.length k b es₁ r₁ ∧
           ParsesAt e D n item en b (.failed x es) l)) := by
  rw [parsesAt_iff hi, separatedBy_sem, qRepeat_failed]
  constructor
  · rintro ⟨rfl, os, es', rec', k, h3, h4, h9, h⟩
    have hk := itemsO_valid round_valid hi h4
    obtain ⟨h4', hb⟩ := (items_iff hs hi).1 h4
    have hb := bound_iff.1 hb
    refine ⟨rfl, os, es', rec', k, h3, hb, h4', h9, ?_⟩
    rcases h with ⟨h5, h6, q, l, h7, h8⟩ | ⟨h6, b, es1, r1, l, h7, h8⟩
    · cases h7
      refine .inl ⟨by simpa using h5, fun hm => ?_, l, (parsesAt_iff hk).2 h8⟩
      rcases h6 with h6 | h6
      · exact h6
      · exact absurd hm ((atMax_iff_of_le' hb).1 h6)
    · exact .inr ⟨(atMax_iff_of_le' hb).1 h6, b, es1, r1, l, (round_iff hk (hs _ hk)).1 h7,
        (parsesAt_iff (round_valid hk h7)).2 h8⟩
  · rintro ⟨rfl, os, es', rec', k, h3, hb, h4', h9, h⟩
    have h4 := (items_iff hs hi).2 ⟨h4', bound_iff.2 hb⟩
    have hk := itemsO_valid round_valid hi h4
    refine ⟨rfl, os, es', rec', k, h3, h4, h9, ?_⟩
    rcases h with ⟨h5, h6, l, h8⟩ | ⟨h6, b, es1, r1, l, h7, h8⟩
    · refine .inl ⟨by simpa using h5, ?_, _, l, rfl, (parsesAt_iff hk).1 h8⟩
      by_cases hm : cfg.maximum = some os.length
      · exact .inl (h6 hm)
      · exact .inr ((atMax_iff_of_le' hb).2 hm)
    · have h7' := (round_iff hk (hs _ hk)).2 h7
      exact .inr ⟨(atMax_iff_of_le' hb).2 h6, b, es1, r1, l, h7', (parsesAt_iff (round_valid hk h7')).1 h8⟩

theorem sepItemsAt_rest : ∀ {os : List α} {m i : Nat} {es : List ε.E} {rec : Bool} {k : Nat}, m ≠ 0 →
    SepItemsAt e D n cfg item sep en m i os es rec k → SepThenItems e D n item sep i os k := by
  intro os
  induction os with
  | nil => rintro m i es rec k _ ⟨rfl, _⟩; rfl
  | cons o os ih =>
    rintro m i es rec k hm ⟨b, es1, r1, es2, r2, l, es3, r3, h1, h2, h3, rfl, rfl⟩
    rcases h1 with ⟨h, _⟩ | ⟨h, _⟩ | ⟨h, _⟩ | ⟨_, v, h⟩
    · exact (hm h).elim
    · exact (hm h).elim
    · exact (hm h).elim
    · exact ⟨v, b, l, ⟨_, _, _, h⟩, ⟨_, _, _, h2⟩, ih (Nat.succ_ne_zero m) h3⟩

theorem sepAt_optSep {m k b : Nat} {es : List ε.E} {rec : Bool}
    (h : SepAt e D n cfg sep en m k b es rec) (allowed : Bool)
    (ha : m = 0 → cfg.allowLeading = true → allowed = true) (hm : m ≠ 0 → allowed = true) :
    OptSep e D n allowed sep k b := by
  rcases h with ⟨_, _, h, _⟩ | ⟨h1, h2, v, h⟩ | ⟨_, _, _, h, _⟩ | ⟨h1, v, h⟩
  · exact .inl h
  · exact .inr ⟨ha h1 h2, v, _, _, _, h⟩
  · exact .inl h
  · exact .inr ⟨hm h1, v, _, _, _, h⟩

/-- C22: the shape of what `separated_by` consumes: `[sep] item sep item ... sep item [sep]`, the
first separator only with `allow_leading`, the last only with `allow_trailing`; and when there
are no items, nothing, or one separator if both are allowed. -/
theorem C22_shape_partial (hi : Valid e i) (hr : ∀ p, Valid e p → Rewinds e D n item false p)
    (hs : ∀ p, Valid e p → Rewinds e D n sep false p)
    (h : Gives e D n (.separatedBy cfg item sep) en i os es rec j) :
    (os = [] ∧ OptSep e D n (cfg.allowLeading && cfg.allowTrailing) sep i j) ∨
    ∃ o os' a b k, os = o :: os' ∧ OptSep e D n cfg.allowLeading sep i a ∧ Matches e D n item a o b ∧
      SepThenItems e D n item sep b os' k ∧ OptSep e D n cfg.allowTrailing sep k j := by
  obtain ⟨h1, h2, es', rec', k, h3, h4⟩ := (C22_separated_by_gives hi hr hs).1 h
  cases os with
  | nil =>
    obtain ⟨rfl, rfl, rfl⟩ := h3
    refine .inl ⟨rfl, ?_⟩
    rcases h4 with ⟨_, _, rfl, _⟩ | ⟨_, h5, es1, r1, h6, _⟩ | ⟨h5, _⟩ | ⟨_, _, b, es1, r1, h6, _, rfl, _⟩
    · exact .inl rfl
    · exact sepAt_optSep h6 _ (fun _ h => by rw [h, h5]; rfl) (fun h => (h rfl).elim)
    · exact (h5 rfl).elim
    · split
      · rename_i ha
        exact sepAt_optSep h6 _ (fun _ h => by rw [h, ha]; rfl) (fun h => (h rfl).elim)
      · exact .inl rfl
  | cons o os' =>
    obtain ⟨b, es1, r1, es2, r2, l, es3, r3, h5, h6, h7, rfl, rfl⟩ := h3
    refine .inr ⟨o, os', b, l, k, rfl, sepAt_optSep h5 _ (fun _ h => h) (fun h => (h rfl).elim),
      ⟨_, _, _, h6⟩, sepItemsAt_rest (Nat.succ_ne_zero 0) h7, ?_⟩
    rcases h4 with ⟨_, _, rfl, _⟩ | ⟨_, h5, es1, r1, h6, _⟩ | ⟨_, _, _, _, rfl, _⟩ |
      ⟨_, _, b, es1, r1, h6, _, rfl, _⟩
    · exact .inl rfl
    · exact sepAt_optSep h6 _ (fun h => by simp at h) (fun _ => h5)
    · exact .inl rfl
    · split
      · rename_i ha
        exact sepAt_optSep h6 _ (fun h => by simp at h) (fun _ => ha)
      · exact .inl rfl

/-- C22: without `allow_trailing` the cursor ends right after the last item (or at the start if
there is none): no separator is consumed that is not followed by an item. -/
theorem C22_no_trailing (hi : Valid e i) (hr : ∀ p, Valid e p → Rewinds e D n item false p)
    (hs : ∀ p, Valid e p → Rewinds e D n sep false p) (ht : cfg.allowTrailing = false)
    (h : Gives e D n (.separatedBy cfg item sep) en i os es rec j) :
    ∃ es' rec', SepItemsAt e D n cfg item sep en 0 i os es' rec' j := by
  obtain ⟨h1, h2, es', rec', k, h3, h4⟩ := (C22_separated_by_gives hi hr hs).1 h
  rcases h4 with ⟨_, _, rfl, _⟩ | ⟨_, h5, _⟩ | ⟨_, _, _, _, rfl, _⟩ | ⟨_, _, b, es1, r1, h6, _, rfl, _⟩
  · exact ⟨_, _, h3⟩
  · rw [ht] at h5; cases h5
  · exact ⟨_, _, h3⟩
  · rw [ht]; exact ⟨_, _, h3⟩

/-- C22 is false of the code where the documentation says that a leading separator is allowed
even if no items are parsed: with `allow_leading` (and not `allow_trailing`) a separator that is
not followed by an item is not consumed. -/
theorem C22_leading_alone_fails : ∃ (cfg : RepCfg) (xs : List Nat),
    cfg.allowLeading = true ∧ cfg.minimum = 0 ∧
    (∃ v, ParsesAt (exEnv xs) exNoDefs 20 (.just 2 : ExG Nat) false 0 (.success v) 1) ∧
    ParsesAt (exEnv xs) exNoDefs 20 (.separatedBy cfg (.just 1) (.just 2) : ExG (List Nat)) false 0
      (.success []) 0 :=
  ⟨({} : RepCfg).leading, [2], rfl, rfl, ⟨2, exParsesAt (by decide +kernel)⟩,
    exParsesAt (by decide +kernel)⟩

/-- And with both, a lone separator is consumed, although there is no item that it could
trail. -/
theorem C22_both_alone : ParsesAt (exEnv [2]) exNoDefs 20
    (.separatedBy (({} : RepCfg).leading.trailing) (.just 1) (.just 2) : ExG (List Nat)) false 0
      (.success []) 1 := exParsesAt (by decide +kernel)

/-! ## Concrete cases -/

theorem just_rewinds {xs : List Nat} {t : Nat} : ∀ p, Valid (exEnv xs) p →
    Rewinds (exEnv xs) exNoDefs 20 (.just t : ExG Nat) false p :=
  fun p hp => rewinds_of_clean hp (by intro k; exact k.elim) trivial

/-- `1 2 1 2 1 2` with at most two items: the item after the second separator is not consumed;
with `allow_trailing` that separator is. The hypotheses of C21 and C22 hold. -/
example : Gives (exEnv [1, 2, 1, 2, 1, 2]) exNoDefs 20
      (.separatedBy (({} : RepCfg).atMost 2) (.just 1) (.just 2) : ExG (List Nat)) true 0
      [1, 1] [] false 3 ∧
    Gives (exEnv [1, 2, 1, 2, 1, 2]) exNoDefs 20
      (.separatedBy (({} : RepCfg).atMost 2).trailing (.just 1) (.just 2) : ExG (List Nat)) true 0
      [1, 1] [] false 4 ∧
    Gives (exEnv [1, 1, 1, 2]) exNoDefs 20
      (.repeated (({} : RepCfg).atLeast 2) (.just 1) : ExG (List Nat)) true 0
      [1, 1, 1] [] false 3 ∧
    ParsesAt (exEnv [1, 1, 1, 2]) exNoDefs 20
      (.repeated (({} : RepCfg).atLeast 4) (.just 1) : ExG (List Nat)) true 0
      (.failed 3 [.expectedFound [some 1] (some 2) (.span (3, 4))]) 0 ∧
    Valid (exEnv [1, 2, 1, 2, 1, 2]) 0 :=
  ⟨.inl ⟨rfl, rfl, exParsesAt (by decide +kernel)⟩, .inl ⟨rfl, rfl, exParsesAt (by decide +kernel)⟩,
    .inl ⟨rfl, rfl, exParsesAt (by decide +kernel)⟩, exParsesAt (by decide +kernel), fun j hj => absurd hj (Nat.not_lt_zero j)⟩

end PPC
