import Verif.SpecMistake
import Verif.SemCfg
import Verif.SemReport2
import Verif.PropsLocality

/-!
# Beginnings of sentences: lemmas for C65
-/

namespace PPC.Cfg

open PPC

variable {S : Sig} {N : Names S} {e e' : Env S} {D : Defs S N}

/-! ## Sentences do not depend on what follows them -/

/-- What is used of a derivation from `i` to `j`. -/
def Here (e e' : Env S) (i j : Nat) (P : Prop) : Prop :=
  i ≤ j ∧ (Valid e i → Valid e j) ∧ (SameBefore e e' j → P)

theorem Here.refl {i : Nat} {P : Prop} (h : P) : Here e e' i i P := ⟨Nat.le_refl _, id, fun _ => h⟩

theorem Here.token {i : Nat} {t : S.I} {P : Prop} (h : e.source i = some t) (hp : e'.source i = some t → P) :
    Here e e' i (i + 1) P := by
  refine ⟨Nat.le_succ _, fun hi j hj => ?_, fun hs => hp (by rw [hs.2 i (Nat.lt_succ_self _), h])⟩
  rcases Nat.lt_succ_iff_lt_or_eq.1 hj with h1 | h1
  · exact hi j h1
  · rw [h1, h]; rfl

theorem Here.imp {i j : Nat} {P Q : Prop} (h : Here e e' i j P) (hp : P → Q) : Here e e' i j Q :=
  ⟨h.1, h.2.1, fun hs => hp (h.2.2 hs)⟩

theorem Here.span {i j : Nat} {P Q : Prop} (h : Here e e' i j P) (hp : e'.spanOf i j = e.spanOf i j → P → Q) :
    Here e e' i j Q := ⟨h.1, h.2.1, fun hs => hp (hs.spanOf h.1 (Nat.le_refl _)) (h.2.2 hs)⟩

theorem Here.seq {i j k : Nat} {P Q R : Prop} (h : Here e e' i j P) (h' : Here e e' j k Q) (hp : P → Q → R) :
    Here e e' i k R :=
  ⟨Nat.le_trans h.1 h'.1, fun hi => h'.2.1 (h.2.1 hi), fun hs => hp (h.2.2 (hs.mono h'.1)) (h'.2.2 hs)⟩

mutual

theorem Derives.here (e' : Env S) (hD : D.All (fruitfulL D)) {ε : ErrTy S} {α : Type} {g : G S N ε α} {i j : Nat} {o : α}
    (hg : g.All (fruitfulL D)) : Derives e D g i o j → Here e e' i j (Derives e' D g i o j)
  | .empty => .refl .empty
  | .none => .refl .none
  | .eof _ => (False.elim hg : _)
  | .just h h' => .token h fun h => .just h h'
  | .filter h h' => .token h fun h => .filter h h'
  | .filterMap h h' => .token h fun h => .filterMap h h'
  | .seq (items := items) h => by
    refine ⟨Nat.le_add_right _ _, fun hi => seq_valid hi h, fun hs => .seq fun k x hk => ?_⟩
    obtain ⟨t, h1, h2⟩ := h k x hk
    have h3 : k < items.length := (List.getElem?_eq_some_iff.1 hk).1
    exact ⟨t, by rw [hs.2 _ (by omega), h1], h2⟩
  | .oneOf h h' h'' => .token h fun h => .oneOf h h' h''
  | .noneOf h h' => .token h fun h => .noneOf h h'
  | .boxed h => (Derives.here e' hD hg.2 h).imp .boxed
  | .withError h => (Derives.here e' hD hg.2 h).imp .withError
  | .to h => (Derives.here e' hD hg.2 h).imp .to
  | .some h => (Derives.here e' hD hg.2 h).imp .some
  | .map (f := _) (o := _) h => (Derives.here e' hD hg.2 h).imp .map
  | .mapWithSpan (f := _) (o := _) h => (Derives.here e' hD hg.2 h).span fun hs h => hs ▸ .mapWithSpan h
  | .mapErr h => (Derives.here e' hD hg.2 h).imp .mapErr
  | .mapErrWithSpan h => (Derives.here e' hD hg.2 h).imp .mapErrWithSpan
  | .tryMap h h' => (Derives.here e' hD hg.2 h).span fun hs h => .tryMap h (hs ▸ h')
  | .then_ h h' => (Derives.here e' hD hg.2.1 h).seq (Derives.here e' hD hg.2.2 h') .then_
  | .thenIgnore h h' => (Derives.here e' hD hg.2.1 h).seq (Derives.here e' hD hg.2.2 h') .thenIgnore
  | .ignoreThen h h' => (Derives.here e' hD hg.2.1 h).seq (Derives.here e' hD hg.2.2 h') .ignoreThen
  | .delimitedBy h h' h'' => ((Derives.here e' hD hg.2.1 h).seq (Derives.here e' hD hg.2.2.1 h') And.intro).seq
      (Derives.here e' hD hg.2.2.2 h'') fun h h' => .delimitedBy h.1 h.2 h'
  | .paddedBy h h' h'' => ((Derives.here e' hD hg.2.1 h).seq (Derives.here e' hD hg.2.2 h') And.intro).seq
      (Derives.here e' hD hg.2.1 h'') fun h h' => .paddedBy h.1 h.2 h'
  | .chain h => (DerivesAll.here e' hD hg.2 h).imp .chain
  | .orLeft h => (Derives.here e' hD hg.2.1 h).imp .orLeft
  | .orRight h => (Derives.here e' hD hg.2.2 h).imp .orRight
  | .orNotSome h => (Derives.here e' hD hg.2 h).imp .orNotSome
  | .orNotNone => .refl .orNotNone
  | .alters h => (DerivesOne.here' e' hD hg.2 h).imp .alters
  | .repeated h => (DerivesItems.here e' hD hg.2 (fun _ h => by cases h) h).imp .repeated
  | .separatedBy h => (DerivesItems.here e' hD hg.2.1 (fun _ h => by cases h; exact hg.2.2) h).imp .separatedBy
  | .toRecover h => (Derives.here e' hD hg.2.1 h).imp .toRecover
  | .call hk h => (Derives.here e' hD (hD _ _ hk) h).imp (.call hk)

theorem DerivesAll.here (e' : Env S) (hD : D.All (fruitfulL D)) {ε : ErrTy S} {α : Type} {gs : GL S N ε α} {i j : Nat}
    {os : List α} (hg : gs.All (fruitfulL D)) : DerivesAll e D gs i os j → Here e e' i j (DerivesAll e' D gs i os j)
  | .nil => .refl .nil
  | .cons h h' => (Derives.here e' hD hg.1 h).seq (DerivesAll.here e' hD hg.2 h') .cons

theorem DerivesOne.here' (e' : Env S) (hD : D.All (fruitfulL D)) {ε : ErrTy S} {α : Type} {gs : GL S N ε α} {i j : Nat}
    {o : α} (hg : gs.All (fruitfulL D)) : DerivesOne e D gs i o j → Here e e' i j (DerivesOne e' D gs i o j)
  | .here h => (Derives.here e' hD hg.1 h).imp .here
  | .later h => (DerivesOne.here' e' hD hg.2 h).imp .later

theorem DerivesItems.here (e' : Env S) (hD : D.All (fruitfulL D)) {ε : ErrTy S} {α β : Type} {c : RepCfg} {g : G S N ε α}
    {sep : Option (G S N ε β)} {k i j : Nat} {os : List α} (hg : g.All (fruitfulL D))
    (hs : ∀ s, sep = some s → s.All (fruitfulL D)) :
    DerivesItems e D c g sep k i os j → Here e e' i j (DerivesItems e' D c g sep k i os j)
  | .stop hk => .refl (.stop hk)
  | .trailing hk ht hw h => (Derives.here e' hD (hs _ rfl) h).imp (.trailing hk ht hw)
  | .plain hf h h' => (Derives.here e' hD hg h).seq (DerivesItems.here e' hD hg hs h') (.plain hf)
  | .first hf h h' => (Derives.here e' hD hg h).seq (DerivesItems.here e' hD hg hs h') (.first hf)
  | .separated hf hw h h' h'' => ((Derives.here e' hD (hs _ rfl) h).seq (Derives.here e' hD hg h') And.intro).seq
      (DerivesItems.here e' hD hg hs h'') fun h h' => .separated hf hw h.1 h.2 h'

end

/-! ## Phrases -/

/-- What can stand from a position to a position of an input. -/
abbrev Phrase (S : Sig) : Type := Env S → Nat → Nat → Prop

/-- It does not depend on what follows. -/
def Phrase.Loc (P : Phrase S) : Prop := ∀ e e' i j, P e i j → Here e e' i j (P e' i j)

/-- After any tokens there may be one. -/
def Phrase.Has (P : Phrase S) : Prop := ∀ start ps, ∃ qs, P (onList start (ps ++ qs)) ps.length (ps ++ qs).length

/-- What stands in `e` from `i` to `k` is the beginning of one. -/
def Phrase.Viable (P : Phrase S) (e : Env S) (k i : Nat) : Prop :=
  ∃ xs : List S.I, SameBefore e (onList e.start xs) k ∧ k ≤ xs.length ∧ P (onList e.start xs) i xs.length

/-- One phrase after another. -/
def Phrase.seq (P Q : Phrase S) : Phrase S := fun e i j => ∃ m, P e i m ∧ Q e m j

theorem onList_append (start : S.L) (xs ys : List S.I) {k : Nat} (hk : k ≤ xs.length) :
    SameBefore (onList start xs) (onList start (xs ++ ys)) k :=
  ⟨rfl, fun i hi => List.getElem?_append_left (by omega)⟩

theorem SameBefore.trans' {e1 e2 e3 : Env S} {k : Nat} (h : SameBefore e1 e2 k) (h' : SameBefore e2 e3 k) :
    SameBefore e1 e3 k := ⟨by rw [h'.1, h.1], fun i hi => by rw [h'.2 i hi, h.2 i hi]⟩

section

variable {P Q : Phrase S} {k i : Nat}

theorem Phrase.Loc.seq (hP : P.Loc) (hQ : Q.Loc) : (P.seq Q).Loc := fun e e' _ _ ⟨_, h, h'⟩ =>
  (hP e e' _ _ h).seq (hQ e e' _ _ h') fun h h' => ⟨_, h, h'⟩

theorem Phrase.Has.mono (h : P.Has) (hp : ∀ e i j, P e i j → Q e i j) : Q.Has := fun start ps => by
  obtain ⟨qs, h⟩ := h start ps
  exact ⟨qs, hp _ _ _ h⟩

theorem Phrase.Viable.mono (h : P.Viable e k i) (hp : ∀ e i j, P e i j → Q e i j) : Q.Viable e k i := by
  obtain ⟨xs, h1, h2, h3⟩ := h
  exact ⟨xs, h1, h2, hp _ _ _ h3⟩

theorem Phrase.Has.seq (hP : P.Loc) (h : P.Has) (h' : Q.Has) : (P.seq Q).Has := fun start ps => by
  obtain ⟨qs, h1⟩ := h start ps
  obtain ⟨rs, h2⟩ := h' start (ps ++ qs)
  refine ⟨qs ++ rs, (ps ++ qs).length, ?_, ?_⟩
  · rw [← List.append_assoc]
    exact (hP _ _ _ _ h1).2.2 (onList_append start _ rs (Nat.le_refl _))
  · rw [← List.append_assoc]; exact h2

/-- A phrase can be finished, and another one can follow. -/
theorem Phrase.Viable.left (hP : P.Loc) (h : P.Viable e k i) (h' : Q.Has) : (P.seq Q).Viable e k i := by
  obtain ⟨xs, h1, h2, h3⟩ := h
  obtain ⟨rs, h4⟩ := h' e.start xs
  refine ⟨xs ++ rs, SameBefore.trans' h1 (onList_append _ _ _ h2), by simp only [List.length_append]; omega, xs.length, ?_, h4⟩
  exact (hP _ _ _ _ h3).2.2 (onList_append _ _ _ (Nat.le_refl _))

/-- After a complete phrase, the beginning of another one. -/
theorem Phrase.Viable.right {m : Nat} (hP : P.Loc) (h : P e i m) (hm : m ≤ k) (h' : Q.Viable e k m) :
    (P.seq Q).Viable e k i := by
  obtain ⟨xs, h1, h2, h3⟩ := h'
  exact ⟨xs, h1, h2, m, (hP _ _ _ _ h).2.2 (h1.mono hm), h3⟩

/-- The tokens before a position. -/
theorem tokens_before : ∀ {k : Nat}, Valid e k → ∃ xs : List S.I, xs.length = k ∧ SameBefore e (onList e.start xs) k := by
  intro k
  induction k with
  | zero => exact fun _ => ⟨[], rfl, rfl, fun i hi => by omega⟩
  | succ k ih =>
    intro hv
    obtain ⟨xs, h1, -, h2⟩ := ih (hv.mono (Nat.le_succ _))
    obtain ⟨t, ht⟩ := Option.isSome_iff_exists.1 (hv k (Nat.lt_succ_self _))
    refine ⟨xs ++ [t], by simp [h1], rfl, fun i hi => ?_⟩
    rcases Nat.lt_succ_iff_lt_or_eq.1 hi with h3 | h3
    · rw [← h2 i h3]; exact List.getElem?_append_left (by omega)
    · subst h3
      rw [ht]
      show (xs ++ [t])[i]? = _
      rw [List.getElem?_append_right (by omega), h1, Nat.sub_self]; rfl

/-- Nothing stands there yet. -/
theorem Phrase.Has.viable (h : P.Has) (hv : Valid e i) : P.Viable e i i := by
  obtain ⟨xs, rfl, h1⟩ := tokens_before hv
  obtain ⟨qs, h2⟩ := h e.start xs
  exact ⟨xs ++ qs, SameBefore.trans' h1 (onList_append _ _ _ (Nat.le_refl _)), by simp, h2⟩

end

/-- A sentence of a parser. -/
def DP (D : Defs S N) {ε : ErrTy S} {α : Type} (g : G S N ε α) : Phrase S := fun e i j => ∃ o, Derives e D g i o j

def DPAll (D : Defs S N) {ε : ErrTy S} {α : Type} (gs : GL S N ε α) : Phrase S :=
  fun e i j => ∃ os, DerivesAll e D gs i os j

def DPOne (D : Defs S N) {ε : ErrTy S} {α : Type} (gs : GL S N ε α) : Phrase S :=
  fun e i j => ∃ o, DerivesOne e D gs i o j

def DPItems (D : Defs S N) {ε : ErrTy S} {α β : Type} (c : RepCfg) (g : G S N ε α) (sep : Option (G S N ε β)) (k : Nat) :
    Phrase S := fun e i j => ∃ os, DerivesItems e D c g sep k i os j

theorem DP.loc (hD : D.All (fruitfulL D)) {ε : ErrTy S} {α : Type} {g : G S N ε α} (hg : g.All (fruitfulL D)) :
    (DP D g).Loc := fun _ e' _ _ ⟨_, h⟩ => (Derives.here e' hD hg h).imp fun h => ⟨_, h⟩

theorem has_token {P : Phrase S} {t : S.I} (h : ∀ e i, e.source i = some t → P e i (i + 1)) : P.Has := fun start ps => by
  refine ⟨[t], ?_⟩
  rw [List.length_append, List.length_singleton]
  refine h _ _ ?_
  show (ps ++ [t])[ps.length]? = _
  simp

theorem has_nothing {P : Phrase S} (h : ∀ e i, P e i i) : P.Has := fun start ps => ⟨[], by
  rw [List.append_nil]; exact h _ _⟩

/-- Tokens for the rest of a list of tokens. -/
theorem seq_tokens : ∀ {items : List S.I}, (∀ x ∈ items, ∃ t, S.eqI t x = true) →
    ∃ ts : List S.I, ts.length = items.length ∧
      ∀ (k : Nat) x, items[k]? = some x → ∃ t, ts[k]? = some t ∧ S.eqI t x = true
  | [], _ => ⟨[], rfl, fun k x h => by simp at h⟩
  | y :: ys, h => by
    obtain ⟨t, ht⟩ := h y (List.mem_cons_self ..)
    obtain ⟨ts, h1, h2⟩ := seq_tokens (items := ys) fun x hx => h x (List.mem_cons_of_mem _ hx)
    refine ⟨t :: ts, by simp [h1], fun k x hk => ?_⟩
    cases k with
    | zero => simp only [List.getElem?_cons_zero, Option.some.injEq] at hk; subst hk; exact ⟨t, rfl, ht⟩
    | succ k => exact h2 k x (by simpa using hk)

theorem not_full {c : RepCfg} (hc : ∀ m, c.maximum = some m → c.minimum ≤ m) {k : Nat} (hk : k < c.minimum) :
    ¬ c.Full k := fun ⟨m, h, h'⟩ => by have := hc m h; omega

theorem items_has (hD : D.All (fruitfulL D)) {ε : ErrTy S} {α β : Type} {c : RepCfg} {g : G S N ε α}
    {sep : Option (G S N ε β)} (hc : ∀ m, c.maximum = some m → c.minimum ≤ m)
    (hg : g.All (fruitfulL D)) (h1 : (DP D g).Has)
    (hs : ∀ s, sep = some s → s.All (fruitfulL D)) (h2 : ∀ s, sep = some s → (DP D s).Has) :
    ∀ n k, c.minimum - k = n → (DPItems D c g sep k).Has
  | 0, k, hk => has_nothing fun _ _ => ⟨_, .stop (by omega)⟩
  | n + 1, k, hk => by
    have ih := items_has hD hc hg h1 hs h2 n (k + 1) (by omega)
    have hf := not_full hc (k := k) (by omega)
    cases sep with
    | none => exact (h1.seq (DP.loc hD hg) ih).mono fun _ _ _ ⟨_, ⟨_, h⟩, _, h'⟩ => ⟨_, .plain hf h h'⟩
    | some sep =>
      rcases Nat.eq_zero_or_pos k with h0 | h0
      · subst h0
        exact (h1.seq (DP.loc hD hg) ih).mono fun _ _ _ ⟨_, ⟨_, h⟩, _, h'⟩ => ⟨_, .first hf h h'⟩
      · exact ((h2 _ rfl).seq (DP.loc hD (hs _ rfl)) (h1.seq (DP.loc hD hg) ih)).mono
          fun _ _ _ ⟨_, ⟨_, h⟩, _, ⟨_, h'⟩, _, h''⟩ => ⟨_, .separated hf (.inl h0) h h' h''⟩

mutual

theorem G.has (hD : D.All (fruitfulL D)) : {ε : ErrTy S} → {α : Type} → (g : G S N ε α) → g.All (fruitfulL D) →
    g.All (plainL S N) → g.All (noUserErrL S N) → (DP D g).Has
  | _, _, .empty, _, _, _ => has_nothing fun _ _ => ⟨_, .empty⟩
  | _, _, .none _, _, _, _ => has_nothing fun _ _ => ⟨_, .none⟩
  | _, _, .eof, h, _, _ => h.elim
  | _, _, .just x, h, _, _ => (show ∃ t, S.eqI t x = true from h).elim fun _ h => has_token fun _ _ h' => ⟨_, .just h' h⟩
  | _, _, .filter p, h, _, _ => (show ∃ t, p t = true from h).elim fun _ h => has_token fun _ _ h' => ⟨_, .filter h' h⟩
  | _, _, .filterMap f, h, _, _ => (show ∃ t o, f t = some o from h).elim fun _ ⟨_, h⟩ => has_token fun _ _ h' => ⟨_, .filterMap h' h⟩
  | _, _, .seq v items, h, _, _ => fun start ps => by
    obtain ⟨ts, h1, h2⟩ := seq_tokens (items := items) h
    refine ⟨ts, v, ?_⟩
    rw [List.length_append, h1]
    refine .seq fun k x hk => ?_
    obtain ⟨t, h3, h4⟩ := h2 k x hk
    refine ⟨t, ?_, h4⟩
    show (ps ++ ts)[ps.length + k]? = _
    rw [List.getElem?_append_right (by omega), ← h3]
    congr 1; omega
  | _, _, .oneOf xs, h, _, _ => (show ∃ t x, x ∈ xs ∧ S.eqI t x = true from h).elim fun _ ⟨_, h, h'⟩ => has_token fun _ _ h'' => ⟨_, .oneOf h'' h h'⟩
  | _, _, .noneOf xs, h, _, _ => (show ∃ t, ∀ x ∈ xs, S.eqI t x = false from h).elim fun _ h => has_token fun _ _ h' => ⟨_, .noneOf h' h⟩
  | _, _, .boxed g, h, hp, hu => (G.has hD g h.2 hp.2 hu.2).mono fun _ _ _ ⟨_, h⟩ => ⟨_, .boxed h⟩
  | _, _, .withError g, h, hp, hu => (G.has hD g h.2 hp.2 hu.2).mono fun _ _ _ ⟨_, h⟩ => ⟨_, .withError h⟩
  | _, _, .to g _, h, hp, hu => (G.has hD g h.2 hp.2 hu.2).mono fun _ _ _ ⟨_, h⟩ => ⟨_, .to h⟩
  | _, _, .some g, h, hp, hu => (G.has hD g h.2 hp.2 hu.2).mono fun _ _ _ ⟨_, h⟩ => ⟨_, .some h⟩
  | _, _, .map _ g, h, hp, hu => (G.has hD g h.2 hp.2 hu.2).mono fun _ _ _ ⟨_, h⟩ => ⟨_, .map h⟩
  | _, _, .mapWithSpan _ g, h, hp, hu => (G.has hD g h.2 hp.2 hu.2).mono fun _ _ _ ⟨_, h⟩ => ⟨_, .mapWithSpan h⟩
  | _, _, .mapErr _ _, _, _, hu => (hu.1 : False).elim
  | _, _, .mapErrWithSpan _ _, _, _, hu => (hu.1 : False).elim
  | _, _, .tryMap f g, h, hp, hu => (G.has hD g h.2 hp.2 hu.2).mono fun e i j ⟨a, h⟩ => by
    obtain ⟨o, ho⟩ := hu.1 a (e.spanOf i j)
    exact ⟨o, .tryMap h ho⟩
  | _, _, .then_ a b, h, hp, hu => ((G.has hD a h.2.1 hp.2.1 hu.2.1).seq (DP.loc hD h.2.1)
      (G.has hD b h.2.2 hp.2.2 hu.2.2)).mono fun _ _ _ ⟨_, ⟨_, h⟩, _, h'⟩ => ⟨_, .then_ h h'⟩
  | _, _, .thenIgnore a b, h, hp, hu => ((G.has hD a h.2.1 hp.2.1 hu.2.1).seq (DP.loc hD h.2.1)
      (G.has hD b h.2.2 hp.2.2 hu.2.2)).mono fun _ _ _ ⟨_, ⟨_, h⟩, _, h'⟩ => ⟨_, .thenIgnore h h'⟩
  | _, _, .ignoreThen a b, h, hp, hu => ((G.has hD a h.2.1 hp.2.1 hu.2.1).seq (DP.loc hD h.2.1)
      (G.has hD b h.2.2 hp.2.2 hu.2.2)).mono fun _ _ _ ⟨_, ⟨_, h⟩, _, h'⟩ => ⟨_, .ignoreThen h h'⟩
  | _, _, .delimitedBy l m r, h, hp, hu => ((G.has hD l h.2.1 hp.2.1 hu.2.1).seq (DP.loc hD h.2.1)
      ((G.has hD m h.2.2.1 hp.2.2.1 hu.2.2.1).seq (DP.loc hD h.2.2.1) (G.has hD r h.2.2.2 hp.2.2.2 hu.2.2.2))).mono
        fun _ _ _ ⟨_, ⟨_, h⟩, _, ⟨_, h'⟩, _, h''⟩ => ⟨_, .delimitedBy h h' h''⟩
  | _, _, .paddedBy p m, h, hp, hu => ((G.has hD p h.2.1 hp.2.1 hu.2.1).seq (DP.loc hD h.2.1)
      ((G.has hD m h.2.2 hp.2.2 hu.2.2).seq (DP.loc hD h.2.2) (G.has hD p h.2.1 hp.2.1 hu.2.1))).mono
        fun _ _ _ ⟨_, ⟨_, h⟩, _, ⟨_, h'⟩, _, h''⟩ => ⟨_, .paddedBy h h' h''⟩
  | _, _, .chain gs, h, hp, hu => (GL.has hD gs h.2 hp.2 hu.2).mono fun _ _ _ ⟨_, h⟩ => ⟨_, .chain h⟩
  | _, _, .or a b, h, hp, hu => (G.has hD a h.2.1 hp.2.1 hu.2.1).mono fun _ _ _ ⟨_, h⟩ => ⟨_, .orLeft h⟩
  | _, _, .orNot g, _, _, _ => has_nothing fun _ _ => ⟨_, .orNotNone⟩
  | _, _, .alters .nil, _, hp, _ => by obtain ⟨_, _, _, h⟩ := hp.1.1; cases h
  | _, _, .alters (.cons g gs), h, hp, hu => (G.has hD g h.2.1 hp.2.1 hu.2.1).mono
      fun _ _ _ ⟨_, h⟩ => ⟨_, .alters (.here h)⟩
  | _, _, .repeated c g, h, hp, hu => (items_has hD hp.1.1 h.2 (G.has hD g h.2 hp.2 hu.2) (fun _ h => by cases h)
      (fun _ h => by cases h) _ 0 rfl).mono fun _ _ _ ⟨_, h⟩ => ⟨_, .repeated h⟩
  | _, _, .separatedBy c g sp, h, hp, hu => (items_has hD hp.1.1 h.2.1 (G.has hD g h.2.1 hp.2.1 hu.2.1)
      (fun _ h' => by cases h'; exact h.2.2) (fun _ h' => by cases h'; exact G.has hD sp h.2.2 hp.2.2 hu.2.2)
      _ 0 rfl).mono fun _ _ _ ⟨_, h⟩ => ⟨_, .separatedBy h⟩
  | _, _, .toRecover g _, h, hp, hu => (G.has hD g h.2.1 hp.2.1 hu.2.1).mono fun _ _ _ ⟨_, h⟩ => ⟨_, .toRecover h⟩
  | _, _, .call _, h, _, _ => h

theorem GL.has (hD : D.All (fruitfulL D)) : {ε : ErrTy S} → {α : Type} → (gs : GL S N ε α) → gs.All (fruitfulL D) →
    gs.All (plainL S N) → gs.All (noUserErrL S N) → (DPAll D gs).Has
  | _, _, .nil, _, _, _ => has_nothing fun _ _ => ⟨_, .nil⟩
  | _, _, .cons g gs, h, hp, hu => ((G.has hD g h.1 hp.1 hu.1).seq (DP.loc hD h.1)
      (GL.has hD gs h.2 hp.2 hu.2)).mono fun _ _ _ ⟨_, ⟨_, h⟩, _, h'⟩ => ⟨_, .cons h h'⟩

end

/-! ## Where a parser fails -/

/-- From `i` to `k` stands the beginning of a phrase. -/
def Far (P : Phrase S) (e : Env S) (k i : Nat) : Prop := i ≤ k ∧ P.Viable e k i

theorem Far.start {P : Phrase S} {i : Nat} (hv : Valid e i) (h : P.Has) : Far P e i i := ⟨Nat.le_refl _, h.viable hv⟩

theorem Far.mono {P Q : Phrase S} {k i : Nat} (h : Far P e k i) (hp : ∀ e i j, P e i j → Q e i j) : Far Q e k i :=
  ⟨h.1, h.2.mono hp⟩

theorem Far.left {P Q : Phrase S} {k i : Nat} (hP : P.Loc) (h : Far P e k i) (h' : Q.Has) : Far (P.seq Q) e k i :=
  ⟨h.1, h.2.left hP h'⟩

theorem Far.right {P Q : Phrase S} {k i m : Nat} (hP : P.Loc) (h : P e i m) (h' : Far Q e k m) : Far (P.seq Q) e k i :=
  ⟨Nat.le_trans (hP e e _ _ h).1 h'.1, .right hP h h'.1 h'.2⟩

theorem far_seq {ε : ErrTy S} {α : Type} {v : α} {items : List S.I} {i k : Nat} {y : S.I} (hv : Valid e i)
    (hf : ∀ x ∈ items, ∃ t, S.eqI t x = true)
    (h : ∀ l z, l < k → items[l]? = some z → ∃ t, e.source (i + l) = some t ∧ S.eqI t z = true)
    (hk : items[k]? = some y) : Far (DP D (.seq (ε := ε) v items : G S N ε α)) e (i + k) i := by
  have hl : k < items.length := (List.getElem?_eq_some_iff.1 hk).1
  have hv' : Valid e (i + k) := by
    intro j hj
    rcases Nat.lt_or_ge j i with h1 | h1
    · exact hv j h1
    · obtain ⟨t, h2, -⟩ := h (j - i) items[j - i] (by omega) (List.getElem?_eq_getElem (by omega))
      rw [show i + (j - i) = j by omega] at h2
      rw [h2]; rfl
  obtain ⟨xs, h1, h2⟩ := tokens_before hv'
  obtain ⟨ts, h3, h4⟩ := seq_tokens (items := items.drop k) fun x hx => hf x (List.mem_of_mem_drop hx)
  refine ⟨Nat.le_add_right _ _, xs ++ ts, SameBefore.trans' h2 (onList_append _ _ _ (by omega)), ?_, v, ?_⟩
  · rw [List.length_append]; omega
  · rw [show (xs ++ ts).length = i + items.length by rw [List.length_append, h1, h3, List.length_drop]; omega]
    refine .seq fun l x hx => ?_
    rcases Nat.lt_or_ge l k with h5 | h5
    · obtain ⟨t, h6, h7⟩ := h l x h5 hx
      refine ⟨t, ?_, h7⟩
      rw [← h6, ← h2.2 _ (by omega)]
      exact List.getElem?_append_left (by omega)
    · obtain ⟨t, h6, h7⟩ := h4 (l - k) x (by rw [List.getElem?_drop, show k + (l - k) = l by omega, hx])
      refine ⟨t, ?_, h7⟩
      show (xs ++ ts)[i + l]? = _
      rw [List.getElem?_append_right (by omega), ← h6]
      congr 1; omega

theorem choice_index {ps : List (Report S)} {r : Report S} (h : Report.Choice ps r) : ∃ p ∈ ps, r.index = p.index := by
  obtain ⟨a, p, b, rfl, -, -, h, -⟩ := h
  exact ⟨p, by simp, h⟩

section

variable (hD : D.All (fruitfulL D)) (hP : D.Plain) (hU : D.All (noUserErrL S N))

include hD hP in
/-- What is accepted is a phrase. -/
theorem Accepts.dp {ε : ErrTy S} {α : Type} {g : G S N ε α} {i j : Nat} {o : α} (hv : Valid e i) (hg : g.All (fruitfulL D))
    (hp : g.All (plainL S N)) (h : Accepts e D g i o j) : DP D g e i j ∧ Valid e j :=
  have h := Accepts.derives hP hp h
  ⟨⟨o, h⟩, (Derives.here e hD hg h).2.1 hv⟩

mutual

theorem Reports.far (hD : D.All (fruitfulL D)) (hP : D.Plain) (hU : D.All (noUserErrL S N)) {ε : ErrTy S} {α : Type}
    {g : G S N ε α} {i : Nat} {r : Report S} (hv : Valid e i) (hg : g.All (fruitfulL D)) (hp : g.All (plainL S N))
    (hu : g.All (noUserErrL S N)) : Reports e D g i r → Far (DP D g) e r.index i
  | .eof _ => (False.elim hg : _)
  | .just _ => .start hv (G.has hD _ hg hp hu)
  | .filter _ => .start hv (G.has hD _ hg hp hu)
  | .filterMap _ => .start hv (G.has hD _ hg hp hu)
  | .seq h h' _ => far_seq hv hg h h'
  | .oneOf _ => .start hv (G.has hD _ hg hp hu)
  | .noneOf _ _ _ => .start hv (G.has hD _ hg hp hu)
  | .noneOfEnd _ => .start hv (G.has hD _ hg hp hu)
  | .boxed h => (Reports.far hD hP hU hv hg.2 hp.2 hu.2 h).mono fun _ _ _ ⟨_, h⟩ => ⟨_, .boxed h⟩
  | .withError h => (Reports.far hD hP hU hv hg.2 hp.2 hu.2 h).mono fun _ _ _ ⟨_, h⟩ => ⟨_, .withError h⟩
  | .to h => (Reports.far hD hP hU hv hg.2 hp.2 hu.2 h).mono fun _ _ _ ⟨_, h⟩ => ⟨_, .to h⟩
  | .some h => (Reports.far hD hP hU hv hg.2 hp.2 hu.2 h).mono fun _ _ _ ⟨_, h⟩ => ⟨_, .some h⟩
  | .map (f := _) h => (Reports.far hD hP hU hv hg.2 hp.2 hu.2 h).mono fun _ _ _ ⟨_, h⟩ => ⟨_, .map h⟩
  | .mapWithSpan (f := _) h => (Reports.far hD hP hU hv hg.2 hp.2 hu.2 h).mono fun _ _ _ ⟨_, h⟩ => ⟨_, .mapWithSpan h⟩
  | .tryMap (f := f) h => (Reports.far hD hP hU hv hg.2 hp.2 hu.2 h).mono fun e i j ⟨a, h⟩ =>
      (show ∃ o, f a (e.spanOf i j) = .ok o from hu.1 a (e.spanOf i j)).elim fun o ho => ⟨o, .tryMap h ho⟩
  | .thenFirst h => ((Reports.far hD hP hU hv hg.2.1 hp.2.1 hu.2.1 h).left (DP.loc hD hg.2.1)
      (G.has hD _ hg.2.2 hp.2.2 hu.2.2)).mono fun _ _ _ ⟨_, ⟨_, h⟩, _, h'⟩ => ⟨_, .then_ h h'⟩
  | .thenSecond h h' =>
    have ha := Accepts.dp hD hP hv hg.2.1 hp.2.1 h
    (Far.right (DP.loc hD hg.2.1) ha.1 (Reports.far hD hP hU ha.2 hg.2.2 hp.2.2 hu.2.2 h')).mono
      fun _ _ _ ⟨_, ⟨_, h⟩, _, h'⟩ => ⟨_, .then_ h h'⟩
  | .thenIgnoreFirst h => ((Reports.far hD hP hU hv hg.2.1 hp.2.1 hu.2.1 h).left (DP.loc hD hg.2.1)
      (G.has hD _ hg.2.2 hp.2.2 hu.2.2)).mono fun _ _ _ ⟨_, ⟨_, h⟩, _, h'⟩ => ⟨_, .thenIgnore h h'⟩
  | .thenIgnoreSecond h h' =>
    have ha := Accepts.dp hD hP hv hg.2.1 hp.2.1 h
    (Far.right (DP.loc hD hg.2.1) ha.1 (Reports.far hD hP hU ha.2 hg.2.2 hp.2.2 hu.2.2 h')).mono
      fun _ _ _ ⟨_, ⟨_, h⟩, _, h'⟩ => ⟨_, .thenIgnore h h'⟩
  | .ignoreThenFirst h => ((Reports.far hD hP hU hv hg.2.1 hp.2.1 hu.2.1 h).left (DP.loc hD hg.2.1)
      (G.has hD _ hg.2.2 hp.2.2 hu.2.2)).mono fun _ _ _ ⟨_, ⟨_, h⟩, _, h'⟩ => ⟨_, .ignoreThen h h'⟩
  | .ignoreThenSecond h h' =>
    have ha := Accepts.dp hD hP hv hg.2.1 hp.2.1 h
    (Far.right (DP.loc hD hg.2.1) ha.1 (Reports.far hD hP hU ha.2 hg.2.2 hp.2.2 hu.2.2 h')).mono
      fun _ _ _ ⟨_, ⟨_, h⟩, _, h'⟩ => ⟨_, .ignoreThen h h'⟩
  | .delimitedByLeft h => ((Reports.far hD hP hU hv hg.2.1 hp.2.1 hu.2.1 h).left (DP.loc hD hg.2.1)
      ((G.has hD _ hg.2.2.1 hp.2.2.1 hu.2.2.1).seq (DP.loc hD hg.2.2.1) (G.has hD _ hg.2.2.2 hp.2.2.2 hu.2.2.2))).mono
        fun _ _ _ ⟨_, ⟨_, h⟩, _, ⟨_, h'⟩, _, h''⟩ => ⟨_, .delimitedBy h h' h''⟩
  | .delimitedByMiddle h h' =>
    have ha := Accepts.dp hD hP hv hg.2.1 hp.2.1 h
    (Far.right (DP.loc hD hg.2.1) ha.1 ((Reports.far hD hP hU ha.2 hg.2.2.1 hp.2.2.1 hu.2.2.1 h').left
      (DP.loc hD hg.2.2.1) (G.has hD _ hg.2.2.2 hp.2.2.2 hu.2.2.2))).mono
        fun _ _ _ ⟨_, ⟨_, h⟩, _, ⟨_, h'⟩, _, h''⟩ => ⟨_, .delimitedBy h h' h''⟩
  | .delimitedByRight h h' h'' =>
    have ha := Accepts.dp hD hP hv hg.2.1 hp.2.1 h
    have hb := Accepts.dp hD hP ha.2 hg.2.2.1 hp.2.2.1 h'
    (Far.right (DP.loc hD hg.2.1) ha.1 (Far.right (DP.loc hD hg.2.2.1) hb.1
      (Reports.far hD hP hU hb.2 hg.2.2.2 hp.2.2.2 hu.2.2.2 h''))).mono
        fun _ _ _ ⟨_, ⟨_, h⟩, _, ⟨_, h'⟩, _, h''⟩ => ⟨_, .delimitedBy h h' h''⟩
  | .paddedByLeft h => ((Reports.far hD hP hU hv hg.2.1 hp.2.1 hu.2.1 h).left (DP.loc hD hg.2.1)
      ((G.has hD _ hg.2.2 hp.2.2 hu.2.2).seq (DP.loc hD hg.2.2) (G.has hD _ hg.2.1 hp.2.1 hu.2.1))).mono
        fun _ _ _ ⟨_, ⟨_, h⟩, _, ⟨_, h'⟩, _, h''⟩ => ⟨_, .paddedBy h h' h''⟩
  | .paddedByMiddle h h' =>
    have ha := Accepts.dp hD hP hv hg.2.1 hp.2.1 h
    (Far.right (DP.loc hD hg.2.1) ha.1 ((Reports.far hD hP hU ha.2 hg.2.2 hp.2.2 hu.2.2 h').left
      (DP.loc hD hg.2.2) (G.has hD _ hg.2.1 hp.2.1 hu.2.1))).mono
        fun _ _ _ ⟨_, ⟨_, h⟩, _, ⟨_, h'⟩, _, h''⟩ => ⟨_, .paddedBy h h' h''⟩
  | .paddedByRight h h' h'' =>
    have ha := Accepts.dp hD hP hv hg.2.1 hp.2.1 h
    have hb := Accepts.dp hD hP ha.2 hg.2.2 hp.2.2 h'
    (Far.right (DP.loc hD hg.2.1) ha.1 (Far.right (DP.loc hD hg.2.2) hb.1
      (Reports.far hD hP hU hb.2 hg.2.1 hp.2.1 hu.2.1 h''))).mono
        fun _ _ _ ⟨_, ⟨_, h⟩, _, ⟨_, h'⟩, _, h''⟩ => ⟨_, .paddedBy h h' h''⟩
  | .chain h => (ReportsSome.far hD hP hU hv hg.2 hp.2 hu.2 h).mono fun _ _ _ ⟨_, h⟩ => ⟨_, .chain h⟩
  | .or (p := p) (q := q) h h' hc => by
    have h1 := Reports.far hD hP hU hv hg.2.1 hp.2.1 hu.2.1 h
    have h2 := Reports.far hD hP hU hv hg.2.2 hp.2.2 hu.2.2 h'
    obtain ⟨x, hx, h3⟩ := choice_index hc
    rw [h3]
    rcases List.mem_cons.1 hx with h4 | h4
    · rw [h4]; exact h1.mono fun _ _ _ ⟨_, h⟩ => ⟨_, .orLeft h⟩
    · rw [List.mem_singleton.1 h4]; exact h2.mono fun _ _ _ ⟨_, h⟩ => ⟨_, .orRight h⟩
  | .alters h hc => by
    have h1 := ReportsAll.far hD hP hU hv hg.2 hp.2 hu.2 h
    obtain ⟨x, hx, h3⟩ := choice_index hc
    rw [h3]
    exact (h1 x hx).mono fun _ _ _ ⟨_, h⟩ => ⟨_, .alters h⟩
  | .repeated h => (ReportsItems.far hD hP hU hv hp.1.1 hg.2 hp.2 hu.2 (fun _ h => by cases h) h).mono
      fun _ _ _ ⟨_, h⟩ => ⟨_, .repeated h⟩
  | .separatedBy h => (ReportsItems.far hD hP hU hv hp.1.1 hg.2.1 hp.2.1 hu.2.1
      (fun _ h => by cases h; exact ⟨hg.2.2, hp.2.2, hu.2.2⟩) h).mono fun _ _ _ ⟨_, h⟩ => ⟨_, .separatedBy h⟩
  | .toRecover h => (Reports.far hD hP hU hv hg.2.1 hp.2.1 hu.2.1 h).mono fun _ _ _ ⟨_, h⟩ => ⟨_, .toRecover h⟩
  | .call hk h => (Reports.far hD hP hU hv (hD _ _ hk) (hP _ _ hk).1 (hU _ _ hk) h).mono
      fun _ _ _ ⟨_, h⟩ => ⟨_, .call hk h⟩
termination_by structural h => h

theorem ReportsSome.far (hD : D.All (fruitfulL D)) (hP : D.Plain) (hU : D.All (noUserErrL S N)) {ε : ErrTy S} {α : Type}
    {gs : GL S N ε α} {i : Nat} {r : Report S} (hv : Valid e i) (hg : gs.All (fruitfulL D)) (hp : gs.All (plainL S N))
    (hu : gs.All (noUserErrL S N)) : ReportsSome e D gs i r → Far (DPAll D gs) e r.index i
  | .here h => ((Reports.far hD hP hU hv hg.1 hp.1 hu.1 h).left (DP.loc hD hg.1)
      (GL.has hD _ hg.2 hp.2 hu.2)).mono fun _ _ _ ⟨_, ⟨_, h⟩, _, h'⟩ => ⟨_, .cons h h'⟩
  | .later h h' =>
    have ha := Accepts.dp hD hP hv hg.1 hp.1 h
    (Far.right (DP.loc hD hg.1) ha.1 (ReportsSome.far hD hP hU ha.2 hg.2 hp.2 hu.2 h')).mono
      fun _ _ _ ⟨_, ⟨_, h⟩, _, h'⟩ => ⟨_, .cons h h'⟩
termination_by structural h => h

theorem ReportsAll.far (hD : D.All (fruitfulL D)) (hP : D.Plain) (hU : D.All (noUserErrL S N)) {ε : ErrTy S} {α : Type}
    {gs : GL S N ε α} {i : Nat} {ps : List (Report S)} (hv : Valid e i) (hg : gs.All (fruitfulL D))
    (hp : gs.All (plainL S N)) (hu : gs.All (noUserErrL S N)) :
    ReportsAll e D gs i ps → ∀ p ∈ ps, Far (DPOne D gs) e p.index i
  | .nil => fun _ h => by cases h
  | .cons h h' => by
    have h1 := Reports.far hD hP hU hv hg.1 hp.1 hu.1 h
    have h2 := ReportsAll.far hD hP hU hv hg.2 hp.2 hu.2 h'
    intro p hp'
    rcases List.mem_cons.1 hp' with h4 | h4
    · rw [h4]; exact h1.mono fun _ _ _ ⟨_, h⟩ => ⟨_, .here h⟩
    · exact (h2 p h4).mono fun _ _ _ ⟨_, h⟩ => ⟨_, .later h⟩
termination_by structural h => h

theorem ReportsNoOther.far (hD : D.All (fruitfulL D)) (hP : D.Plain) (hU : D.All (noUserErrL S N)) {ε : ErrTy S}
    {α β : Type} {c : RepCfg} {g : G S N ε α} {sep : Option (G S N ε β)} {k i : Nat} {r : Report S} (hv : Valid e i)
    (hf : ¬ c.Full k) (hi : (DPItems D c g sep (k + 1)).Has) (hg : g.All (fruitfulL D)) (hp : g.All (plainL S N))
    (hu : g.All (noUserErrL S N))
    (hs : ∀ s, sep = some s → s.All (fruitfulL D) ∧ s.All (plainL S N) ∧ s.All (noUserErrL S N)) :
    ReportsNoOther e D c g sep k i r → Far (DPItems D c g sep k) e r.index i
  | .plain h => ((Reports.far hD hP hU hv hg hp hu h).left (DP.loc hD hg) hi).mono
      fun _ _ _ ⟨_, ⟨_, h⟩, _, h'⟩ => ⟨_, .plain hf h h'⟩
  | .unwanted hw h => by
    have h1 := Reports.far hD hP hU hv hg hp hu h
    have hk : k = 0 := by
      rcases Nat.eq_zero_or_pos k with h0 | h0
      · exact h0
      · exact (hw (.inl h0)).elim
    subst hk
    exact (h1.left (DP.loc hD hg) hi).mono fun _ _ _ ⟨_, ⟨_, h⟩, _, h'⟩ => ⟨_, .first hf h h'⟩
  | .separated hw h h' =>
    have hs := hs _ rfl
    have ha := Accepts.dp hD hP hv hs.1 hs.2.1 h
    (Far.right (DP.loc hD hs.1) ha.1 ((Reports.far hD hP hU ha.2 hg hp hu h').left (DP.loc hD hg) hi)).mono
      fun _ _ _ ⟨_, ⟨_, h⟩, _, ⟨_, h'⟩, _, h''⟩ => ⟨_, .separated hf hw h h' h''⟩
  | .noSeparator hk h =>
    have hs := hs _ rfl
    ((Reports.far hD hP hU hv hs.1 hs.2.1 hs.2.2 h).left (DP.loc hD hs.1)
      ((G.has hD _ hg hp hu).seq (DP.loc hD hg) hi)).mono
        fun _ _ _ ⟨_, ⟨_, h⟩, _, ⟨_, h'⟩, _, h''⟩ => ⟨_, .separated hf (.inl hk) h h' h''⟩
  | .noLeading _ _ h => ((Reports.far hD hP hU hv hg hp hu h).left (DP.loc hD hg) hi).mono
      fun _ _ _ ⟨_, ⟨_, h⟩, _, h'⟩ => ⟨_, .first hf h h'⟩
termination_by structural h => h

theorem ReportsItems.far (hD : D.All (fruitfulL D)) (hP : D.Plain) (hU : D.All (noUserErrL S N)) {ε : ErrTy S}
    {α β : Type} {c : RepCfg} {g : G S N ε α} {sep : Option (G S N ε β)} {k i : Nat} {r : Report S} (hv : Valid e i)
    (hc : ∀ m, c.maximum = some m → c.minimum ≤ m) (hg : g.All (fruitfulL D)) (hp : g.All (plainL S N))
    (hu : g.All (noUserErrL S N))
    (hs : ∀ s, sep = some s → s.All (fruitfulL D) ∧ s.All (plainL S N) ∧ s.All (noUserErrL S N)) :
    ReportsItems e D c g sep k i r → Far (DPItems D c g sep k) e r.index i
  | .another (h := m) hf h h' => by
    have ih := fun hv' => ReportsItems.far hD hP hU (i := m) hv' hc hg hp hu hs h'
    cases h with
    | plain h =>
      have ha := Accepts.dp hD hP hv hg hp h
      exact (Far.right (DP.loc hD hg) ha.1 (ih ha.2)).mono fun _ _ _ ⟨_, ⟨_, h⟩, _, h'⟩ => ⟨_, .plain hf h h'⟩
    | unwanted hw h =>
      have ha := Accepts.dp hD hP hv hg hp h
      have hk : k = 0 := by
        rcases Nat.eq_zero_or_pos k with h0 | h0
        · exact h0
        · exact (hw (.inl h0)).elim
      subst hk
      exact (Far.right (DP.loc hD hg) ha.1 (ih ha.2)).mono fun _ _ _ ⟨_, ⟨_, h⟩, _, h'⟩ => ⟨_, .first hf h h'⟩
    | separated hw h h'' =>
      have hs := hs _ rfl
      have ha := Accepts.dp hD hP hv hs.1 hs.2.1 h
      have hb := Accepts.dp hD hP ha.2 hg hp h''
      exact (Far.right (DP.loc hD hs.1) ha.1 (Far.right (DP.loc hD hg) hb.1 (ih hb.2))).mono
        fun _ _ _ ⟨_, ⟨_, h⟩, _, ⟨_, h'⟩, _, h''⟩ => ⟨_, .separated hf hw h h' h''⟩
    | noLeading _ _ h =>
      have ha := Accepts.dp hD hP hv hg hp h
      exact (Far.right (DP.loc hD hg) ha.1 (ih ha.2)).mono fun _ _ _ ⟨_, ⟨_, h⟩, _, h'⟩ => ⟨_, .first hf h h'⟩
  | .tooFew hf h _ => ReportsNoOther.far hD hP hU hv hf (items_has hD hc hg (G.has hD _ hg hp hu) (fun s h => (hs s h).1)
      (fun s h => G.has hD _ (hs s h).1 (hs s h).2.1 (hs s h).2.2) _ _ rfl) hg hp hu hs h
termination_by structural h => h

end

end

def IsEof : {ε : ErrTy S} → {α : Type} → G S N ε α → Prop
  | _, _, .eof => True
  | _, _, _ => False

theorem Reports.eof_index {ε : ErrTy S} {α : Type} {g : G S N ε α} {i : Nat} {r : Report S} (h : Reports e D g i r)
    (hg : IsEof g) : r.index = i := by
  cases h with
  | eof _ => rfl
  | _ => exact (hg : False).elim

theorem Reports.before_end {ε : ErrTy S} {α : Type} {g : G S N ε α} {i : Nat} {r : Report S}
    (h : Reports e D (.thenIgnore g .eof) i r) : Reports e D g i r ∨ ∃ o, Accepts e D g i o r.index := by
  cases h with
  | thenIgnoreFirst h => exact .inl h
  | thenIgnoreSecond h h' => rw [Reports.eof_index h' trivial]; exact .inr ⟨_, h⟩

end PPC.Cfg
