import Verif.SpecCfg
import Verif.PropsPeg
import Verif.PropsTerm

/-!
# Lemmas for C64
-/

namespace PPC.Cfg

open PPC

variable {S : Sig} {N : Names S} {e : Env S} {D : Defs S N}

/-! ## What is accepted is a sentence -/

mutual

theorem Accepts.derives (hD : D.Plain) {ε : ErrTy S} {α : Type} {g : G S N ε α} {i j : Nat} {o : α}
    (hg : g.All (plainL S N)) : Accepts e D g i o j → Derives e D g i o j
  | .empty => .empty
  | .none => .none
  | .eof h => .eof h
  | .just h h' => .just h h'
  | .filter h h' => .filter h h'
  | .filterMap h h' => .filterMap h h'
  | .seq h => .seq h
  | .oneOf h h' h'' => .oneOf h h' h''
  | .noneOf h h' => .noneOf h h'
  | .boxed h => .boxed (Accepts.derives hD hg.2 h)
  | .withError h => .withError (Accepts.derives hD hg.2 h)
  | .to h => .to (Accepts.derives hD hg.2 h)
  | .some h => .some (Accepts.derives hD hg.2 h)
  | .map (f := _) (o := _) h => .map (Accepts.derives hD hg.2 h)
  | .mapWithSpan (f := _) (o := _) h => .mapWithSpan (Accepts.derives hD hg.2 h)
  | .mapErr h => .mapErr (Accepts.derives hD hg.2 h)
  | .mapErrWithSpan h => .mapErrWithSpan (Accepts.derives hD hg.2 h)
  | .tryMap h h' => .tryMap (Accepts.derives hD hg.2 h) h'
  | .then_ h h' => .then_ (Accepts.derives hD hg.2.1 h) (Accepts.derives hD hg.2.2 h')
  | .thenIgnore h h' => .thenIgnore (Accepts.derives hD hg.2.1 h) (Accepts.derives hD hg.2.2 h')
  | .ignoreThen h h' => .ignoreThen (Accepts.derives hD hg.2.1 h) (Accepts.derives hD hg.2.2 h')
  | .delimitedBy h h' h'' => .delimitedBy (Accepts.derives hD hg.2.1 h) (Accepts.derives hD hg.2.2.1 h')
      (Accepts.derives hD hg.2.2.2 h'')
  | .paddedBy h h' h'' => .paddedBy (Accepts.derives hD hg.2.1 h) (Accepts.derives hD hg.2.2 h')
      (Accepts.derives hD hg.2.1 h'')
  | .chain h => .chain (AcceptsAll.derives hD hg.2 h)
  | .orLeft h => .orLeft (Accepts.derives hD hg.2.1 h)
  | .orRight _ h => .orRight (Accepts.derives hD hg.2.2 h)
  | .orNotSome h => .orNotSome (Accepts.derives hD hg.2 h)
  | .orNotNone _ => .orNotNone
  | .alters h => .alters (AcceptsFirst.derives hD hg.2 h)
  | .repeated h => .repeated (AcceptsItems.derives hD hg.1.1 hg.2 (fun _ h => by cases h) h)
  | .separatedBy h => .separatedBy (AcceptsItems.derives hD hg.1.1 hg.2.1 (fun _ h => by cases h; exact hg.2.2) h)
  | .toRecover h => .toRecover (Accepts.derives hD hg.2.1 h)
  | .call hk h => .call hk (Accepts.derives hD (hD _ _ hk).1 h)

theorem AcceptsAll.derives (hD : D.Plain) {ε : ErrTy S} {α : Type} {gs : GL S N ε α} {i j : Nat} {os : List α}
    (hg : gs.All (plainL S N)) : AcceptsAll e D gs i os j → DerivesAll e D gs i os j
  | .nil => .nil
  | .cons h h' => .cons (Accepts.derives hD hg.1 h) (AcceptsAll.derives hD hg.2 h')

theorem AcceptsFirst.derives (hD : D.Plain) {ε : ErrTy S} {α : Type} {gs : GL S N ε α} {i j : Nat} {o : α}
    (hg : gs.All (plainL S N)) : AcceptsFirst e D gs i o j → DerivesOne e D gs i o j
  | .here h => .here (Accepts.derives hD hg.1 h)
  | .later _ h => .later (AcceptsFirst.derives hD hg.2 h)

theorem Another.derives (hD : D.Plain) {ε : ErrTy S} {α β : Type} {c : RepCfg} {g : G S N ε α}
    {sep : Option (G S N ε β)} {k i h j : Nat} {o : α} {os : List α} (hf : ¬ c.Full k)
    (hg : g.All (plainL S N)) (hs : ∀ s, sep = some s → s.All (plainL S N))
    (h' : DerivesItems e D c g sep (k + 1) h os j) :
    Another e D c g sep k i o h → DerivesItems e D c g sep k i (o :: os) j
  | .plain h => .plain hf (Accepts.derives hD hg h) h'
  | .unwanted hw h => by
    have hk : k = 0 := by
      rcases Nat.eq_zero_or_pos k with h0 | h0
      · exact h0
      · exact (hw (.inl h0)).elim
    subst hk
    exact .first hf (Accepts.derives hD hg h) h'
  | .separated hw h1 h2 => .separated hf hw (Accepts.derives hD (hs _ rfl) h1) (Accepts.derives hD hg h2) h'
  | .noLeading _ _ h => .first hf (Accepts.derives hD hg h) h'

theorem NoOther.derives (hD : D.Plain) {ε : ErrTy S} {α β : Type} {c : RepCfg} {g : G S N ε α}
    {sep : Option (G S N ε β)} {k i j : Nat} (hk : c.minimum ≤ k) (hs : ∀ s, sep = some s → s.All (plainL S N)) :
    NoOther e D c g sep k i j → DerivesItems e D c g sep k i [] j
  | .plain _ => .stop hk
  | .unwanted _ _ => .stop hk
  | .trailing hw ht h _ => .trailing hk ht hw (Accepts.derives hD (hs _ rfl) h)
  | .notTrailing _ _ _ _ => .stop hk
  | .noSeparator _ _ => .stop hk
  | .noLeading _ _ _ => .stop hk

theorem Trailer.derives (hD : D.Plain) {ε : ErrTy S} {α β : Type} {c : RepCfg} {g : G S N ε α}
    {sep : Option (G S N ε β)} {k i j : Nat} (hk : c.minimum ≤ k) (hs : ∀ s, sep = some s → s.All (plainL S N)) :
    Trailer e D c sep k i j → DerivesItems e D c g sep k i [] j
  | .plain => .stop hk
  | .notAllowed _ => .stop hk
  | .trailing ht hw h => .trailing hk ht hw (Accepts.derives hD (hs _ rfl) h)
  | .absent _ _ _ => .stop hk

theorem AcceptsItems.derives (hD : D.Plain) {ε : ErrTy S} {α β : Type} {c : RepCfg} {g : G S N ε α}
    {sep : Option (G S N ε β)} {k i j : Nat} {os : List α} (hc : ∀ m, c.maximum = some m → c.minimum ≤ m)
    (hg : g.All (plainL S N)) (hs : ∀ s, sep = some s → s.All (plainL S N)) :
    AcceptsItems e D c g sep k i os j → DerivesItems e D c g sep k i os j
  | .full hf h => Trailer.derives hD (by
      obtain ⟨m, hm, hk⟩ := hf
      exact Nat.le_trans (hc m hm) hk) hs h
  | .another hf h h' => Another.derives hD hf hg hs (AcceptsItems.derives hD hc hg hs h') h
  | .done _ h hk => NoOther.derives hD hk hs h

end

/-! ## How sentences begin -/

/-- Either nothing is consumed, and that is allowed by `m`, or a token in `b` comes first. -/
def Head (e : Env S) (b : S.I → Prop) (m : Bool) (i j : Nat) : Prop :=
  (Valid e i → Valid e j) ∧ (j = i ∧ m = true ∨ i < j ∧ ∃ t, e.source i = some t ∧ b t)

theorem Head.one {b : S.I → Prop} {m : Bool} {i : Nat} {t : S.I} (h : e.source i = some t) (h' : b t) :
    Head e b m i (i + 1) :=
  ⟨fun hi => hi.succ (by rw [h]; rfl), .inr ⟨Nat.lt_succ_self i, t, h, h'⟩⟩

theorem Head.zero {b : S.I → Prop} {m : Bool} {i : Nat} (h : m = true) : Head e b m i i :=
  ⟨id, .inl ⟨rfl, h⟩⟩

theorem Head.mono {b b' : S.I → Prop} {m m' : Bool} {i j : Nat} (h : Head e b m i j)
    (hb : ∀ t, b t → b' t) (hm : m = true → m' = true) : Head e b' m' i j := by
  obtain ⟨h1, h2⟩ := h
  refine ⟨h1, ?_⟩
  rcases h2 with ⟨h2, h3⟩ | ⟨h2, t, h3, h4⟩
  · exact .inl ⟨h2, hm h3⟩
  · exact .inr ⟨h2, t, h3, hb t h4⟩

theorem Head.seq {b b' : S.I → Prop} {m m' : Bool} {i j k : Nat} (h : Head e b m i j) (h' : Head e b' m' j k) :
    Head e (fun t => b t ∨ m = true ∧ b' t) (m && m') i k := by
  obtain ⟨h1, h2⟩ := h
  obtain ⟨h1', h2'⟩ := h'
  refine ⟨fun hi => h1' (h1 hi), ?_⟩
  rcases h2 with ⟨rfl, h3⟩ | ⟨h2, t, h3, h4⟩
  · rcases h2' with ⟨h2', h3'⟩ | ⟨h2', t, h3', h4'⟩
    · exact .inl ⟨h2', by rw [h3, h3']; rfl⟩
    · exact .inr ⟨h2', t, h3', .inr ⟨h3, h4'⟩⟩
  · refine .inr ⟨?_, t, h3, .inl h4⟩
    rcases h2' with ⟨h2', -⟩ | ⟨h2', -⟩ <;> omega

/-- What comes next where a sentence begins. -/
theorem Head.next {b : S.I → Prop} {m : Bool} {i j : Nat} (h : Head e b m i j) {w : Option S.I → Prop}
    (hw : w (e.source j)) : Next b m w (e.source i) := by
  rcases h.2 with ⟨h1, h2⟩ | ⟨-, t, h1, h2⟩
  · exact .inr ⟨h2, h1 ▸ hw⟩
  · exact .inl ⟨t, h1, h2⟩

theorem seq_valid {items : List S.I} {i : Nat} (hi : Valid e i)
    (h : ∀ k x, items[k]? = some x → ∃ t, e.source (i + k) = some t ∧ S.eqI t x = true) :
    Valid e (i + items.length) := by
  intro j hj
  by_cases h1 : j < i
  · exact hi j h1
  · obtain ⟨t, h2, -⟩ := h (j - i) (items[j - i]'(by omega)) (List.getElem?_eq_getElem _)
    rw [show i + (j - i) = j from by omega] at h2
    rw [h2]; rfl

section

variable {ν : Bool → N.K → Bool} {φ : N.K → S.I → Prop}

/-- The part of `Predictive` that is about how sentences begin. -/
structure Tables (D : Defs S N) (ν : Bool → N.K → Bool) (φ : N.K → S.I → Prop) : Prop where
  nullable : Nullable D ν
  begins : ∀ k g t, D k = some g → g.Begins ν φ t → φ k t

mutual

theorem Derives.head (H : Tables D ν φ) {ε : ErrTy S} {α : Type} {g : G S N ε α} {i j : Nat} {o : α} :
    Derives e D g i o j → Head e (g.Begins ν φ) (g.mayEmpty ν false) i j
  | .empty => .zero rfl
  | .none => .zero rfl
  | .eof _ => .zero rfl
  | .just h h' => .one h h'
  | .filter h h' => .one h h'
  | .filterMap h h' => .one h (by simp only [G.Begins, h', Option.isSome_some])
  | .seq (items := items) h => by
    refine ⟨fun hi => seq_valid hi h, ?_⟩
    cases items with
    | nil => exact .inl ⟨rfl, rfl⟩
    | cons x xs =>
      obtain ⟨t, h1, h2⟩ := h 0 x rfl
      exact .inr ⟨by simp only [List.length_cons]; omega, t, h1, x, rfl, h2⟩
  | .oneOf h h' h'' => .one h ⟨_, h', h''⟩
  | .noneOf h h' => .one h h'
  | .boxed h => (Derives.head H h).mono (fun _ h => h) (fun h => h)
  | .withError h => (Derives.head H h).mono (fun _ h => h) (fun h => h)
  | .to h => (Derives.head H h).mono (fun _ h => h) (fun h => h)
  | .some h => (Derives.head H h).mono (fun _ h => h) (fun h => h)
  | .map (f := _) (o := _) h => (Derives.head H h).mono (fun _ h => h) (fun h => h)
  | .mapWithSpan (f := _) (o := _) h => (Derives.head H h).mono (fun _ h => h) (fun h => h)
  | .mapErr h => (Derives.head H h).mono (fun _ h => h) (fun h => h)
  | .mapErrWithSpan h => (Derives.head H h).mono (fun _ h => h) (fun h => h)
  | .tryMap h _ => (Derives.head H h).mono (fun _ h => h) (fun h => h)
  | .then_ h h' => (Derives.head H h).seq (Derives.head H h')
  | .thenIgnore h h' => (Derives.head H h).seq (Derives.head H h')
  | .ignoreThen h h' => (Derives.head H h).seq (Derives.head H h')
  | .delimitedBy h h' h'' => ((Derives.head H h).seq ((Derives.head H h').seq (Derives.head H h''))).mono
      (fun _ h => h) (fun h => by simpa only [G.mayEmpty, Bool.and_assoc] using h)
  | .paddedBy h h' h'' => ((Derives.head H h).seq ((Derives.head H h').seq (Derives.head H h''))).mono
      (fun t h => by
        rcases h with h | ⟨h1, h | ⟨h2, h⟩⟩
        · exact .inl h
        · exact .inr ⟨h1, h⟩
        · exact .inl h)
      (fun h => by
        simp only [Bool.and_eq_true] at h
        simp only [G.mayEmpty, Bool.and_eq_true]
        exact ⟨h.1, h.2.1⟩)
  | .chain h => (DerivesAll.head H h).mono (fun _ h => h) (fun h => h)
  | .orLeft h => (Derives.head H h).mono (fun _ h => .inl h) (fun h => by simp [G.mayEmpty, h])
  | .orRight h => (Derives.head H h).mono (fun _ h => .inr h) (fun h => by simp [G.mayEmpty, h])
  | .orNotSome h => (Derives.head H h).mono (fun _ h => h) (fun _ => rfl)
  | .orNotNone => .zero rfl
  | .alters h => (DerivesOne.head H h).mono (fun _ h => h) (fun h => by simp [G.mayEmpty, h])
  | .repeated h => by
    obtain ⟨h1, h2⟩ := DerivesItems.head H h
    refine ⟨h1, ?_⟩
    rcases h2 with ⟨h2, h3⟩ | ⟨h2, t, h3, h4⟩
    · refine .inl ⟨h2, ?_⟩
      rcases h3 with h3 | h3
      · simp [G.mayEmpty, Nat.le_zero.1 h3]
      · simp [G.mayEmpty, h3]
    · refine .inr ⟨h2, t, h3, ?_⟩
      rcases h4 with h4 | ⟨-, s, h4, -⟩
      · exact h4
      · cases h4
  | .separatedBy h => by
    obtain ⟨h1, h2⟩ := DerivesItems.head H h
    refine ⟨h1, ?_⟩
    rcases h2 with ⟨h2, h3⟩ | ⟨h2, t, h3, h4⟩
    · refine .inl ⟨h2, ?_⟩
      rcases h3 with h3 | h3
      · simp [G.mayEmpty, Nat.le_zero.1 h3]
      · simp [G.mayEmpty, h3]
    · refine .inr ⟨h2, t, h3, ?_⟩
      rcases h4 with h4 | ⟨hw, s, hs, h4⟩
      · exact .inl h4
      · cases hs
        refine .inr ⟨?_, h4⟩
        rcases hw with (hw | hw) | hw
        · exact (Nat.lt_irrefl 0 hw).elim
        · exact .inl hw
        · exact .inr hw
  | .toRecover h => (Derives.head H h).mono (fun _ h => h) (fun h => by simp [G.mayEmpty, h])
  | .call hk h => (Derives.head H h).mono (fun t h => H.begins _ _ t hk h) (fun h => H.nullable _ _ _ hk h)

theorem DerivesAll.head (H : Tables D ν φ) {ε : ErrTy S} {α : Type} {gs : GL S N ε α} {i j : Nat} {os : List α} :
    DerivesAll e D gs i os j → Head e (gs.BeginsAll ν φ) (gs.allEmpty ν false) i j
  | .nil => .zero rfl
  | .cons h h' => (Derives.head H h).seq (DerivesAll.head H h')

theorem DerivesOne.head (H : Tables D ν φ) {ε : ErrTy S} {α : Type} {gs : GL S N ε α} {i j : Nat} {o : α} :
    DerivesOne e D gs i o j → Head e (gs.BeginsOne ν φ) (gs.anyEmpty ν false) i j
  | .here h => (Derives.head H h).mono (fun _ h => .inl h) (fun h => by simp [GL.anyEmpty, h])
  | .later h => (DerivesOne.head H h).mono (fun _ h => .inr h) (fun h => by simp [GL.anyEmpty, h])

theorem DerivesItems.head (H : Tables D ν φ) {ε : ErrTy S} {α β : Type} {c : RepCfg} {g : G S N ε α}
    {sep : Option (G S N ε β)} {k i j : Nat} {os : List α} : DerivesItems e D c g sep k i os j →
    (Valid e i → Valid e j) ∧ (j = i ∧ (c.minimum ≤ k ∨ g.mayEmpty ν false = true) ∨
      i < j ∧ ∃ t, e.source i = some t ∧ (g.Begins ν φ t ∨ (c.WantsSep k ∨ g.mayEmpty ν false = true) ∧
        ∃ s, sep = some s ∧ s.Begins ν φ t))
  | .stop h => ⟨id, .inl ⟨rfl, .inl h⟩⟩
  | .trailing hk _ hw h => by
    obtain ⟨h1, h2⟩ := Derives.head H h
    refine ⟨h1, ?_⟩
    rcases h2 with ⟨h2, -⟩ | ⟨h2, t, h3, h4⟩
    · exact .inl ⟨h2, .inl hk⟩
    · exact .inr ⟨h2, t, h3, .inr ⟨.inl hw, _, rfl, h4⟩⟩
  | .plain _ h h' => by
    obtain ⟨h1, h2⟩ := Derives.head H h
    obtain ⟨h1', h2'⟩ := DerivesItems.head H h'
    refine ⟨fun hi => h1' (h1 hi), ?_⟩
    rcases h2 with ⟨rfl, hm⟩ | ⟨h2, t, h3, h4⟩
    · rcases h2' with ⟨rfl, -⟩ | ⟨h2', t, h3, h4⟩
      · exact .inl ⟨rfl, .inr hm⟩
      · refine .inr ⟨h2', t, h3, ?_⟩
        rcases h4 with h4 | ⟨-, h4⟩
        · exact .inl h4
        · exact .inr ⟨.inr hm, h4⟩
    · refine .inr ⟨?_, t, h3, .inl h4⟩
      rcases h2' with ⟨h2', -⟩ | ⟨h2', -⟩ <;> omega
  | .first _ h h' => by
    obtain ⟨h1, h2⟩ := Derives.head H h
    obtain ⟨h1', h2'⟩ := DerivesItems.head H h'
    refine ⟨fun hi => h1' (h1 hi), ?_⟩
    rcases h2 with ⟨rfl, hm⟩ | ⟨h2, t, h3, h4⟩
    · rcases h2' with ⟨rfl, -⟩ | ⟨h2', t, h3, h4⟩
      · exact .inl ⟨rfl, .inr hm⟩
      · refine .inr ⟨h2', t, h3, ?_⟩
        rcases h4 with h4 | ⟨-, h4⟩
        · exact .inl h4
        · exact .inr ⟨.inr hm, h4⟩
    · refine .inr ⟨?_, t, h3, .inl h4⟩
      rcases h2' with ⟨h2', -⟩ | ⟨h2', -⟩ <;> omega
  | .separated _ hw hs h h' => by
    obtain ⟨h0, h0'⟩ := Derives.head H hs
    obtain ⟨h1, h2⟩ := Derives.head H h
    obtain ⟨h1', h2'⟩ := DerivesItems.head H h'
    refine ⟨fun hi => h1' (h1 (h0 hi)), ?_⟩
    rcases h0' with ⟨rfl, -⟩ | ⟨h0', t, h3, h4⟩
    · rcases h2 with ⟨rfl, hm⟩ | ⟨h2, t, h3, h4⟩
      · rcases h2' with ⟨rfl, -⟩ | ⟨h2', t, h3, h4⟩
        · exact .inl ⟨rfl, .inr hm⟩
        · refine .inr ⟨h2', t, h3, ?_⟩
          rcases h4 with h4 | ⟨-, h4⟩
          · exact .inl h4
          · exact .inr ⟨.inr hm, h4⟩
      · refine .inr ⟨?_, t, h3, .inl h4⟩
        rcases h2' with ⟨h2', -⟩ | ⟨h2', -⟩ <;> omega
    · refine .inr ⟨?_, t, h3, .inr ⟨.inl hw, _, rfl, h4⟩⟩
      rcases h2 with ⟨h2, -⟩ | ⟨h2, -⟩ <;> rcases h2' with ⟨h2', -⟩ | ⟨h2', -⟩ <;> omega

end

/-! ## Every parse ends in acceptance or rejection -/

theorem plain_calm {ε : ErrTy S} {α : Type} {g : G S N ε α} (h : g.All (plainL S N)) : g.All (calmOffL S N) := by
  refine G.All.imp ?_ ?_ g h
  · intro ε α g hg
    cases g with
    | tryMap f g => exact fun a sp => ⟨hg.1 a sp, fun o => hg.2 a sp o⟩
    | alters gs =>
      obtain ⟨⟨a, b, cs, rfl⟩, -⟩ := hg
      simp only [calmOffL, G.CalmOff, GL.length]
      omega
    | _ => trivial
  · intro _ _ _ _; trivial

theorem decides {L : Nat} (hL : e.source L = none) (hD : D.Plain) (hDp : D.All (progressL S N ν))
    (hν : Nullable D ν) (hlr : NoLeftRecursion D ν) (hd : ∀ k, (D k).isSome = true)
    {ε : ErrTy S} {α : Type} {g : G S N ε α} (hg : g.All (plainL S N)) (hgp : g.All (progressL S N ν)) {i : Nat}
    (hi : Valid e i) : (∃ o j, Accepts e D g i o j) ∨ Rejects e D g i := by
  rcases C35_terminates (en := false) hL hν hlr hDp hgp hi with ⟨r, j, h⟩ | ⟨msg, n, h⟩
  · cases r with
    | success o => exact .inl ⟨o, j, (C34_accepts hD hg hi).1 h⟩
    | recovered o es => exact (C34_no_recovery hD hg hi h).elim
    | failed x es => exact .inr ((C34_rejects hD hg hi).1 ⟨x, es, j, h⟩)
  · obtain ⟨s, h1, h2⟩ := hi.exists_stream rustAlloc
    exact (C17_disabled_never_panics h1 (fun k d hk => plain_calm (hD k d hk).1) hd (plain_calm hg) msg
      (h rustAlloc s h1 h2)).elim

/-! ## Sentences of predictive grammars are accepted -/

variable {F : N.K → Option S.I → Prop} {L : Nat}

theorem Predictive.tables (H : Predictive ν φ F D) : Tables D ν φ := ⟨H.nullable, H.begins⟩

/-- A parser whose sentences do not begin with the next token fails. -/
theorem rejects_of (H : Predictive ν φ F D) (hL : e.source L = none) {ε : ErrTy S} {α : Type} {g : G S N ε α}
    (hg : g.All (plainL S N)) (hgp : g.All (progressL S N ν)) {w : Option S.I → Prop}
    (hm : g.mayEmpty ν false = false) (ha : Apart (g.Begins ν φ) w) {i : Nat} (hi : Valid e i)
    (hw : w (e.source i)) : Rejects e D g i := by
  rcases decides hL H.plain H.progress H.nullable H.noLeft H.defined hg hgp hi with ⟨o, j, h⟩ | h
  · rcases (Derives.head H.tables (Accepts.derives H.plain hg h)).2 with ⟨-, h1⟩ | ⟨-, t, h1, h2⟩
    · rw [hm] at h1; cases h1
    · rw [h1] at hw
      exact (ha t h2 hw).elim
  · exact h

/-- The next token after an item, if the others are separated. -/
theorem items_next (H : Tables D ν φ) {ε : ErrTy S} {α β : Type} {c : RepCfg} {g : G S N ε α} {sep : G S N ε β}
    {k i j : Nat} {os : List α} {w : Option S.I → Prop} (hm : sep.mayEmpty ν false = false)
    (h : DerivesItems e D c g (some sep) (k + 1) i os j) (hw : w (e.source j)) :
    Next (sep.Begins ν φ) true w (e.source i) := by
  have key : ∀ {x : β} {j : Nat}, Derives e D sep i x j → Next (sep.Begins ν φ) true w (e.source i) := by
    intro x j h
    rcases (Derives.head H h).2 with ⟨-, h1⟩ | ⟨-, t, h1, h2⟩
    · rw [hm] at h1; cases h1
    · exact .inl ⟨t, h1, h2⟩
  cases h with
  | stop _ => exact .inr ⟨rfl, hw⟩
  | trailing _ _ _ h => exact key h
  | separated _ _ h _ _ => exact key h

/-- The conditions on repetitions in `G.Predictive`. -/
def ItemsOk (ν : Bool → N.K → Bool) (φ : N.K → S.I → Prop) (F : N.K → Option S.I → Prop) {ε : ErrTy S}
    {α β : Type} (c : RepCfg) (g : G S N ε α) (w : Option S.I → Prop) : Option (G S N ε β) → Prop
  | none => (c.maximum = some c.minimum ∨ g.mayEmpty ν false = false ∧ Apart (g.Begins ν φ) w) ∧
      g.Predictive ν φ F (Next (g.Begins ν φ) true w)
  | some sep => sep.All (plainL S N) ∧ sep.All (progressL S N ν) ∧
      g.mayEmpty ν false = false ∧ sep.mayEmpty ν false = false ∧
      Apart (g.Begins ν φ) w ∧ Apart (sep.Begins ν φ) w ∧
      (c.allowLeading = true → ∀ t, g.Begins ν φ t → ¬ sep.Begins ν φ t) ∧
      g.Predictive ν φ F (Next (sep.Begins ν φ) true w) ∧ sep.Predictive ν φ F (Next (g.Begins ν φ) true w)

mutual

theorem Derives.accepts (H : Predictive ν φ F D) (hL : e.source L = none) {ε : ErrTy S} {α : Type} {g : G S N ε α}
    {i j : Nat} {o : α} {w : Option S.I → Prop} (hg : g.All (plainL S N)) (hgp : g.All (progressL S N ν))
    (hp : g.Predictive ν φ F w) (hw : w (e.source j)) (hi : Valid e i) : Derives e D g i o j → Accepts e D g i o j
  | .empty => .empty
  | .none => .none
  | .eof h => .eof h
  | .just h h' => .just h h'
  | .filter h h' => .filter h h'
  | .filterMap h h' => .filterMap h h'
  | .seq h => .seq h
  | .oneOf h h' h'' => .oneOf h h' h''
  | .noneOf h h' => .noneOf h h'
  | .boxed h => .boxed (Derives.accepts H hL hg.2 hgp.2 hp hw hi h)
  | .withError h => .withError (Derives.accepts H hL hg.2 hgp.2 hp hw hi h)
  | .to h => .to (Derives.accepts H hL hg.2 hgp.2 hp hw hi h)
  | .some h => .some (Derives.accepts H hL hg.2 hgp.2 hp hw hi h)
  | .map (f := _) (o := _) h => .map (Derives.accepts H hL hg.2 hgp.2 hp hw hi h)
  | .mapWithSpan (f := _) (o := _) h => .mapWithSpan (Derives.accepts H hL hg.2 hgp.2 hp hw hi h)
  | .mapErr h => .mapErr (Derives.accepts H hL hg.2 hgp.2 hp hw hi h)
  | .mapErrWithSpan h => .mapErrWithSpan (Derives.accepts H hL hg.2 hgp.2 hp hw hi h)
  | .tryMap h h' => .tryMap (Derives.accepts H hL hg.2 hgp.2 hp hw hi h) h'
  | .then_ h h' => .then_
      (Derives.accepts H hL hg.2.1 hgp.2.1 hp.1 ((Derives.head H.tables h').next hw) hi h)
      (Derives.accepts H hL hg.2.2 hgp.2.2 hp.2 hw ((Derives.head H.tables h).1 hi) h')
  | .thenIgnore h h' => .thenIgnore
      (Derives.accepts H hL hg.2.1 hgp.2.1 hp.1 ((Derives.head H.tables h').next hw) hi h)
      (Derives.accepts H hL hg.2.2 hgp.2.2 hp.2 hw ((Derives.head H.tables h).1 hi) h')
  | .ignoreThen h h' => .ignoreThen
      (Derives.accepts H hL hg.2.1 hgp.2.1 hp.1 ((Derives.head H.tables h').next hw) hi h)
      (Derives.accepts H hL hg.2.2 hgp.2.2 hp.2 hw ((Derives.head H.tables h).1 hi) h')
  | .delimitedBy h h' h'' => .delimitedBy
      (Derives.accepts H hL hg.2.1 hgp.2.1 hp.1
        ((Derives.head H.tables h').next ((Derives.head H.tables h'').next hw)) hi h)
      (Derives.accepts H hL hg.2.2.1 hgp.2.2.1 hp.2.1 ((Derives.head H.tables h'').next hw)
        ((Derives.head H.tables h).1 hi) h')
      (Derives.accepts H hL hg.2.2.2 hgp.2.2.2 hp.2.2 hw
        ((Derives.head H.tables h').1 ((Derives.head H.tables h).1 hi)) h'')
  | .paddedBy h h' h'' => .paddedBy
      (Derives.accepts H hL hg.2.1 hgp.2.1 hp.1
        ((Derives.head H.tables h').next ((Derives.head H.tables h'').next hw)) hi h)
      (Derives.accepts H hL hg.2.2 hgp.2.2 hp.2.1 ((Derives.head H.tables h'').next hw)
        ((Derives.head H.tables h).1 hi) h')
      (Derives.accepts H hL hg.2.1 hgp.2.1 hp.2.2 hw
        ((Derives.head H.tables h').1 ((Derives.head H.tables h).1 hi)) h'')
  | .chain h => .chain (DerivesAll.accepts H hL hg.2 hgp.2 hp hw hi h)
  | .orLeft h => .orLeft (Derives.accepts H hL hg.2.1 hgp.2.1 hp.2.2.1 hw hi h)
  | .orRight h => .orRight
      (rejects_of H hL hg.2.1 hgp.2.1 hp.1 hp.2.1 hi ((Derives.head H.tables h).next hw))
      (Derives.accepts H hL hg.2.2 hgp.2.2 hp.2.2.2 hw hi h)
  | .orNotSome h => .orNotSome (Derives.accepts H hL hg.2 hgp.2 hp.2.2 hw hi h)
  | .orNotNone => .orNotNone (rejects_of H hL hg.2 hgp.2 hp.1 hp.2.1 hi hw)
  | .alters h => .alters (DerivesOne.accepts H hL hg.2 hgp.2 hp hw hi h)
  | .repeated h => .repeated (DerivesItems.accepts H hL hg.2 hgp.2 hp hw hi h)
  | .separatedBy h => .separatedBy (DerivesItems.accepts H hL hg.2.1 hgp.2.1 ⟨hg.2.2, hgp.2.2, hp⟩ hw hi h)
  | .toRecover h => .toRecover (Derives.accepts H hL hg.2.1 hgp.2.1 hp hw hi h)
  | .call hk h => .call hk (Derives.accepts H hL (H.plain _ _ hk).1 (H.progress _ _ hk) (H.decided _ _ hk)
      (hp _ hw) hi h)
termination_by structural h => h

theorem DerivesAll.accepts (H : Predictive ν φ F D) (hL : e.source L = none) {ε : ErrTy S} {α : Type}
    {gs : GL S N ε α} {i j : Nat} {os : List α} {w : Option S.I → Prop} (hg : gs.All (plainL S N))
    (hgp : gs.All (progressL S N ν)) (hp : gs.PredictiveAll ν φ F w) (hw : w (e.source j)) (hi : Valid e i) :
    DerivesAll e D gs i os j → AcceptsAll e D gs i os j
  | .nil => .nil
  | .cons h h' => .cons (Derives.accepts H hL hg.1 hgp.1 hp.1 ((DerivesAll.head H.tables h').next hw) hi h)
      (DerivesAll.accepts H hL hg.2 hgp.2 hp.2 hw ((Derives.head H.tables h).1 hi) h')
termination_by structural h => h

theorem DerivesOne.accepts (H : Predictive ν φ F D) (hL : e.source L = none) {ε : ErrTy S} {α : Type}
    {gs : GL S N ε α} {i j : Nat} {o : α} {w : Option S.I → Prop} (hg : gs.All (plainL S N))
    (hgp : gs.All (progressL S N ν)) (hp : gs.PredictiveOne ν φ F w) (hw : w (e.source j)) (hi : Valid e i) :
    DerivesOne e D gs i o j → AcceptsFirst e D gs i o j
  | .here (gs := gs) h => .here (Derives.accepts H hL hg.1 hgp.1 (by
      cases gs with
      | nil => exact hp
      | cons _ _ => exact hp.2.2.1) hw hi h)
  | .later (gs := gs) h => by
    have h1 := fun hp' => DerivesOne.accepts H hL hg.2 hgp.2 hp' hw hi h
    have h2 := (DerivesOne.head H.tables h).next hw
    cases gs with
    | nil => cases h
    | cons g' gs' => exact .later (rejects_of H hL hg.1 hgp.1 hp.1 hp.2.1 hi h2) (h1 hp.2.2.2)
termination_by structural h => h

theorem DerivesItems.accepts (H : Predictive ν φ F D) (hL : e.source L = none) {ε : ErrTy S} {α β : Type}
    {c : RepCfg} {g : G S N ε α} {sep : Option (G S N ε β)} {k i j : Nat} {os : List α}
    {w : Option S.I → Prop} (hg : g.All (plainL S N)) (hgp : g.All (progressL S N ν)) (hp : ItemsOk ν φ F c g w sep)
    (hw : w (e.source j)) (hi : Valid e i) : DerivesItems e D c g sep k i os j → AcceptsItems e D c g sep k i os j
  | .stop hk => by
    cases sep with
    | none =>
      by_cases hf : c.Full k
      · exact .full hf .plain
      · rcases hp.1 with hx | ⟨hm, ha⟩
        · exact (hf ⟨_, hx, hk⟩).elim
        · exact .done hf (.plain (rejects_of H hL hg hgp hm ha hi hw)) hk
    | some sep =>
      obtain ⟨hs, hsp, hm, hms, ha, has, -, -, -⟩ := hp
      have hrs := rejects_of H hL hs hsp hms has hi hw
      have hrg := rejects_of H hL hg hgp hm ha hi hw
      by_cases hf : c.Full k
      · refine .full hf ?_
        by_cases ht : c.allowTrailing = true ∧ c.WantsSep k
        · exact .absent ht.1 ht.2 hrs
        · exact .notAllowed ht
      · refine .done hf ?_ hk
        rcases Nat.eq_zero_or_pos k with rfl | h0
        · by_cases hl : c.allowLeading = true
          · exact .noLeading hl hrs hrg
          · refine .unwanted ?_ hrg
            rintro (h | h)
            · exact Nat.lt_irrefl 0 h
            · exact hl h
        · exact .noSeparator h0 hrs
  | .trailing hk ht hws h => by
    obtain ⟨hs, hsp, hm, hms, ha, has, -, -, hps⟩ := hp
    have h1 := Derives.accepts H hL hs hsp hps (.inr ⟨rfl, hw⟩) hi h
    by_cases hf : c.Full k
    · exact .full hf (.trailing ht hws h1)
    · exact .done hf (.trailing hws ht h1 (rejects_of H hL hg hgp hm ha ((Derives.head H.tables h).1 hi) hw)) hk
  | .plain (h := m) hf h h' => by
    have hn : Next (g.Begins ν φ) true w (e.source m) := by
      rcases (DerivesItems.head H.tables h').2 with ⟨h1, -⟩ | ⟨-, t, h1, h2 | ⟨-, s, h2, -⟩⟩
      · exact .inr ⟨rfl, h1 ▸ hw⟩
      · exact .inl ⟨t, h1, h2⟩
      · cases h2
    exact .another hf (.plain (Derives.accepts H hL hg hgp hp.2 hn hi h))
      (DerivesItems.accepts H hL hg hgp hp hw ((Derives.head H.tables h).1 hi) h')
  | .first hf h h' => by
    obtain ⟨hs, hsp, hm, hms, ha, has, hd, hpg, hps⟩ := hp
    have h1 := Derives.accepts H hL hg hgp hpg (items_next H.tables hms h' hw) hi h
    refine .another hf ?_ (DerivesItems.accepts H hL hg hgp ⟨hs, hsp, hm, hms, ha, has, hd, hpg, hps⟩ hw
      ((Derives.head H.tables h).1 hi) h')
    by_cases hl : c.allowLeading = true
    · refine .noLeading hl ?_ h1
      rcases (Derives.head H.tables h).2 with ⟨-, h2⟩ | ⟨-, t, h2, h3⟩
      · rw [hm] at h2; cases h2
      · refine rejects_of (w := fun x => ∃ t, x = some t ∧ g.Begins ν φ t) H hL hs hsp hms ?_ hi ⟨t, h2, h3⟩
        rintro t ht ⟨t', h4, h5⟩
        cases h4
        exact hd hl t h5 ht
    · refine .unwanted ?_ h1
      rintro (h | h)
      · exact Nat.lt_irrefl 0 h
      · exact hl h
  | .separated (i' := m) hf hws h0 h h' => by
    obtain ⟨hs, hsp, hm, hms, ha, has, hd, hpg, hps⟩ := hp
    have hi' := (Derives.head H.tables h0).1 hi
    have h1 := Derives.accepts H hL hg hgp hpg (items_next H.tables hms h' hw) hi' h
    have hn : Next (g.Begins ν φ) true w (e.source m) := by
      rcases (Derives.head H.tables h).2 with ⟨-, h2⟩ | ⟨-, t, h2, h3⟩
      · rw [hm] at h2; cases h2
      · exact .inl ⟨t, h2, h3⟩
    exact .another hf (.separated hws (Derives.accepts H hL hs hsp hps hn hi h0) h1)
      (DerivesItems.accepts H hL hg hgp ⟨hs, hsp, hm, hms, ha, has, hd, hpg, hps⟩ hw
        ((Derives.head H.tables h).1 hi') h')
termination_by structural h => h

end

end

end PPC.Cfg
