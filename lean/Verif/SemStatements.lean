import Verif.PropsPhrases
import Verif.PropsRecovery

/-!
# Sentences without a given token: lemmas for C68
-/

namespace PPC.Cfg

open PPC

variable {S : Sig} {N : Names S} {e : Env S} {D : Defs S N} {q : S.I}

/-! ## A condition on grammars -/

/-- No part of the parser accepts a token that is equal to `q`. -/
def _root_.PPC.G.Avoids (q : S.I) : {ε : ErrTy S} → {α : Type} → G S N ε α → Prop
  | _, _, .just x => ∀ t, S.eqI t q = true → S.eqI t x = false
  | _, _, .filter p => ∀ t, S.eqI t q = true → p t = false
  | _, _, .filterMap f => ∀ t, S.eqI t q = true → f t = none
  | _, _, .seq _ items => ∀ x, x ∈ items → ∀ t, S.eqI t q = true → S.eqI t x = false
  | _, _, .oneOf items => ∀ x, x ∈ items → ∀ t, S.eqI t q = true → S.eqI t x = false
  | _, _, .noneOf items => ∀ t, S.eqI t q = true → ∃ x, x ∈ items ∧ S.eqI t x = true
  | _, _, _ => True

/-- `G.Avoids` for all parsers. -/
def avoidsL (S : Sig) (N : Names S) (q : S.I) : Local S N where
  g := G.Avoids q
  s := fun _ => True

/-! ## It excludes the token from all sentences -/

/-- All tokens from `i` up to `j` are there and none of them is equal to `q`. -/
def Clear (e : Env S) (q : S.I) (i j : Nat) : Prop :=
  i ≤ j ∧ ∀ a, i ≤ a → a < j → e.HoldsNot (fun t => S.eqI t q) a

theorem Clear.refl {i : Nat} : Clear e q i i := ⟨Nat.le_refl _, fun a h h' => by omega⟩

theorem Clear.token {i : Nat} {t : S.I} (h : e.source i = some t) (hp : S.eqI t q = true → False) :
    Clear e q i (i + 1) :=
  ⟨Nat.le_succ _, fun a h1 h2 => (show a = i by omega) ▸ ⟨t, h, by simpa using hp⟩⟩

theorem Clear.seq {i j k : Nat} (h : Clear e q i j) (h' : Clear e q j k) : Clear e q i k :=
  ⟨Nat.le_trans h.1 h'.1, fun a h1 h2 => if h3 : a < j then h.2 a h1 h3 else h'.2 a (by omega) h2⟩

mutual

theorem Derives.avoids (hD : D.All (avoidsL S N q)) {ε : ErrTy S} {α : Type} {g : G S N ε α} {i j : Nat} {o : α}
    (hg : g.All (avoidsL S N q)) : Derives e D g i o j → Clear e q i j
  | .empty => .refl
  | .none => .refl
  | .eof _ => .refl
  | .just h h' => .token h fun h1 => by
    have h2 := (show ∀ t, S.eqI t q = true → S.eqI t _ = false from hg) _ h1
    rw [h'] at h2; cases h2
  | .filter (p := p) h h' => .token h fun h1 => by
    have h2 := (show ∀ t, S.eqI t q = true → p t = false from hg) _ h1
    rw [h'] at h2; cases h2
  | .filterMap (f := f) h h' => .token h fun h1 => by
    have h2 := (show ∀ t, S.eqI t q = true → f t = Option.none from hg) _ h1
    rw [h'] at h2; cases h2
  | .seq (items := items) h => by
    refine ⟨Nat.le_add_right _ _, fun a h1 h2 => ?_⟩
    have h3 : a - i < items.length := by omega
    obtain ⟨t, h4, h5⟩ := h (a - i) items[a - i] (List.getElem?_eq_getElem h3)
    rw [show i + (a - i) = a by omega] at h4
    refine ⟨t, h4, ?_⟩
    cases h6 : S.eqI t q with
    | false => exact h6
    | true =>
      have h7 := (show ∀ x, x ∈ items → ∀ t, S.eqI t q = true → S.eqI t x = false from hg) _
        (List.getElem_mem h3) _ h6
      rw [h5] at h7; cases h7
  | .oneOf (items := items) h h' h'' => .token h fun h1 => by
    have h2 := (show ∀ x, x ∈ items → ∀ t, S.eqI t q = true → S.eqI t x = false from hg) _ h' _ h1
    rw [h''] at h2; cases h2
  | .noneOf (items := items) h h' => .token h fun h1 => by
    obtain ⟨x, h2, h3⟩ := (show ∀ t, S.eqI t q = true → ∃ x, x ∈ items ∧ S.eqI t x = true from hg) _ h1
    rw [h' _ h2] at h3; cases h3
  | .boxed h => Derives.avoids hD hg.2 h
  | .withError h => Derives.avoids hD hg.2 h
  | .to h => Derives.avoids hD hg.2 h
  | .some h => Derives.avoids hD hg.2 h
  | .map (f := _) (o := _) h => Derives.avoids hD hg.2 h
  | .mapWithSpan (f := _) (o := _) h => Derives.avoids hD hg.2 h
  | .mapErr h => Derives.avoids hD hg.2 h
  | .mapErrWithSpan h => Derives.avoids hD hg.2 h
  | .tryMap h _ => Derives.avoids hD hg.2 h
  | .then_ h h' => (Derives.avoids hD hg.2.1 h).seq (Derives.avoids hD hg.2.2 h')
  | .thenIgnore h h' => (Derives.avoids hD hg.2.1 h).seq (Derives.avoids hD hg.2.2 h')
  | .ignoreThen h h' => (Derives.avoids hD hg.2.1 h).seq (Derives.avoids hD hg.2.2 h')
  | .delimitedBy h h' h'' => ((Derives.avoids hD hg.2.1 h).seq (Derives.avoids hD hg.2.2.1 h')).seq
      (Derives.avoids hD hg.2.2.2 h'')
  | .paddedBy h h' h'' => ((Derives.avoids hD hg.2.1 h).seq (Derives.avoids hD hg.2.2 h')).seq
      (Derives.avoids hD hg.2.1 h'')
  | .chain h => DerivesAll.avoids hD hg.2 h
  | .orLeft h => Derives.avoids hD hg.2.1 h
  | .orRight h => Derives.avoids hD hg.2.2 h
  | .orNotSome h => Derives.avoids hD hg.2 h
  | .orNotNone => .refl
  | .alters h => DerivesOne.avoids hD hg.2 h
  | .repeated h => DerivesItems.avoids hD hg.2 (fun _ h => by cases h) h
  | .separatedBy h => DerivesItems.avoids hD hg.2.1 (fun _ h => by cases h; exact hg.2.2) h
  | .toRecover h => Derives.avoids hD hg.2.1 h
  | .call hk h => Derives.avoids hD (hD _ _ hk) h

theorem DerivesAll.avoids (hD : D.All (avoidsL S N q)) {ε : ErrTy S} {α : Type} {gs : GL S N ε α} {i j : Nat}
    {os : List α} (hg : gs.All (avoidsL S N q)) : DerivesAll e D gs i os j → Clear e q i j
  | .nil => .refl
  | .cons h h' => (Derives.avoids hD hg.1 h).seq (DerivesAll.avoids hD hg.2 h')

theorem DerivesOne.avoids (hD : D.All (avoidsL S N q)) {ε : ErrTy S} {α : Type} {gs : GL S N ε α} {i j : Nat}
    {o : α} (hg : gs.All (avoidsL S N q)) : DerivesOne e D gs i o j → Clear e q i j
  | .here h => Derives.avoids hD hg.1 h
  | .later h => DerivesOne.avoids hD hg.2 h

theorem DerivesItems.avoids (hD : D.All (avoidsL S N q)) {ε : ErrTy S} {α β : Type} {c : RepCfg} {g : G S N ε α}
    {sep : Option (G S N ε β)} {k i j : Nat} {os : List α} (hg : g.All (avoidsL S N q))
    (hs : ∀ s, sep = some s → s.All (avoidsL S N q)) :
    DerivesItems e D c g sep k i os j → Clear e q i j
  | .stop _ => .refl
  | .trailing _ _ _ h => Derives.avoids hD (hs _ rfl) h
  | .plain _ h h' => (Derives.avoids hD hg h).seq (DerivesItems.avoids hD hg hs h')
  | .first _ h h' => (Derives.avoids hD hg h).seq (DerivesItems.avoids hD hg hs h')
  | .separated _ _ h h' h'' => ((Derives.avoids hD (hs _ rfl) h).seq (Derives.avoids hD hg h')).seq
      (DerivesItems.avoids hD hg hs h'')

end

end PPC.Cfg
