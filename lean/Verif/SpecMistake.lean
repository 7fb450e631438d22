import Verif.SpecCfg
import Verif.SpecReport

/-!
# Beginnings of sentences (specification of C65)

An input contains a mistake at the first token with which it is no longer the beginning of a sentence.
-/

namespace PPC.Cfg

variable {S : Sig} {N : Names S}

/-- The environment of a list of tokens. -/
abbrev onList (start : S.L) (xs : List S.I) : Env S := ⟨fun i => xs[i]?, start⟩

/-- `xs` is a sentence of the grammar. -/
def Sentence (start : S.L) (D : Defs S N) {ε : ErrTy S} {α : Type} (g : G S N ε α) (xs : List S.I) : Prop :=
  ∃ o, Derives (onList start xs) D g 0 o xs.length

/-- The tokens `ps` are the beginning of a sentence. -/
def Begun (start : S.L) (D : Defs S N) {ε : ErrTy S} {α : Type} (g : G S N ε α) (ps : List S.I) : Prop :=
  ∃ qs, Sentence start D g (ps ++ qs)

/-- There is something to derive from the grammar after any tokens. -/
def HasSentence (D : Defs S N) {ε : ErrTy S} {α : Type} (g : G S N ε α) : Prop :=
  ∀ start ps, ∃ qs o, Derives (onList start (ps ++ qs)) D g ps.length o (ps ++ qs).length

/-- The conditions on a single parser under which there are sentences: there are tokens for it, and
the recursive parser it stands for has sentences. The end of the input is not expected, so that every
sentence can be followed by something. -/
def _root_.PPC.G.Fruitful (D : Defs S N) : {ε : ErrTy S} → {α : Type} → G S N ε α → Prop
  | _, _, .eof => False
  | _, _, .just x => ∃ t, S.eqI t x = true
  | _, _, .filter p => ∃ t, p t = true
  | _, _, .filterMap f => ∃ t o, f t = Option.some o
  | _, _, .seq _ items => ∀ x ∈ items, ∃ t, S.eqI t x = true
  | _, _, .oneOf items => ∃ t x, x ∈ items ∧ S.eqI t x = true
  | _, _, .noneOf items => ∃ t, ∀ x ∈ items, S.eqI t x = false
  | _, _, .call k => HasSentence D (.call k)
  | _, _, _ => True

/-- No part of the grammar is useless. -/
def fruitfulL (D : Defs S N) : Local S N where
  g := G.Fruitful D
  s := fun _ => True

end PPC.Cfg
