import Verif.Conditions

/-!
# Recovery in sequences

The condition of C60: recovery is used only where a sequence continues after it.
-/

namespace PPC

variable {S : Sig} {N : Names S}

/-- A scanner that keeps the errors it is given and only appends to them. -/
def Scanner.Appends {E : Type} (sc : Scanner S E) : Prop :=
  (∀ t sp st es b st' es', sc.scan t sp st es = .ok (b, st', es') → es <+: es') ∧
  ∀ l st es, es <+: sc.eof l st es

/-- A strategy step that keeps the errors it is given and only appends to them. -/
def IS.Appends : {ε : ErrTy S} → {α : Type} → IS S N ε α → Prop
  | _, _, .scan _ sc => sc.Appends
  | _, _, .updateErrors _ f => ∀ es, es <+: f es
  | _, _, .updateErrorsHere _ f => ∀ es l, es <+: f es l
  | _, _, .updateErrorsUpToHere _ f => ∀ es sp, es <+: f es sp
  | _, _, .updateErrorsForToken _ f => ∀ es t sp, es <+: f es t sp
  | _, _, _ => True

/-- Parsers that recover are not used as alternatives of a choice, as items or separators of a
repetition, in a parser that is made to recover itself, nor under `try_map` and
`map_err_with_span`. -/
def G.InSequence (F : N.K → Prop) : {ε : ErrTy S} → {α : Type} → G S N ε α → Prop
  | _, _, .or a b => a.All (noRecL F) ∧ b.All (noRecL F)
  | _, _, .orNot g => g.All (noRecL F)
  | _, _, .alters gs => gs.All (noRecL F)
  | _, _, .repeated _ g => g.All (noRecL F)
  | _, _, .separatedBy _ g s => g.All (noRecL F) ∧ s.All (noRecL F)
  | _, _, .toRecover g _ => g.All (noRecL F)
  | _, _, .tryMap _ g => g.All (noRecL F)
  | _, _, .mapErrWithSpan _ g => g.All (noRecL F)
  | _, _, _ => True

/-- Recovery is only used in sequences, and strategies only append errors. -/
def inSeqL (F : N.K → Prop) : Local S N where
  g := G.InSequence F
  s := IS.Appends

end PPC
