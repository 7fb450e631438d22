import Verif.Grammar

/-!
# Grammars without their recovery (specification of C67)
-/

namespace PPC

variable {S : Sig} {N : Names S}

mutual

/-- The parser with every `to_recover` taken out: `p.to_recover(strategy)` is replaced by `p`. -/
def G.withoutRecovery : {ε : ErrTy S} → {α : Type} → G S N ε α → G S N ε α
  | _, _, .empty => .empty
  | _, _, .none α => .none α
  | _, _, .eof => .eof
  | _, _, .just t => .just t
  | _, _, .filter p => .filter p
  | _, _, .filterMap f => .filterMap f
  | _, _, .seq v items => .seq v items
  | _, _, .oneOf items => .oneOf items
  | _, _, .noneOf items => .noneOf items
  | _, _, .boxed g => .boxed g.withoutRecovery
  | _, _, .withError g => .withError g.withoutRecovery
  | _, _, .to g v => .to g.withoutRecovery v
  | _, _, .some g => .some g.withoutRecovery
  | _, _, .map f g => .map f g.withoutRecovery
  | _, _, .mapWithSpan f g => .mapWithSpan f g.withoutRecovery
  | _, _, .mapErr f g => .mapErr f g.withoutRecovery
  | _, _, .mapErrWithSpan f g => .mapErrWithSpan f g.withoutRecovery
  | _, _, .tryMap f g => .tryMap f g.withoutRecovery
  | _, _, .then_ a b => .then_ a.withoutRecovery b.withoutRecovery
  | _, _, .thenIgnore a b => .thenIgnore a.withoutRecovery b.withoutRecovery
  | _, _, .ignoreThen a b => .ignoreThen a.withoutRecovery b.withoutRecovery
  | _, _, .delimitedBy l m r => .delimitedBy l.withoutRecovery m.withoutRecovery r.withoutRecovery
  | _, _, .paddedBy p m => .paddedBy p.withoutRecovery m.withoutRecovery
  | _, _, .chain gs => .chain gs.withoutRecovery
  | _, _, .or a b => .or a.withoutRecovery b.withoutRecovery
  | _, _, .orNot g => .orNot g.withoutRecovery
  | _, _, .alters gs => .alters gs.withoutRecovery
  | _, _, .repeated cfg item => .repeated cfg item.withoutRecovery
  | _, _, .separatedBy cfg item sep => .separatedBy cfg item.withoutRecovery sep.withoutRecovery
  | _, _, .toRecover g _ => g.withoutRecovery
  | _, _, .call k => .call k

/-- The same for lists of parsers. -/
def GL.withoutRecovery : {ε : ErrTy S} → {α : Type} → GL S N ε α → GL S N ε α
  | _, _, .nil => .nil
  | _, _, .cons g gs => .cons g.withoutRecovery gs.withoutRecovery

end

/-- The same for the definitions of the recursive parsers. -/
def Defs.withoutRecovery (D : Defs S N) : Defs S N := fun k => (D k).map G.withoutRecovery

end PPC
