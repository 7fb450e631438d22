import Verif.Grammar

/-!
# Replacing parsers inside parsers (specification for C50)

One rule to replace a parser, and one rule per constructor to go down into its parts.
-/

namespace PPC

variable {S : Sig} {N : Names S}

mutual

/-- `b` is the parser `a`, with some parsers in it (anywhere, at any depth, also in the strategies)
replaced by others; `B x y` says that `x` may be replaced by `y`. -/
inductive G.Replaced (B : (ε : ErrTy S) → (α : Type) → G S N ε α → G S N ε α → Prop) :
    {ε : ErrTy S} → {α : Type} → G S N ε α → G S N ε α → Prop where
  | here {ε : ErrTy S} {α : Type} {a b : G S N ε α} : B ε α a b → G.Replaced B a b
  | empty {ε : ErrTy S} : G.Replaced B (.empty : G S N ε Unit) .empty
  | none {ε : ErrTy S} {α : Type} : G.Replaced B ((.none α) : G S N ε (Option α)) (.none α)
  | eof {ε : ErrTy S} : G.Replaced B (.eof : G S N ε Unit) .eof
  | just {ε : ErrTy S} {t : S.I} : G.Replaced B ((.just t) : G S N ε S.I) (.just t)
  | filter {ε : ErrTy S} {p : S.I → Bool} : G.Replaced B ((.filter p) : G S N ε S.I) (.filter p)
  | filterMap {ε : ErrTy S} {α : Type} {f : S.I → Option α} :
      G.Replaced B ((.filterMap f) : G S N ε α) (.filterMap f)
  | seq {ε : ErrTy S} {α : Type} {v : α} {items : List S.I} :
      G.Replaced B ((.seq v items) : G S N ε α) (.seq v items)
  | oneOf {ε : ErrTy S} {items : List S.I} : G.Replaced B ((.oneOf items) : G S N ε S.I) (.oneOf items)
  | noneOf {ε : ErrTy S} {items : List S.I} : G.Replaced B ((.noneOf items) : G S N ε S.I) (.noneOf items)
  | boxed {ε : ErrTy S} {α : Type} {g g' : G S N ε α} : G.Replaced B g g' → G.Replaced B (.boxed g) (.boxed g')
  | withError {ε : ErrTy S} {α : Type} {g g' : G S N ε α} :
      G.Replaced B g g' → G.Replaced B (.withError g) (.withError g')
  | to {ε : ErrTy S} {α β : Type} {g g' : G S N ε α} {v : β} :
      G.Replaced B g g' → G.Replaced B (.to g v) (.to g' v)
  | some {ε : ErrTy S} {α : Type} {g g' : G S N ε α} : G.Replaced B g g' → G.Replaced B (.some g) (.some g')
  | map {ε : ErrTy S} {α β : Type} {f : α → β} {g g' : G S N ε α} :
      G.Replaced B g g' → G.Replaced B (.map f g) (.map f g')
  | mapWithSpan {ε : ErrTy S} {α β : Type} {f : α → S.Span → β} {g g' : G S N ε α} :
      G.Replaced B g g' → G.Replaced B (.mapWithSpan f g) (.mapWithSpan f g')
  | mapErr {ε : ErrTy S} {ε' : ErrTy S} {α : Type} {f : ε'.E → ε.E} {g g' : G S N ε' α} :
      G.Replaced B g g' → G.Replaced B (.mapErr f g) (.mapErr f g')
  | mapErrWithSpan {ε : ErrTy S} {ε' : ErrTy S} {α : Type} {f : ε'.E → S.Span → ε.E} {g g' : G S N ε' α} :
      G.Replaced B g g' → G.Replaced B (.mapErrWithSpan f g) (.mapErrWithSpan f g')
  | tryMap {ε : ErrTy S} {α β : Type} {f : α → S.Span → TryMapResult β ε.E} {g g' : G S N ε α} :
      G.Replaced B g g' → G.Replaced B (.tryMap f g) (.tryMap f g')
  | then_ {ε : ErrTy S} {α β : Type} {a a' : G S N ε α} {b b' : G S N ε β} :
      G.Replaced B a a' → G.Replaced B b b' → G.Replaced B (.then_ a b) (.then_ a' b')
  | thenIgnore {ε : ErrTy S} {α β : Type} {a a' : G S N ε α} {b b' : G S N ε β} :
      G.Replaced B a a' → G.Replaced B b b' → G.Replaced B (.thenIgnore a b) (.thenIgnore a' b')
  | ignoreThen {ε : ErrTy S} {α β : Type} {a a' : G S N ε α} {b b' : G S N ε β} :
      G.Replaced B a a' → G.Replaced B b b' → G.Replaced B (.ignoreThen a b) (.ignoreThen a' b')
  | delimitedBy {ε : ErrTy S} {α β γ : Type} {l l' : G S N ε α} {m m' : G S N ε β} {r r' : G S N ε γ} :
      G.Replaced B l l' → G.Replaced B m m' → G.Replaced B r r' → G.Replaced B (.delimitedBy l m r) (.delimitedBy l' m' r')
  | paddedBy {ε : ErrTy S} {α β : Type} {p p' : G S N ε α} {m m' : G S N ε β} :
      G.Replaced B p p' → G.Replaced B m m' → G.Replaced B (.paddedBy p m) (.paddedBy p' m')
  | chain {ε : ErrTy S} {α : Type} {gs gs' : GL S N ε α} :
      GL.Replaced B gs gs' → G.Replaced B (.chain gs) (.chain gs')
  | or {ε : ErrTy S} {α : Type} {a a' : G S N ε α} {b b' : G S N ε α} :
      G.Replaced B a a' → G.Replaced B b b' → G.Replaced B (.or a b) (.or a' b')
  | orNot {ε : ErrTy S} {α : Type} {g g' : G S N ε α} : G.Replaced B g g' → G.Replaced B (.orNot g) (.orNot g')
  | alters {ε : ErrTy S} {α : Type} {gs gs' : GL S N ε α} :
      GL.Replaced B gs gs' → G.Replaced B (.alters gs) (.alters gs')
  | repeated {ε : ErrTy S} {α : Type} {cfg : RepCfg} {item item' : G S N ε α} :
      G.Replaced B item item' → G.Replaced B (.repeated cfg item) (.repeated cfg item')
  | separatedBy {ε : ErrTy S} {α β : Type} {cfg : RepCfg} {item item' : G S N ε α} {sep sep' : G S N ε β} :
      G.Replaced B item item' → G.Replaced B sep sep' → G.Replaced B (.separatedBy cfg item sep) (.separatedBy cfg item' sep')
  | toRecover {ε : ErrTy S} {α : Type} {g g' : G S N ε α} {st st' : CS S N ε α} :
      G.Replaced B g g' → CS.Replaced B st st' → G.Replaced B (.toRecover g st) (.toRecover g' st')
  | call {k : N.K} : G.Replaced B (.call k : G S N (N.err k) (N.out k)) (.call k)

/-- The same, for lists of parsers. -/
inductive GL.Replaced (B : (ε : ErrTy S) → (α : Type) → G S N ε α → G S N ε α → Prop) :
    {ε : ErrTy S} → {α : Type} → GL S N ε α → GL S N ε α → Prop where
  | nil {ε : ErrTy S} {α : Type} : GL.Replaced B (.nil : GL S N ε α) .nil
  | cons {ε : ErrTy S} {α : Type} {g g' : G S N ε α} {gs gs' : GL S N ε α} :
      G.Replaced B g g' → GL.Replaced B gs gs' → GL.Replaced B (.cons g gs) (.cons g' gs')

/-- The same, for incomplete strategies. -/
inductive IS.Replaced (B : (ε : ErrTy S) → (α : Type) → G S N ε α → G S N ε α → Prop) :
    {ε : ErrTy S} → {α : Type} → IS S N ε α → IS S N ε α → Prop where
  | attemptTo {ε : ErrTy S} {α : Type} : IS.Replaced B (.attemptTo : IS S N ε α) .attemptTo
  | restart {ε : ErrTy S} {α : Type} {s s' : IS S N ε α} :
      IS.Replaced B s s' → IS.Replaced B (.restart s) (.restart s')
  | seekToFailed {ε : ErrTy S} {α : Type} {s s' : IS S N ε α} :
      IS.Replaced B s s' → IS.Replaced B (.seekToFailed s) (.seekToFailed s')
  | skip {ε : ErrTy S} {α : Type} {s s' : IS S N ε α} : IS.Replaced B s s' → IS.Replaced B (.skip s) (.skip s')
  | skipIf {ε : ErrTy S} {α : Type} {s s' : IS S N ε α} {p : S.I → Bool} :
      IS.Replaced B s s' → IS.Replaced B (.skipIf s p) (.skipIf s' p)
  | find {ε : ErrTy S} {α : Type} {s s' : IS S N ε α} {p : S.I → Bool} :
      IS.Replaced B s s' → IS.Replaced B (.find s p) (.find s' p)
  | scan {ε : ErrTy S} {α : Type} {s s' : IS S N ε α} {sc : Scanner S ε.E} :
      IS.Replaced B s s' → IS.Replaced B (.scan s sc) (.scan s' sc)
  | maybe {ε : ErrTy S} {α : Type} {s s' : IS S N ε α} {t t' : IS S N ε α} :
      IS.Replaced B s s' → IS.Replaced B t t' → IS.Replaced B (.maybe s t) (.maybe s' t')
  | whileNot {ε : ErrTy S} {α : Type} {s s' : IS S N ε α} {p : S.I → Bool} {t t' : IS S N ε α} :
      IS.Replaced B s s' → IS.Replaced B t t' → IS.Replaced B (.whileNot s p t) (.whileNot s' p t')
  | retry {ε : ErrTy S} {α : Type} {s s' : IS S N ε α} {ex : Bool} {si : Bool} :
      IS.Replaced B s s' → IS.Replaced B (.retry s ex si) (.retry s' ex si)
  | tryToParse {ε : ErrTy S} {α : Type} {s s' : IS S N ε α} {g g' : G S N ε α} {ex : Bool} {si : Bool} :
      IS.Replaced B s s' → G.Replaced B g g' → IS.Replaced B (.tryToParse s g ex si) (.tryToParse s' g' ex si)
  | pushError {ε : ErrTy S} {α : Type} {s s' : IS S N ε α} {f : Unit → ε.E} :
      IS.Replaced B s s' → IS.Replaced B (.pushError s f) (.pushError s' f)
  | pushErrorHere {ε : ErrTy S} {α : Type} {s s' : IS S N ε α} {f : S.Loc → ε.E} :
      IS.Replaced B s s' → IS.Replaced B (.pushErrorHere s f) (.pushErrorHere s' f)
  | pushErrorUpToHere {ε : ErrTy S} {α : Type} {s s' : IS S N ε α} {f : S.Span → ε.E} :
      IS.Replaced B s s' → IS.Replaced B (.pushErrorUpToHere s f) (.pushErrorUpToHere s' f)
  | pushErrorForToken {ε : ErrTy S} {α : Type} {s s' : IS S N ε α} {f : Option S.I → S.Span → ε.E} :
      IS.Replaced B s s' → IS.Replaced B (.pushErrorForToken s f) (.pushErrorForToken s' f)
  | updateErrors {ε : ErrTy S} {α : Type} {s s' : IS S N ε α} {f : List ε.E → List ε.E} :
      IS.Replaced B s s' → IS.Replaced B (.updateErrors s f) (.updateErrors s' f)
  | updateErrorsHere {ε : ErrTy S} {α : Type} {s s' : IS S N ε α} {f : List ε.E → S.Loc → List ε.E} :
      IS.Replaced B s s' → IS.Replaced B (.updateErrorsHere s f) (.updateErrorsHere s' f)
  | updateErrorsUpToHere {ε : ErrTy S} {α : Type} {s s' : IS S N ε α} {f : List ε.E → S.Span → List ε.E} :
      IS.Replaced B s s' → IS.Replaced B (.updateErrorsUpToHere s f) (.updateErrorsUpToHere s' f)
  | updateErrorsForToken {ε : ErrTy S} {α : Type} {s s' : IS S N ε α} {f : List ε.E → Option S.I → S.Span → List ε.E} :
      IS.Replaced B s s' → IS.Replaced B (.updateErrorsForToken s f) (.updateErrorsForToken s' f)
  | boxed {ε : ErrTy S} {α : Type} {s s' : IS S N ε α} :
      IS.Replaced B s s' → IS.Replaced B (.boxed s) (.boxed s')

/-- The same, for strategies. -/
inductive CS.Replaced (B : (ε : ErrTy S) → (α : Type) → G S N ε α → G S N ε α → Prop) :
    {ε : ErrTy S} → {α : Type} → CS S N ε α → CS S N ε α → Prop where
  | ret {ε : ErrTy S} {α : Type} {s s' : IS S N ε α} {o : α} :
      IS.Replaced B s s' → CS.Replaced B (.ret s o) (.ret s' o)
  | retWith {ε : ErrTy S} {α : Type} {s s' : IS S N ε α} {o : Unit → α} :
      IS.Replaced B s s' → CS.Replaced B (.retWith s o) (.retWith s' o)
  | retWithSpan {ε : ErrTy S} {α : Type} {s s' : IS S N ε α} {f : S.Span → α} :
      IS.Replaced B s s' → CS.Replaced B (.retWithSpan s f) (.retWithSpan s' f)
  | orFail {ε : ErrTy S} {α : Type} {s s' : IS S N ε α} :
      IS.Replaced B s s' → CS.Replaced B (.orFail s) (.orFail s')

end

end PPC
