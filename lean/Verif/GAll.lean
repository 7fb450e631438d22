import Verif.Grammar

/-!
# Conditions on every part of a grammar

`G.All L g`: the local condition `L` holds of `g` and of every parser and strategy inside
it (not through calls of recursive parsers; `Defs.All` covers those).
-/

namespace PPC

/-- A condition on single parsers and strategies. -/
structure Local (S : Sig) (N : Names S) : Type 1 where
  g : {ε : ErrTy S} → {α : Type} → G S N ε α → Prop
  s : {ε : ErrTy S} → {α : Type} → IS S N ε α → Prop

variable {S : Sig} {N : Names S}

mutual

/-- `L` holds of all parts of a parser. -/
def G.All (L : Local S N) : {ε : ErrTy S} → {α : Type} → G S N ε α → Prop
  | ε, _, .empty => L.g (ε := ε) (.empty)
  | ε, _, .none α => L.g (ε := ε) (.none α)
  | ε, _, .eof => L.g (ε := ε) (.eof)
  | ε, _, .just t => L.g (ε := ε) (.just t)
  | ε, _, .filter p => L.g (ε := ε) (.filter p)
  | ε, _, .filterMap f => L.g (ε := ε) (.filterMap f)
  | ε, _, .seq v xs => L.g (ε := ε) (.seq v xs)
  | ε, _, .oneOf xs => L.g (ε := ε) (.oneOf xs)
  | ε, _, .noneOf xs => L.g (ε := ε) (.noneOf xs)
  | ε, _, .boxed g => L.g (ε := ε) (.boxed g) ∧ g.All L
  | ε, _, .withError g => L.g (ε := ε) (.withError g) ∧ g.All L
  | ε, _, .to g v => L.g (ε := ε) (.to g v) ∧ g.All L
  | ε, _, .some g => L.g (ε := ε) (.some g) ∧ g.All L
  | ε, _, .map f g => L.g (ε := ε) (.map f g) ∧ g.All L
  | ε, _, .mapWithSpan f g => L.g (ε := ε) (.mapWithSpan f g) ∧ g.All L
  | ε, _, .mapErr f g => L.g (ε := ε) (.mapErr f g) ∧ g.All L
  | ε, _, .mapErrWithSpan f g => L.g (ε := ε) (.mapErrWithSpan f g) ∧ g.All L
  | ε, _, .tryMap f g => L.g (ε := ε) (.tryMap f g) ∧ g.All L
  | ε, _, .then_ a b => L.g (ε := ε) (.then_ a b) ∧ a.All L ∧ b.All L
  | ε, _, .thenIgnore a b => L.g (ε := ε) (.thenIgnore a b) ∧ a.All L ∧ b.All L
  | ε, _, .ignoreThen a b => L.g (ε := ε) (.ignoreThen a b) ∧ a.All L ∧ b.All L
  | ε, _, .delimitedBy l m r => L.g (ε := ε) (.delimitedBy l m r) ∧ l.All L ∧ m.All L ∧ r.All L
  | ε, _, .paddedBy p m => L.g (ε := ε) (.paddedBy p m) ∧ p.All L ∧ m.All L
  | ε, _, .chain gs => L.g (ε := ε) (.chain gs) ∧ gs.All L
  | ε, _, .or a b => L.g (ε := ε) (.or a b) ∧ a.All L ∧ b.All L
  | ε, _, .orNot g => L.g (ε := ε) (.orNot g) ∧ g.All L
  | ε, _, .alters gs => L.g (ε := ε) (.alters gs) ∧ gs.All L
  | ε, _, .repeated c g => L.g (ε := ε) (.repeated c g) ∧ g.All L
  | ε, _, .separatedBy c g sp => L.g (ε := ε) (.separatedBy c g sp) ∧ g.All L ∧ sp.All L
  | ε, _, .toRecover g st => L.g (ε := ε) (.toRecover g st) ∧ g.All L ∧ st.All L
  | _, _, .call k => L.g (.call k)

/-- `L` holds of all parts of a list of parsers. -/
def GL.All (L : Local S N) : {ε : ErrTy S} → {α : Type} → GL S N ε α → Prop
  | _, _, .nil => True
  | _, _, .cons g gs => g.All L ∧ gs.All L

/-- `L` holds of all parts of an incomplete strategy. -/
def IS.All (L : Local S N) : {ε : ErrTy S} → {α : Type} → IS S N ε α → Prop
  | ε, β, .attemptTo => L.s (ε := ε) (α := β) (.attemptTo)
  | ε, β, .restart s => L.s (ε := ε) (α := β) (.restart s) ∧ s.All L
  | ε, β, .seekToFailed s => L.s (ε := ε) (α := β) (.seekToFailed s) ∧ s.All L
  | ε, β, .skip s => L.s (ε := ε) (α := β) (.skip s) ∧ s.All L
  | ε, β, .skipIf s p => L.s (ε := ε) (α := β) (.skipIf s p) ∧ s.All L
  | ε, β, .find s p => L.s (ε := ε) (α := β) (.find s p) ∧ s.All L
  | ε, β, .scan s sc => L.s (ε := ε) (α := β) (.scan s sc) ∧ s.All L
  | ε, β, .maybe s t => L.s (ε := ε) (α := β) (.maybe s t) ∧ s.All L ∧ t.All L
  | ε, β, .whileNot s p t => L.s (ε := ε) (α := β) (.whileNot s p t) ∧ s.All L ∧ t.All L
  | ε, β, .retry s x y => L.s (ε := ε) (α := β) (.retry s x y) ∧ s.All L
  | ε, β, .tryToParse s g x y => L.s (ε := ε) (α := β) (.tryToParse s g x y) ∧ s.All L ∧ g.All L
  | ε, β, .pushError s f => L.s (ε := ε) (α := β) (.pushError s f) ∧ s.All L
  | ε, β, .pushErrorHere s f => L.s (ε := ε) (α := β) (.pushErrorHere s f) ∧ s.All L
  | ε, β, .pushErrorUpToHere s f => L.s (ε := ε) (α := β) (.pushErrorUpToHere s f) ∧ s.All L
  | ε, β, .pushErrorForToken s f => L.s (ε := ε) (α := β) (.pushErrorForToken s f) ∧ s.All L
  | ε, β, .updateErrors s f => L.s (ε := ε) (α := β) (.updateErrors s f) ∧ s.All L
  | ε, β, .updateErrorsHere s f => L.s (ε := ε) (α := β) (.updateErrorsHere s f) ∧ s.All L
  | ε, β, .updateErrorsUpToHere s f => L.s (ε := ε) (α := β) (.updateErrorsUpToHere s f) ∧ s.All L
  | ε, β, .updateErrorsForToken s f => L.s (ε := ε) (α := β) (.updateErrorsForToken s f) ∧ s.All L
  | ε, β, .boxed s => L.s (ε := ε) (α := β) (.boxed s) ∧ s.All L

/-- `L` holds of all parts of a complete strategy. -/
def CS.All (L : Local S N) : {ε : ErrTy S} → {α : Type} → CS S N ε α → Prop
  | _, _, .ret s o => s.All L
  | _, _, .retWith s o => s.All L
  | _, _, .retWithSpan s f => s.All L
  | _, _, .orFail s => s.All L

end

/-- `L` holds of all parts of all definitions. -/
def Defs.All (L : Local S N) (D : Defs S N) : Prop := ∀ k g, D k = some g → g.All L

section

variable {L M : Local S N}

mutual

theorem G.All.imp (hg : ∀ {ε : ErrTy S} {α : Type} (g : G S N ε α), L.g g → M.g g)
    (hs : ∀ {ε : ErrTy S} {α : Type} (s : IS S N ε α), L.s s → M.s s) :
    ∀ {ε : ErrTy S} {α : Type} (g : G S N ε α), g.All L → g.All M
  | _, _, .empty, h => by rw [G.All] at h ⊢; exact hg _ h
  | _, _, .none α, h => by rw [G.All] at h ⊢; exact hg _ h
  | _, _, .eof, h => by rw [G.All] at h ⊢; exact hg _ h
  | _, _, .just t, h => by rw [G.All] at h ⊢; exact hg _ h
  | _, _, .filter p, h => by rw [G.All] at h ⊢; exact hg _ h
  | _, _, .filterMap f, h => by rw [G.All] at h ⊢; exact hg _ h
  | _, _, .seq v xs, h => by rw [G.All] at h ⊢; exact hg _ h
  | _, _, .oneOf xs, h => by rw [G.All] at h ⊢; exact hg _ h
  | _, _, .noneOf xs, h => by rw [G.All] at h ⊢; exact hg _ h
  | _, _, .boxed g, h => by
    rw [G.All] at h ⊢
    obtain ⟨h0, h1⟩ := h
    exact ⟨hg _ h0, G.All.imp hg hs g h1⟩
  | _, _, .withError g, h => by
    rw [G.All] at h ⊢
    obtain ⟨h0, h1⟩ := h
    exact ⟨hg _ h0, G.All.imp hg hs g h1⟩
  | _, _, .to g v, h => by
    rw [G.All] at h ⊢
    obtain ⟨h0, h1⟩ := h
    exact ⟨hg _ h0, G.All.imp hg hs g h1⟩
  | _, _, .some g, h => by
    rw [G.All] at h ⊢
    obtain ⟨h0, h1⟩ := h
    exact ⟨hg _ h0, G.All.imp hg hs g h1⟩
  | _, _, .map f g, h => by
    rw [G.All] at h ⊢
    obtain ⟨h0, h1⟩ := h
    exact ⟨hg _ h0, G.All.imp hg hs g h1⟩
  | _, _, .mapWithSpan f g, h => by
    rw [G.All] at h ⊢
    obtain ⟨h0, h1⟩ := h
    exact ⟨hg _ h0, G.All.imp hg hs g h1⟩
  | _, _, .mapErr f g, h => by
    rw [G.All] at h ⊢
    obtain ⟨h0, h1⟩ := h
    exact ⟨hg _ h0, G.All.imp hg hs g h1⟩
  | _, _, .mapErrWithSpan f g, h => by
    rw [G.All] at h ⊢
    obtain ⟨h0, h1⟩ := h
    exact ⟨hg _ h0, G.All.imp hg hs g h1⟩
  | _, _, .tryMap f g, h => by
    rw [G.All] at h ⊢
    obtain ⟨h0, h1⟩ := h
    exact ⟨hg _ h0, G.All.imp hg hs g h1⟩
  | _, _, .then_ a b, h => by
    rw [G.All] at h ⊢
    obtain ⟨h0, h1, h2⟩ := h
    exact ⟨hg _ h0, G.All.imp hg hs a h1, G.All.imp hg hs b h2⟩
  | _, _, .thenIgnore a b, h => by
    rw [G.All] at h ⊢
    obtain ⟨h0, h1, h2⟩ := h
    exact ⟨hg _ h0, G.All.imp hg hs a h1, G.All.imp hg hs b h2⟩
  | _, _, .ignoreThen a b, h => by
    rw [G.All] at h ⊢
    obtain ⟨h0, h1, h2⟩ := h
    exact ⟨hg _ h0, G.All.imp hg hs a h1, G.All.imp hg hs b h2⟩
  | _, _, .delimitedBy l m r, h => by
    rw [G.All] at h ⊢
    obtain ⟨h0, h1, h2, h3⟩ := h
    exact ⟨hg _ h0, G.All.imp hg hs l h1, G.All.imp hg hs m h2, G.All.imp hg hs r h3⟩
  | _, _, .paddedBy p m, h => by
    rw [G.All] at h ⊢
    obtain ⟨h0, h1, h2⟩ := h
    exact ⟨hg _ h0, G.All.imp hg hs p h1, G.All.imp hg hs m h2⟩
  | _, _, .chain gs, h => by
    rw [G.All] at h ⊢
    obtain ⟨h0, h1⟩ := h
    exact ⟨hg _ h0, GL.All.imp hg hs gs h1⟩
  | _, _, .or a b, h => by
    rw [G.All] at h ⊢
    obtain ⟨h0, h1, h2⟩ := h
    exact ⟨hg _ h0, G.All.imp hg hs a h1, G.All.imp hg hs b h2⟩
  | _, _, .orNot g, h => by
    rw [G.All] at h ⊢
    obtain ⟨h0, h1⟩ := h
    exact ⟨hg _ h0, G.All.imp hg hs g h1⟩
  | _, _, .alters gs, h => by
    rw [G.All] at h ⊢
    obtain ⟨h0, h1⟩ := h
    exact ⟨hg _ h0, GL.All.imp hg hs gs h1⟩
  | _, _, .repeated c g, h => by
    rw [G.All] at h ⊢
    obtain ⟨h0, h1⟩ := h
    exact ⟨hg _ h0, G.All.imp hg hs g h1⟩
  | _, _, .separatedBy c g sp, h => by
    rw [G.All] at h ⊢
    obtain ⟨h0, h1, h2⟩ := h
    exact ⟨hg _ h0, G.All.imp hg hs g h1, G.All.imp hg hs sp h2⟩
  | _, _, .toRecover g st, h => by
    rw [G.All] at h ⊢
    obtain ⟨h0, h1, h2⟩ := h
    exact ⟨hg _ h0, G.All.imp hg hs g h1, CS.All.imp hg hs st h2⟩
  | _, _, .call k, h => by rw [G.All] at h ⊢; exact hg _ h

theorem GL.All.imp (hg : ∀ {ε : ErrTy S} {α : Type} (g : G S N ε α), L.g g → M.g g)
    (hs : ∀ {ε : ErrTy S} {α : Type} (s : IS S N ε α), L.s s → M.s s) :
    ∀ {ε : ErrTy S} {α : Type} (gs : GL S N ε α), gs.All L → gs.All M
  | _, _, .nil, h => by rw [GL.All]; trivial
  | _, _, .cons g gs, h => by
    rw [GL.All] at h ⊢
    exact ⟨G.All.imp hg hs g h.1, GL.All.imp hg hs gs h.2⟩

theorem IS.All.imp (hg : ∀ {ε : ErrTy S} {α : Type} (g : G S N ε α), L.g g → M.g g)
    (hs : ∀ {ε : ErrTy S} {α : Type} (s : IS S N ε α), L.s s → M.s s) :
    ∀ {ε : ErrTy S} {α : Type} (s : IS S N ε α), s.All L → s.All M
  | _, _, .attemptTo, h => by rw [IS.All] at h ⊢; exact hs _ h
  | _, _, .restart s, h => by
    rw [IS.All] at h ⊢
    obtain ⟨h0, h1⟩ := h
    exact ⟨hs _ h0, IS.All.imp hg hs s h1⟩
  | _, _, .seekToFailed s, h => by
    rw [IS.All] at h ⊢
    obtain ⟨h0, h1⟩ := h
    exact ⟨hs _ h0, IS.All.imp hg hs s h1⟩
  | _, _, .skip s, h => by
    rw [IS.All] at h ⊢
    obtain ⟨h0, h1⟩ := h
    exact ⟨hs _ h0, IS.All.imp hg hs s h1⟩
  | _, _, .skipIf s p, h => by
    rw [IS.All] at h ⊢
    obtain ⟨h0, h1⟩ := h
    exact ⟨hs _ h0, IS.All.imp hg hs s h1⟩
  | _, _, .find s p, h => by
    rw [IS.All] at h ⊢
    obtain ⟨h0, h1⟩ := h
    exact ⟨hs _ h0, IS.All.imp hg hs s h1⟩
  | _, _, .scan s sc, h => by
    rw [IS.All] at h ⊢
    obtain ⟨h0, h1⟩ := h
    exact ⟨hs _ h0, IS.All.imp hg hs s h1⟩
  | _, _, .maybe s t, h => by
    rw [IS.All] at h ⊢
    obtain ⟨h0, h1, h2⟩ := h
    exact ⟨hs _ h0, IS.All.imp hg hs s h1, IS.All.imp hg hs t h2⟩
  | _, _, .whileNot s p t, h => by
    rw [IS.All] at h ⊢
    obtain ⟨h0, h1, h2⟩ := h
    exact ⟨hs _ h0, IS.All.imp hg hs s h1, IS.All.imp hg hs t h2⟩
  | _, _, .retry s x y, h => by
    rw [IS.All] at h ⊢
    obtain ⟨h0, h1⟩ := h
    exact ⟨hs _ h0, IS.All.imp hg hs s h1⟩
  | _, _, .tryToParse s g x y, h => by
    rw [IS.All] at h ⊢
    obtain ⟨h0, h1, h2⟩ := h
    exact ⟨hs _ h0, IS.All.imp hg hs s h1, G.All.imp hg hs g h2⟩
  | _, _, .pushError s f, h => by
    rw [IS.All] at h ⊢
    obtain ⟨h0, h1⟩ := h
    exact ⟨hs _ h0, IS.All.imp hg hs s h1⟩
  | _, _, .pushErrorHere s f, h => by
    rw [IS.All] at h ⊢
    obtain ⟨h0, h1⟩ := h
    exact ⟨hs _ h0, IS.All.imp hg hs s h1⟩
  | _, _, .pushErrorUpToHere s f, h => by
    rw [IS.All] at h ⊢
    obtain ⟨h0, h1⟩ := h
    exact ⟨hs _ h0, IS.All.imp hg hs s h1⟩
  | _, _, .pushErrorForToken s f, h => by
    rw [IS.All] at h ⊢
    obtain ⟨h0, h1⟩ := h
    exact ⟨hs _ h0, IS.All.imp hg hs s h1⟩
  | _, _, .updateErrors s f, h => by
    rw [IS.All] at h ⊢
    obtain ⟨h0, h1⟩ := h
    exact ⟨hs _ h0, IS.All.imp hg hs s h1⟩
  | _, _, .updateErrorsHere s f, h => by
    rw [IS.All] at h ⊢
    obtain ⟨h0, h1⟩ := h
    exact ⟨hs _ h0, IS.All.imp hg hs s h1⟩
  | _, _, .updateErrorsUpToHere s f, h => by
    rw [IS.All] at h ⊢
    obtain ⟨h0, h1⟩ := h
    exact ⟨hs _ h0, IS.All.imp hg hs s h1⟩
  | _, _, .updateErrorsForToken s f, h => by
    rw [IS.All] at h ⊢
    obtain ⟨h0, h1⟩ := h
    exact ⟨hs _ h0, IS.All.imp hg hs s h1⟩
  | _, _, .boxed s, h => by
    rw [IS.All] at h ⊢
    obtain ⟨h0, h1⟩ := h
    exact ⟨hs _ h0, IS.All.imp hg hs s h1⟩

theorem CS.All.imp (hg : ∀ {ε : ErrTy S} {α : Type} (g : G S N ε α), L.g g → M.g g)
    (hs : ∀ {ε : ErrTy S} {α : Type} (s : IS S N ε α), L.s s → M.s s) :
    ∀ {ε : ErrTy S} {α : Type} (s : CS S N ε α), s.All L → s.All M
  | _, _, .ret s o, h => by rw [CS.All] at h ⊢; exact IS.All.imp hg hs s h
  | _, _, .retWith s o, h => by rw [CS.All] at h ⊢; exact IS.All.imp hg hs s h
  | _, _, .retWithSpan s f, h => by rw [CS.All] at h ⊢; exact IS.All.imp hg hs s h
  | _, _, .orFail s, h => by rw [CS.All] at h ⊢; exact IS.All.imp hg hs s h

end

theorem Defs.All.imp {D : Defs S N}
    (hg : ∀ {ε : ErrTy S} {α : Type} (g : G S N ε α), L.g g → M.g g)
    (hs : ∀ {ε : ErrTy S} {α : Type} (s : IS S N ε α), L.s s → M.s s) (h : D.All L) : D.All M :=
  fun k g hk => G.All.imp hg hs g (h k g hk)

end

end PPC
