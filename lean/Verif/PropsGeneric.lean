import Verif.SemGeneric
import Verif.RunAt
import Verif.PropsTerm
import Verif.PropsHonest

/-!
# C62: parsers work alike for all token types and location trackers

The specification of "instances of the same parser" is in SpecGeneric.lean.
-/

namespace PPC.Generic

section

variable {S S' : Sig} {ρ : SigRel S S'} {e : Env S} {e' : Env S'} {N : Names S} {N' : Names S'} {ν : NamesRel ρ N N'}
  {D : Defs S N} {D' : Defs S' N'} {ε : ErrTy S} {ε' : ErrTy S'} {E : ErrRel ρ ε ε'} {α α' : Type} {A : α → α' → Prop}
  {g : G S N ε α} {g' : G S' N' ε' α'} {en : Bool} {i : Nat}

theorem RV.res {r : Res α ε.E} {r' : Res α' ε'.E} {j j' : Nat} (h : RV A E.R (r, j) (r', j')) :
    ResR A E.R r r' ∧ j = j' := by
  cases h with
  | success j h => exact ⟨.success h, rfl⟩
  | recovered j h hs => exact ⟨.recovered h hs, rfl⟩
  | failed x j hs => exact ⟨.failed x hs, rfl⟩

/-- **C62.** Two instances of a parser on corresponding inputs return corresponding results and leave the stream at the
same position, and one panics if the other does, with the same message. -/
theorem C62_generic (he : EnvR ρ e e') (hD : DefsR ν D D') (hg : RelG ρ ν E A g g') (hi : Valid e i) :
    (∀ r j, Finishes e D g en i r j → ∃ r', Finishes e' D' g' en i r' j ∧ ResR A E.R r r') ∧
    (∀ r' j, Finishes e' D' g' en i r' j → ∃ r, Finishes e D g en i r j ∧ ResR A E.R r r') ∧
    ∀ m, Crashes e D g en i m ↔ Crashes e' D' g' en i m := by
  have hi' := he.valid.1 hi
  refine ⟨?_, ?_, ?_⟩
  · rintro r j ⟨n, h⟩
    have h1 := hg.sem he hD n en i
    rw [(parsesAt_iff hi).1 h] at h1
    generalize h2 : g'.sem e' D' n en i = x at h1
    cases h1 with
    | ok h1 =>
      rename_i b
      obtain ⟨r', j'⟩ := b
      obtain ⟨h3, rfl⟩ := h1.res
      exact ⟨r', ⟨n, (parsesAt_iff hi').2 h2⟩, h3⟩
  · rintro r' j ⟨n, h⟩
    have h1 := hg.sem he hD n en i
    rw [(parsesAt_iff hi').1 h] at h1
    generalize h2 : g.sem e D n en i = x at h1
    cases h1 with
    | ok h1 =>
      rename_i b
      obtain ⟨r, j'⟩ := b
      obtain ⟨h3, rfl⟩ := h1.res
      exact ⟨r, ⟨n, (parsesAt_iff hi).2 h2⟩, h3⟩
  · intro m
    constructor
    · rintro ⟨n, h⟩
      have h1 := hg.sem he hD n en i
      rw [(panicsAt_iff hi).1 h] at h1
      generalize h2 : g'.sem e' D' n en i = x at h1
      cases h1
      exact ⟨n, (panicsAt_iff hi').2 h2⟩
    · rintro ⟨n, h⟩
      have h1 := hg.sem he hD n en i
      rw [(panicsAt_iff hi').1 h] at h1
      generalize h2 : g.sem e D n en i = x at h1
      cases h1
      exact ⟨n, (panicsAt_iff hi).2 h2⟩

/-- **C62.** One instance runs forever if the other does. -/
theorem C62_diverges (he : EnvR ρ e e') (hD : DefsR ν D D') (hg : RelG ρ ν E A g g') (hi : Valid e i) :
    Diverges e D g en i ↔ Diverges e' D' g' en i := by
  obtain ⟨h1, h2, h3⟩ := C62_generic (en := en) he hD hg hi
  constructor
  · rintro ⟨h4, h5⟩
    exact ⟨fun r j h => let ⟨r', h', _⟩ := h2 r j h; h4 r' j h', fun m h => h5 m ((h3 m).2 h)⟩
  · rintro ⟨h4, h5⟩
    exact ⟨fun r j h => let ⟨r', h', _⟩ := h1 r j h; h4 r' j h', fun m h => h5 m ((h3 m).1 h)⟩

end

/-! ## Every parser is an instance of itself -/

theorem optR_eq {α : Type} : OptR (Eq : α → α → Prop) = Eq := by
  funext x y
  refine propext ⟨fun h => ?_, fun h => ?_⟩
  · cases h with
    | none => rfl
    | some h => rw [h]
  · subst h
    cases x <;> constructor
    rfl

theorem listR_eq {α : Type} : ListR (Eq : α → α → Prop) = Eq := by
  funext x y
  refine propext ⟨fun h => ?_, fun h => ?_⟩
  · induction h with
    | nil => rfl
    | cons h _ ih => rw [h, ih]
  · subst h
    induction x with
    | nil => exact .nil
    | cons a as ih => exact .cons rfl ih

theorem prodR_eq {α β : Type} : ProdR (Eq : α → α → Prop) (Eq : β → β → Prop) = Eq := by
  funext x y
  exact propext ⟨fun h => Prod.ext h.1 h.2, fun h => h ▸ ⟨rfl, rfl⟩⟩

/-- Everything corresponds to itself only. -/
def idSig (S : Sig) : SigRel S S := ⟨Eq, Eq, Eq, by rintro a _ b _ rfl rfl; rfl⟩

/-- Everything corresponds to itself only. -/
def idErr {S : Sig} (ε : ErrTy S) : ErrRel (idSig S) ε ε where
  R := Eq
  expectedFound := by
    intro xs xs' f f' a a' hx hf ha
    simp only [idSig, optR_eq, listR_eq] at hx hf
    cases hx
    cases hf
    cases ha with
    | none => rfl
    | location h => rw [show _ = _ from h]
    | span h => rw [show _ = _ from h]
  isExpectedFound := by rintro x _ rfl; rfl
  merge := by rintro x _ y _ rfl rfl; rfl

/-- Everything corresponds to itself only. -/
def idNames {S : Sig} (N : Names S) : NamesRel (idSig S) N N := ⟨id, fun _ => Eq, fun k => idErr (N.err k)⟩

theorem tryR_self {α E : Type} (r : TryMapResult α E) : TryR Eq Eq r r := by
  cases r with
  | ok o => exact .ok rfl
  | err es => exact .err (listR_eq ▸ rfl)
  | recovered o es => exact .recovered rfl (listR_eq ▸ rfl)

theorem scannerR_self {S : Sig} {E : Type} (sc : Scanner S E) : ScannerR (idSig S) Eq sc sc := by
  refine ⟨Eq, rfl, ?_, ?_⟩
  · intro t t' s s' st st' es es' ht hs hq he
    rw [listR_eq] at he
    cases ht; cases hs; cases hq; cases he
    cases sc.scan t s st es with
    | error m => exact .error m
    | ok x => exact .ok rfl (listR_eq ▸ rfl)
  · intro l l' st st' es es' hl hq he
    rw [listR_eq] at he ⊢
    cases hl; cases hq; cases he
    rfl

section

variable {S : Sig} {N : Names S}

mutual

/-- C62: the notion of instance leaves out no parser: every parser is an instance of itself. -/
theorem C62_self {ε : ErrTy S} {α : Type} : (g : G S N ε α) → RelG (idSig S) (idNames N) (idErr ε) Eq g g
  | .empty => .empty rfl
  | .none α => optR_eq (α := α) ▸ .none
  | .eof => .eof rfl
  | .just t => .just (ρ := idSig S) rfl
  | .filter p => .filter (ρ := idSig S) fun _ _ h => by cases h; rfl
  | .filterMap f => .filterMap fun _ _ h => by cases h; rw [optR_eq]
  | .seq v xs => .seq rfl (show ListR Eq xs xs from listR_eq ▸ rfl)
  | .oneOf xs => .oneOf (ρ := idSig S) (show ListR Eq xs xs from listR_eq ▸ rfl)
  | .noneOf xs => .noneOf (ρ := idSig S) (show ListR Eq xs xs from listR_eq ▸ rfl)
  | .boxed g => .boxed (C62_self g)
  | .withError g => .withError (C62_self g)
  | .to g v => .to (C62_self g) rfl
  | .some g => by rw [← optR_eq]; exact .some (C62_self g)
  | .map f g => .map (fun _ _ h => by rw [h]) (C62_self g)
  | .mapWithSpan f g => .mapWithSpan (fun _ _ _ _ h h' => by cases h; cases h'; rfl) (C62_self g)
  | .mapErr f g => .mapErr (fun _ _ h => by cases h; rfl) (C62_self g)
  | .mapErrWithSpan f g => .mapErrWithSpan (fun _ _ _ _ h h' => by cases h; cases h'; rfl) (C62_self g)
  | .tryMap f g => .tryMap (fun _ _ _ _ h h' => by cases h; cases h'; exact tryR_self _) (C62_self g)
  | .then_ a b => by rw [← prodR_eq]; exact .then_ (C62_self a) (C62_self b)
  | .thenIgnore a b => .thenIgnore (C62_self a) (C62_self b)
  | .ignoreThen a b => .ignoreThen (C62_self a) (C62_self b)
  | .delimitedBy a b c => .delimitedBy (C62_self a) (C62_self b) (C62_self c)
  | .paddedBy a b => .paddedBy (C62_self a) (C62_self b)
  | .chain gs => by rw [← listR_eq]; exact .chain (self_list gs)
  | .or a b => .or (C62_self a) (C62_self b)
  | .orNot g => by rw [← optR_eq]; exact .orNot (C62_self g)
  | .alters gs => .alters (self_list gs)
  | .repeated c g => by rw [← listR_eq]; exact .repeated (C62_self g)
  | .separatedBy c a b => by rw [← listR_eq]; exact .separatedBy (C62_self a) (C62_self b)
  | .toRecover g s => .toRecover (C62_self g) (self_complete s)
  | .call k => .call (ν := idNames N)

theorem self_list {ε : ErrTy S} {α : Type} : (gs : GL S N ε α) → RelGL (idSig S) (idNames N) (idErr ε) Eq gs gs
  | .nil => .nil
  | .cons g gs => .cons (C62_self g) (self_list gs)

theorem self_incomplete {ε : ErrTy S} {α : Type} : (s : IS S N ε α) → RelIS (idSig S) (idNames N) (idErr ε) Eq s s
  | .attemptTo => .attemptTo
  | .restart s => .restart (self_incomplete s)
  | .seekToFailed s => .seekToFailed (self_incomplete s)
  | .skip s => .skip (self_incomplete s)
  | .skipIf s p => .skipIf (self_incomplete s) fun _ _ h => by cases h; rfl
  | .find s p => .find (self_incomplete s) fun _ _ h => by cases h; rfl
  | .scan s sc => .scan (self_incomplete s) (scannerR_self sc)
  | .maybe s t => .maybe (self_incomplete s) (self_incomplete t)
  | .whileNot s p t => .whileNot (self_incomplete s) (fun _ _ h => by cases h; rfl) (self_incomplete t)
  | .retry s _ _ => .retry (self_incomplete s)
  | .tryToParse s g _ _ => .tryToParse (self_incomplete s) (C62_self g)
  | .pushError s f => .pushError (self_incomplete s) rfl
  | .pushErrorHere s f => .pushErrorHere (self_incomplete s) fun _ _ h => by cases h; rfl
  | .pushErrorUpToHere s f => .pushErrorUpToHere (self_incomplete s) fun _ _ h => by cases h; rfl
  | .pushErrorForToken s f => .pushErrorForToken (self_incomplete s) fun _ _ _ _ h h' => by
      rw [show OptR (idSig S).tok = Eq from optR_eq] at h
      cases h; cases h'; rfl
  | .updateErrors s f => .updateErrors (self_incomplete s) fun _ _ h => by
      rw [show ListR (idErr ε).R = Eq from listR_eq] at h ⊢
      cases h; rfl
  | .updateErrorsHere s f => .updateErrorsHere (self_incomplete s) fun _ _ _ _ h h' => by
      rw [show ListR (idErr ε).R = Eq from listR_eq] at h ⊢
      cases h; cases h'; rfl
  | .updateErrorsUpToHere s f => .updateErrorsUpToHere (self_incomplete s) fun _ _ _ _ h h' => by
      rw [show ListR (idErr ε).R = Eq from listR_eq] at h ⊢
      cases h; cases h'; rfl
  | .updateErrorsForToken s f => .updateErrorsForToken (self_incomplete s) fun _ _ _ _ _ _ h h1 h2 => by
      rw [show ListR (idErr ε).R = Eq from listR_eq] at h ⊢
      rw [show OptR (idSig S).tok = Eq from optR_eq] at h1
      cases h; cases h1; cases h2; rfl
  | .boxed s => .boxed (self_incomplete s)

theorem self_complete {ε : ErrTy S} {α : Type} : (s : CS S N ε α) → RelCS (idSig S) (idNames N) (idErr ε) Eq s s
  | .ret s o => .ret (self_incomplete s) rfl
  | .retWith s o => .retWith (self_incomplete s) rfl
  | .retWithSpan s f => .retWithSpan (self_incomplete s) fun _ _ h => by cases h; rfl
  | .orFail s => .orFail (self_incomplete s)

end

end

/-! ## Errors of type `Simple` -/

section

variable {S S' : Sig} {ρ : SigRel S S'}

/-- Corresponding errors. If not `strict`, the lists of what was expected may differ. -/
inductive SimpleR (ρ : SigRel S S') (strict : Bool) : (simpleErr S).E → (simpleErr S').E → Prop
  | expectedFound {xs xs' f f' a a'} (hx : strict = true → ListR (OptR ρ.tok) xs xs') (hf : OptR ρ.tok f f')
      (ha : AtR ρ a a') : SimpleR ρ strict (.expectedFound xs f a) (.expectedFound xs' f' a')
  | unmatchedLeft {t t' s s' a a'} (ht : ρ.tok t t') (hs : ρ.span s s') (ha : AtR ρ a a') :
      SimpleR ρ strict (.unmatchedLeft t s a) (.unmatchedLeft t' s' a')
  | unmatchedRight {t t' s s' a a'} (ht : ρ.tok t t') (hs : ρ.span s s') (ha : AtR ρ a a') :
      SimpleR ρ strict (.unmatchedRight t s a) (.unmatchedRight t' s' a')
  | unmatchedType {t t' s s' u u' r r'} (ht : ρ.tok t t') (hs : ρ.span s s') (hu : ρ.tok u u') (hr : ρ.span r r') :
      SimpleR ρ strict (.unmatchedType t s u r) (.unmatchedType t' s' u' r')
  | custom {m a a'} (ha : AtR ρ a a') : SimpleR ρ strict (.custom m a) (.custom m a')

theorem eqOpt_rel {a b : Option S.I} {a' b' : Option S'.I} (ha : OptR ρ.tok a a') (hb : OptR ρ.tok b b') :
    eqOpt S.eqI a b = eqOpt S'.eqI a' b' := by
  cases ha with
  | none => cases hb <;> rfl
  | some ha =>
    cases hb with
    | none => rfl
    | some hb => exact ρ.eqI ha hb

theorem setExtend_rel {s xs : List (Option S.I)} {s' xs' : List (Option S'.I)} (hs : ListR (OptR ρ.tok) s s')
    (hx : ListR (OptR ρ.tok) xs xs') : ListR (OptR ρ.tok) (setExtend S.eqI s xs) (setExtend S'.eqI s' xs') := by
  refine hx.foldl (Q := ListR (OptR ρ.tok)) (fun s s' x x' hs hx => ?_) hs
  unfold setInsert
  rw [hs.any fun _ _ h => eqOpt_rel hx h]
  split
  · exact hs
  · exact hs.append (.single hx)

/-- Places that correspond compare alike. -/
def PlacesR (ρ : SigRel S S') : Prop :=
  (∀ a a' b b', ρ.loc a a' → ρ.loc b b' → S.eqLoc a b = S'.eqLoc a' b') ∧
  ∀ a a' b b', ρ.span a a' → ρ.span b b' → S.eqSpan a b = S'.eqSpan a' b'

theorem beq_rel (h : PlacesR ρ) {a b : At S.Loc S.Span} {a' b' : At S'.Loc S'.Span} (ha : AtR ρ a a')
    (hb : AtR ρ b b') : At.beq S a b = At.beq S' a' b' := by
  cases ha with
  | none => cases hb <;> rfl
  | location h1 =>
    cases hb with
    | location h2 => exact h.1 _ _ _ _ h1 h2
    | none => rfl
    | span _ => rfl
  | span h1 =>
    cases hb with
    | span h2 => exact h.2 _ _ _ _ h1 h2
    | none => rfl
    | location _ => rfl

theorem SimpleR.location {strict : Bool} {x : (simpleErr S).E} {x' : (simpleErr S').E} (h : SimpleR ρ strict x x') :
    AtR ρ ((simpleErr S).location x) ((simpleErr S').location x') := by
  cases h with
  | expectedFound _ _ h => exact h
  | unmatchedLeft _ _ h => exact h
  | unmatchedRight _ _ h => exact h
  | unmatchedType _ _ _ h => exact .span h
  | custom h => exact h

theorem SimpleR.isExpectedFound {strict : Bool} {x : (simpleErr S).E} {x' : (simpleErr S').E}
    (h : SimpleR ρ strict x x') : (simpleErr S).isExpectedFound x = (simpleErr S').isExpectedFound x' := by
  cases h <;> rfl

/-- Errors correspond part by part, if places compare alike. -/
def exactErr (h : PlacesR ρ) : ErrRel ρ (simpleErr S) (simpleErr S') where
  R := SimpleR ρ true
  expectedFound hx hf ha := .expectedFound (fun _ => setExtend_rel .nil hx) hf ha
  isExpectedFound h := h.isExpectedFound
  merge := by
    intro x x' y y' hx hy
    simp only [mergeIf, beq_rel h hy.location hx.location]
    generalize At.beq S' _ _ = b
    cases b
    · exact hx
    · simp only [if_true]
      cases hx with
      | expectedFound hx hf ha =>
        cases hy with
        | expectedFound hy _ _ => exact .expectedFound (fun _ => setExtend_rel (hx rfl) (hy rfl)) hf ha
        | unmatchedLeft _ _ _ => exact .expectedFound hx hf ha
        | unmatchedRight _ _ _ => exact .expectedFound hx hf ha
        | unmatchedType _ _ _ _ => exact .expectedFound hx hf ha
        | custom _ => exact .expectedFound hx hf ha
      | unmatchedLeft h1 h2 h3 => exact .unmatchedLeft h1 h2 h3
      | unmatchedRight h1 h2 h3 => exact .unmatchedRight h1 h2 h3
      | unmatchedType h1 h2 h3 h4 => exact .unmatchedType h1 h2 h3 h4
      | custom h1 => exact .custom h1

theorem SimpleR.merge_left {x y : (simpleErr S).E} {x' : (simpleErr S').E} (h : SimpleR ρ false x x') :
    SimpleR ρ false (mergeIf (simpleErr S) x y) x' := by
  unfold mergeIf
  generalize At.beq _ _ _ = b
  cases b
  · exact h
  · simp only [if_true]
    cases h with
    | expectedFound hx hf ha =>
      cases y with
      | expectedFound _ _ _ => exact .expectedFound (fun h => by cases h) hf ha
      | unmatchedLeft _ _ _ => exact .expectedFound hx hf ha
      | unmatchedRight _ _ _ => exact .expectedFound hx hf ha
      | unmatchedType _ _ _ _ => exact .expectedFound hx hf ha
      | custom _ => exact .expectedFound hx hf ha
    | unmatchedLeft h1 h2 h3 => exact .unmatchedLeft h1 h2 h3
    | unmatchedRight h1 h2 h3 => exact .unmatchedRight h1 h2 h3
    | unmatchedType h1 h2 h3 h4 => exact .unmatchedType h1 h2 h3 h4
    | custom h1 => exact .custom h1

theorem SimpleR.merge_right {x : (simpleErr S).E} {x' y' : (simpleErr S').E} (h : SimpleR ρ false x x') :
    SimpleR ρ false x (mergeIf (simpleErr S') x' y') := by
  unfold mergeIf
  generalize At.beq _ _ _ = b
  cases b
  · exact h
  · simp only [if_true]
    cases h with
    | expectedFound hx hf ha =>
      cases y' with
      | expectedFound _ _ _ => exact .expectedFound (fun h => by cases h) hf ha
      | unmatchedLeft _ _ _ => exact .expectedFound hx hf ha
      | unmatchedRight _ _ _ => exact .expectedFound hx hf ha
      | unmatchedType _ _ _ _ => exact .expectedFound hx hf ha
      | custom _ => exact .expectedFound hx hf ha
    | unmatchedLeft h1 h2 h3 => exact .unmatchedLeft h1 h2 h3
    | unmatchedRight h1 h2 h3 => exact .unmatchedRight h1 h2 h3
    | unmatchedType h1 h2 h3 h4 => exact .unmatchedType h1 h2 h3 h4
    | custom h1 => exact .custom h1

/-- Errors correspond, except for the lists of what was expected. -/
def kindErr (ρ : SigRel S S') : ErrRel ρ (simpleErr S) (simpleErr S') where
  R := SimpleR ρ false
  expectedFound hx hf ha := .expectedFound (fun _ => setExtend_rel .nil hx) hf ha
  isExpectedFound h := h.isExpectedFound
  merge hx _ := hx.merge_left.merge_right

/-! ## Nested delimiters -/

/-- Corresponding open delimiters. -/
def DelimR (ρ : SigRel S S') (d : Delim S) (d' : Delim S') : Prop :=
  d.ty = d'.ty ∧ ρ.tok d.left d'.left ∧ ρ.span d.span d'.span

theorem firstIdx_rel {α β : Type} {R : α → β → Prop} {p : α → Bool} {q : β → Bool} (hp : ∀ a b, R a b → p a = q b)
    {as : List α} {bs : List β} (h : ListR R as bs) : ∀ i, firstIdx p as i = firstIdx q bs i := by
  induction h with
  | nil => intro i; rfl
  | cons h1 _ ih => intro i; simp only [firstIdx, hp _ _ h1, ih]

theorem getElem?_rel {α β : Type} {R : α → β → Prop} {as : List α} {bs : List β} (h : ListR R as bs) :
    ∀ i : Nat, OptR R as[i]? bs[i]? := by
  induction h with
  | nil => intro i; exact .none
  | cons h1 _ ih =>
    intro i
    cases i with
    | zero => exact .some h1
    | succ i => simpa using ih i

variable {strict : Bool}

theorem popUntil_rel {s : S.Span} {s' : S'.Span} (hs : ρ.span s s') (r : Nat) {ds : List (Delim S)}
    {ds' : List (Delim S')} (hd : ListR (DelimR ρ) ds ds') : ∀ {es : List (simpleErr S).E} {es' : List (simpleErr S').E},
    ListR (SimpleR ρ strict) es es' →
    (popUntil (simpleErr S) r s ds es).1 = (popUntil (simpleErr S') r s' ds' es').1 ∧
    ListR (DelimR ρ) (popUntil (simpleErr S) r s ds es).2.1 (popUntil (simpleErr S') r s' ds' es').2.1 ∧
    ListR (SimpleR ρ strict) (popUntil (simpleErr S) r s ds es).2.2 (popUntil (simpleErr S') r s' ds' es').2.2 := by
  induction hd with
  | nil => intro es es' he; exact ⟨rfl, .nil, he⟩
  | cons h1 h2 ih =>
    intro es es' he
    simp only [popUntil, h1.1]
    split
    · exact ⟨rfl, h2, he⟩
    · exact ih (he.append (.single (.unmatchedLeft h1.2.1 h1.2.2 (.span hs))))

/-- Corresponding results of `handle_token`. -/
inductive HandleR (ρ : SigRel S S') (strict : Bool) : Except String (List (Delim S) × List (simpleErr S).E) →
    Except String (List (Delim S') × List (simpleErr S').E) → Prop
  | error (m : String) : HandleR ρ strict (.error m) (.error m)
  | ok {ds ds' es es'} (hd : ListR (DelimR ρ) ds ds') (he : ListR (SimpleR ρ strict) es es') :
      HandleR ρ strict (.ok (ds, es)) (.ok (ds', es'))

theorem popOne_rel {t : S.I} {t' : S'.I} (ht : ρ.tok t t') {s : S.Span} {s' : S'.Span} (hs : ρ.span s s') (r : Nat)
    {ds : List (Delim S)} {ds' : List (Delim S')} (hd : ListR (DelimR ρ) ds ds') {es : List (simpleErr S).E}
    {es' : List (simpleErr S').E} (he : ListR (SimpleR ρ strict) es es') :
    HandleR ρ strict (popOne (simpleErr S) r t s ds es) (popOne (simpleErr S') r t' s' ds' es') := by
  cases hd with
  | nil => exact .ok .nil (he.append (.single (.unmatchedRight ht hs .none)))
  | cons h1 h2 =>
    simp only [popOne, h1.1]
    split
    · exact .error _
    · exact .ok h2 (he.append (.single (.unmatchedType h1.2.1 h1.2.2 ht hs)))

theorem handleRest_rel {types : List (S.I × S.I)} {types' : List (S'.I × S'.I)}
    (hy : ListR (ProdR ρ.tok ρ.tok) types types') {t : S.I} {t' : S'.I} (ht : ρ.tok t t') {s : S.Span} {s' : S'.Span}
    (hs : ρ.span s s') {ds : List (Delim S)} {ds' : List (Delim S')} (hd : ListR (DelimR ρ) ds ds')
    {es : List (simpleErr S).E} {es' : List (simpleErr S').E} (he : ListR (SimpleR ρ strict) es es') :
    HandleR ρ strict (handleRest (simpleErr S) types t s ds es) (handleRest (simpleErr S') types' t' s' ds' es') := by
  unfold handleRest
  rw [firstIdx_rel (fun a b (h : ProdR ρ.tok ρ.tok a b) => ρ.eqI ht h.1) hy 0,
    firstIdx_rel (fun a b (h : ProdR ρ.tok ρ.tok a b) => ρ.eqI ht h.2) hy 0]
  split
  · exact .ok (.cons ⟨rfl, ht, hs⟩ hd) he
  · split
    · rename_i r _
      rw [hd.any (q := fun d => decide (d.ty = r)) fun a b h => by rw [h.1]]
      split
      · obtain ⟨h1, h2, h3⟩ := popUntil_rel hs r hd he
        revert h1 h2 h3
        generalize popUntil (simpleErr S) r s ds es = x, popUntil (simpleErr S') r s' ds' es' = y
        obtain ⟨x1, x2, x3⟩ := x
        obtain ⟨y1, y2, y3⟩ := y
        intro h1 h2 h3
        simp only at h1 h2 h3
        subst h1
        cases x1
        · exact popOne_rel ht hs r h2 h3
        · exact .ok h2 h3
      · exact popOne_rel ht hs r hd he
    · exact .ok hd he

/-- `nested_delimiters` works alike for all token types and trackers. -/
theorem C62_nested_delimiters (strict : Bool) {types : List (S.I × S.I)} {types' : List (S'.I × S'.I)}
    (hy : ListR (ProdR ρ.tok ρ.tok) types types') :
    ScannerR ρ (SimpleR ρ strict) (nestedDelimiters (simpleErr S) types) (nestedDelimiters (simpleErr S') types') := by
  refine ⟨ListR (DelimR ρ), .nil, ?_, ?_⟩
  · intro t t' s s' ds ds' es es' ht hs hd he
    have h : HandleR ρ strict (handleToken (simpleErr S) types t s ds es)
        (handleToken (simpleErr S') types' t' s' ds' es') := by
      cases hd with
      | nil => exact handleRest_rel hy ht hs .nil he
      | @cons d d' ds ds' h1 h2 =>
        have h3 := getElem?_rel hy d.ty
        simp only [handleToken]
        rw [← h1.1]
        revert h3
        generalize types[d.ty]? = x, types'[d.ty]? = y
        intro h3
        cases h3 with
        | none => exact .error _
        | some h3 =>
          simp only [ρ.eqI ht h3.2]
          split
          · exact .ok h2 he
          · exact handleRest_rel hy ht hs (.cons h1 h2) he
    simp only
    revert h
    generalize handleToken (simpleErr S) types t s ds es = x, handleToken (simpleErr S') types' t' s' ds' es' = y
    intro h
    cases h with
    | error m => exact .error m
    | ok hd he =>
      simp only [hd.isEmpty]
      exact .ok hd he
  · intro l l' ds ds' es es' hl hd he
    exact he.append (hd.map fun d d' h => .unmatchedLeft h.2.1 h.2.2 (.location hl))

end

/-! ## Any two location trackers -/

/-- A location tracker for tokens `I` (src/location.rs:8-24). -/
structure Tracker (I : Type) where
  L : Type
  Loc : Type
  Span : Type
  advance : L → I → L
  location : L → Nat → Loc
  spanningTo : L → Nat → L → Nat → Span
  eqLoc : Loc → Loc → Bool
  eqSpan : Span → Span → Bool

/-- Tokens with this tracker. -/
@[reducible] def Tracker.sig {I : Type} (T : Tracker I) (eq : I → I → Bool) : Sig where
  I := I
  L := T.L
  Loc := T.Loc
  Span := T.Span
  advance := T.advance
  location := T.location
  spanningTo := T.spanningTo
  eqI := eq
  eqLoc := T.eqLoc
  eqSpan := T.eqSpan

/-- The same tokens, any places. -/
def anyPlace {I : Type} (T T' : Tracker I) (eq : I → I → Bool) : SigRel (T.sig eq) (T'.sig eq) where
  tok := Eq
  loc _ _ := True
  span _ _ := True
  eqI := by rintro a _ b _ rfl rfl; rfl

/-- **C62.** The location tracker makes no difference: with another one, the same input gives a result of the same kind,
with the same output (for parsers that do not use places for their output) or at the same position, after the same
tokens. The errors are of the same kinds and name the same tokens as found. -/
theorem C62_tracker {I : Type} {T T' : Tracker I} {eq : I → I → Bool} {N : Names (T.sig eq)} {N' : Names (T'.sig eq)}
    {ν : NamesRel (anyPlace T T' eq) N N'} {D : Defs (T.sig eq) N} {D' : Defs (T'.sig eq) N'} {α : Type}
    {g : G (T.sig eq) N (simpleErr _) α} {g' : G (T'.sig eq) N' (simpleErr _) α} {source : Nat → Option I} {l : T.L}
    {l' : T'.L} {en : Bool} {i j : Nat} {r : Res α (simpleErr (T.sig eq)).E} (hD : DefsR ν D D')
    (hg : RelG (anyPlace T T' eq) ν (kindErr _) Eq g g') (hi : Valid (⟨source, l⟩ : Env (T.sig eq)) i)
    (h : Finishes (⟨source, l⟩ : Env (T.sig eq)) D g en i r j) :
    ∃ r', Finishes (⟨source, l'⟩ : Env (T'.sig eq)) D' g' en i r' j ∧ ResR Eq (SimpleR (anyPlace T T' eq) false) r r' :=
  (C62_generic (ρ := anyPlace T T' eq)
    (.of_trackers (T := fun _ _ => True) (fun i => by
      show OptR Eq (source i) (source i)
      cases source i <;> constructor
      rfl) trivial
      (fun _ _ _ _ _ _ => trivial) (fun _ _ _ _ => trivial) fun _ _ _ _ _ _ _ _ => trivial)
    hD hg hi).1 r j h

/-! ## `location::Rich` and `location::Simple` -/

/-- The places of an input with `location::Rich`, and indices. -/
def richPlaces {I : Type} {eq : I → I → Bool} {conv : I → String} (e : Env (richSig I eq conv)) :
    SigRel (richSig I eq conv) (simpleSig I eq) where
  tok := Eq
  loc l i := l = e.locationAt i
  span s p := s = e.spanOf p.1 p.2
  eqI := by rintro a _ b _ rfl rfl; rfl

theorem richPlaces_exact {I : Type} {eq : I → I → Bool} {conv : I → String} (e : Env (richSig I eq conv)) :
    PlacesR (richPlaces e) := by
  constructor
  · rintro _ i _ j rfl rfl
    show (e.locationAt i == e.locationAt j) = (i == j)
    rw [Bool.eq_iff_iff, beq_iff_eq, beq_iff_eq]
    refine ⟨fun h => ?_, fun h => by rw [h]⟩
    have := congrArg (fun l : RichLocation => l.offset.index) h
    exact this
  · rintro _ ⟨i, j⟩ _ ⟨k, l⟩ rfl rfl
    show (e.spanOf i j == e.spanOf k l) = ((i, j) == (k, l))
    rw [Bool.eq_iff_iff, beq_iff_eq, beq_iff_eq]
    refine ⟨fun h => ?_, fun h => by cases h; rfl⟩
    have h1 := congrArg (fun l : RichSpan => l.from_.index) h
    have h2 := congrArg (fun l : RichSpan => l.to.index) h
    exact Prod.ext h1 h2

/-- **C62.** With `location::Rich`, a parser returns what it returns with `location::Simple`, with every index replaced by
the place of that index: in outputs (as far as `A` says so) and in errors. -/
theorem C62_rich {I : Type} {eq : I → I → Bool} {conv : I → String} {e : Env (richSig I eq conv)}
    {N : Names (richSig I eq conv)} {N' : Names (simpleSig I eq)} {ν : NamesRel (richPlaces e) N N'} {D : Defs _ N}
    {D' : Defs _ N'} {α α' : Type} {A : α → α' → Prop} {g : G _ N (simpleErr _) α} {g' : G _ N' (simpleErr _) α'}
    {en : Bool} {i j : Nat} {r' : Res α' (simpleErr (simpleSig I eq)).E} (hD : DefsR ν D D')
    (hg : RelG (richPlaces e) ν (exactErr (richPlaces_exact e)) A g g') (hi : Valid e i)
    (h : Finishes (⟨e.source, ()⟩ : Env (simpleSig I eq)) D' g' en i r' j) :
    ∃ r, Finishes e D g en i r j ∧ ResR A (SimpleR (richPlaces e) true) r r' :=
  (C62_generic (ρ := richPlaces e) (e' := (⟨e.source, ()⟩ : Env (simpleSig I eq)))
    ⟨fun i => by
      show OptR Eq (e.source i) (e.source i)
      cases e.source i <;> constructor
      rfl, fun _ => rfl, fun _ _ => rfl⟩ hD hg hi).2.1 r' j h

/-! ## Tokens -/

/-- Tokens that are mapped by `f`, at the same places. -/
def mapTokens {I I' : Type} {eq : I → I → Bool} {eq' : I' → I' → Bool} (f : I → I')
    (hf : ∀ a b, eq a b = eq' (f a) (f b)) : SigRel (simpleSig I eq) (simpleSig I' eq') where
  tok t t' := f t = t'
  loc := Eq
  span := Eq
  eqI := by rintro a _ b _ rfl rfl; exact hf a b

theorem mapTokens_exact {I I' : Type} {eq : I → I → Bool} {eq' : I' → I' → Bool} (f : I → I')
    (hf : ∀ a b, eq a b = eq' (f a) (f b)) : PlacesR (mapTokens f hf) := by
  constructor
  · rintro a _ b _ rfl rfl; rfl
  · rintro a _ b _ rfl rfl; rfl

/-- **C62.** How tokens are represented makes no difference: if tokens are replaced one by one, in the input and in the
parser, in a way that equality does not notice, then outputs and errors are those with the tokens replaced. -/
theorem C62_tokens {I I' : Type} {eq : I → I → Bool} {eq' : I' → I' → Bool} {f : I → I'}
    {hf : ∀ a b, eq a b = eq' (f a) (f b)} {N : Names (simpleSig I eq)} {N' : Names (simpleSig I' eq')}
    {ν : NamesRel (mapTokens f hf) N N'} {D : Defs _ N} {D' : Defs _ N'} {α α' : Type} {A : α → α' → Prop}
    {g : G _ N (simpleErr _) α} {g' : G _ N' (simpleErr _) α'} {source : Nat → Option I} {en : Bool} {i j : Nat}
    {r : Res α (simpleErr (simpleSig I eq)).E} (hD : DefsR ν D D')
    (hg : RelG (mapTokens f hf) ν (exactErr (mapTokens_exact f hf)) A g g')
    (hi : Valid (⟨source, ()⟩ : Env (simpleSig I eq)) i)
    (h : Finishes (⟨source, ()⟩ : Env (simpleSig I eq)) D g en i r j) :
    ∃ r', Finishes (⟨fun i => (source i).map f, ()⟩ : Env (simpleSig I' eq')) D' g' en i r' j ∧
      ResR A (SimpleR (mapTokens f hf) true) r r' :=
  (C62_generic (ρ := mapTokens f hf)
    ⟨fun i => by
      show OptR _ (source i) ((source i).map f)
      cases source i <;> constructor
      rfl, fun _ => rfl, fun _ _ => rfl⟩ hD hg hi).1 r j h

/-! ## Examples -/

/-- One recursive parser that returns a number. -/
@[reducible] def exOne (S : Sig) : Names S := ⟨Unit, fun _ => Nat, fun _ => simpleErr S⟩

/-- The depth of `c` in delimiters `a` and `b`; a level that does not parse is skipped. -/
def exDeep (S : Sig) (a b c : S.I) : G S (exOne S) (simpleErr S) Nat :=
  .or (.map (· + 1) (.toRecover (.delimitedBy (.just a) (.call ()) (.just b))
    (.ret (.scan .attemptTo (nestedDelimiters (simpleErr S) [(a, b)])) 0))) (.to (.just c) 1)

section

variable {S S' : Sig} {ρ : SigRel S S'}

/-- The recursive parsers correspond. -/
def exOneRel (E : ErrRel ρ (simpleErr S) (simpleErr S')) : NamesRel ρ (exOne S) (exOne S') := ⟨id, fun _ => Eq, fun _ => E⟩

/-- Instances of `exDeep`. -/
theorem exDeep_rel {E : ErrRel ρ (simpleErr S) (simpleErr S')} {strict : Bool} (hE : E.R = SimpleR ρ strict) {a b c : S.I}
    {a' b' c' : S'.I} (ha : ρ.tok a a') (hb : ρ.tok b b') (hc : ρ.tok c c') :
    RelG ρ (exOneRel E) E Eq (exDeep S a b c) (exDeep S' a' b' c') := by
  refine .or (.map (A := Eq) (by rintro _ _ rfl; rfl) (.toRecover (.delimitedBy (.just ha) ?_ (.just hb))
    (.ret (.scan .attemptTo ?_) rfl))) (.to (.just hc) rfl)
  · exact .call (ν := exOneRel E) (k := ())
  · rw [hE]
    exact C62_nested_delimiters strict (.cons ⟨ha, hb⟩ .nil)

theorem exDeep_defs {E : ErrRel ρ (simpleErr S) (simpleErr S')} {strict : Bool} (hE : E.R = SimpleR ρ strict) {a b c : S.I}
    {a' b' c' : S'.I} (ha : ρ.tok a a') (hb : ρ.tok b b') (hc : ρ.tok c c') :
    DefsR (exOneRel E) (fun _ => some (exDeep S a b c)) (fun _ => some (exDeep S' a' b' c')) :=
  fun _ => .inr ⟨_, _, rfl, rfl, exDeep_rel hE ha hb hc⟩

end

/-- The tracker `location::Simple`. -/
@[reducible] def exIndices (I : Type) : Tracker I :=
  ⟨Unit, Nat, Nat × Nat, fun _ _ => (), fun _ i => i, fun _ i _ j => (i, j), (· == ·), (· == ·)⟩

/-- `( ( 5 5 ) )`, where `1` and `2` are the delimiters and one `5` is expected, with indices. -/
theorem exDeep_indices : Finishes (⟨fun i => [1, 1, 5, 5, 2, 2][i]?, ()⟩ : Env ((exIndices Nat).sig (· == ·)))
    (fun _ => some (exDeep _ 1 2 5)) (exDeep _ 1 2 5) true 0
    (.recovered 2 [.expectedFound [some 2] (some 5) (.span (3, 4))]) 5 :=
  ⟨20, (parsesAt_iff .zero).2 (by rfl)⟩

/-- With every tracker, `( ( 5 5 ) )` is recovered from in the same way, with one error about a `5`. -/
example (T : Tracker Nat) (l : T.L) : ∃ xs a, Finishes (⟨fun i => [1, 1, 5, 5, 2, 2][i]?, l⟩ : Env (T.sig (· == ·)))
    (fun _ => some (exDeep _ 1 2 5)) (exDeep _ 1 2 5) true 0 (.recovered 2 [.expectedFound xs (some 5) a]) 5 := by
  obtain ⟨r', h, h'⟩ := C62_tracker (T := exIndices Nat) (T' := T) (l' := l) (exDeep_defs (strict := false) rfl rfl rfl rfl)
    (exDeep_rel (strict := false) rfl rfl rfl rfl) .zero exDeep_indices
  cases h' with
  | recovered ho hs =>
    cases ho
    cases hs with
    | cons h1 h2 =>
      cases h2
      cases h1 with
      | expectedFound _ hf ha =>
        cases hf with
        | some hf =>
          cases hf
          exact ⟨_, _, h⟩

/-- With `location::Rich`, the error has the rich span of the token with index 3. -/
example (conv : Nat → String) (l : Rich) (e : Env (richSig Nat (· == ·) conv))
    (he : e = ⟨fun i => [1, 1, 5, 5, 2, 2][i]?, l⟩) : Finishes e
    (fun _ => some (exDeep _ 1 2 5)) (exDeep _ 1 2 5) true 0
    (.recovered 2 [.expectedFound [some 2] (some 5) (.span (e.spanOf 3 4))]) 5 := by
  have h0 : Finishes (⟨e.source, ()⟩ : Env (simpleSig Nat (· == ·)))
    (fun _ => some (exDeep _ 1 2 5)) (exDeep _ 1 2 5) true 0
    (.recovered 2 [.expectedFound [some 2] (some 5) (.span (3, 4))]) 5 := by
    rw [he]
    exact ⟨20, (parsesAt_iff .zero).2 (by rfl)⟩
  obtain ⟨r, h, h'⟩ := C62_rich (e := e) (exDeep_defs (strict := true) rfl rfl rfl rfl)
    (exDeep_rel (strict := true) rfl rfl rfl rfl) .zero h0
  cases h' with
  | recovered ho hs =>
    cases ho
    cases hs with
    | cons h1 h2 =>
      cases h2
      cases h1 with
      | expectedFound hx hf ha =>
        cases hf with
        | some hf =>
          cases hf
          cases ha with
          | span ha =>
            cases ha
            cases hx rfl with
            | cons h1 h2 =>
              cases h2
              cases h1 with
              | some h1 =>
                cases h1
                exact h

/-- Booleans as delimiters, `true` on the left and `false` on the right, and `false` inside. -/
theorem exDeep_bool : Finishes (⟨fun i => [true, true, false, false, true][i]?, ()⟩ : Env (simpleSig Bool (· == ·)))
    (fun _ => some (exDeep _ true false false)) (exDeep _ true false false) true 0
    (.recovered 1 [.expectedFound [some false] (some true) (.span (4, 5))]) 3 :=
  ⟨20, (parsesAt_iff .zero).2 (by rfl)⟩

/-- The same with numbers instead of booleans: the error names numbers. -/
example :
    Finishes (⟨fun i => ([true, true, false, false, true][i]?).map Bool.toNat, ()⟩ : Env (simpleSig Nat (· == ·)))
      (fun _ => some (exDeep _ 1 0 0)) (exDeep _ 1 0 0) true 0
      (.recovered 1 [.expectedFound [some 0] (some 1) (.span (4, 5))]) 3 := by
  obtain ⟨r1, h, h2⟩ := C62_tokens (eq := (· == ·)) (eq' := (· == ·)) (f := Bool.toNat) (hf := by decide)
    (exDeep_defs (strict := true) rfl rfl rfl rfl) (exDeep_rel (strict := true) rfl rfl rfl rfl) .zero exDeep_bool
  cases h2 with
  | recovered ho hs =>
    cases ho
    cases hs with
    | cons h1 h2 =>
      cases h2
      cases h1 with
      | expectedFound hx hf ha =>
        cases hf with
        | some hf =>
          cases hf
          cases ha with
          | span ha =>
            cases ha
            cases hx rfl with
            | cons h1 h2 =>
              cases h2
              cases h1 with
              | some h1 =>
                cases h1
                exact h

/-- `just(1).or_not().repeated()`. -/
def exSpin (S : Sig) (t : S.I) : G S (exOne S) (simpleErr S) (List (Option S.I)) := .repeated {} (.orNot (.just t))

/-- `exSpin` runs forever on `2`, with every tracker. -/
example (T : Tracker Nat) (l : T.L) : Diverges (⟨fun i => [2][i]?, l⟩ : Env (T.sig (· == ·)))
    (fun _ => none) (exSpin (T.sig (· == ·)) 1) true 0 := by
  have h : Diverges (⟨fun i => [2][i]?, ()⟩ : Env ((exIndices Nat).sig (· == ·)))
      (fun _ => none) (exSpin ((exIndices Nat).sig (· == ·)) 1) true 0 :=
    C35_empty_repetition_diverges .zero rfl (o := none) (o' := none) ⟨20, (parsesAt_iff .zero).2 (by rfl)⟩
      ⟨20, (parsesAt_iff .zero).2 (by rfl)⟩
  refine (C62_diverges (ρ := anyPlace (exIndices Nat) T (· == ·)) (ν := exOneRel (kindErr _)) (E := kindErr _)
    (A := ListR (OptR Eq)) ?_ (fun _ => .inl ⟨rfl, rfl⟩) (.repeated (.orNot (.just rfl))) .zero).1 h
  exact .of_trackers (T := fun _ _ => True) (fun i => by
    show OptR Eq ([2][i]?) ([2][i]?)
    cases [2][i]? <;> constructor
    rfl) trivial (fun _ _ _ _ _ _ => trivial) (fun _ _ _ _ => trivial) fun _ _ _ _ _ _ _ _ => trivial

/-! ## What does make a difference -/

/-- The type of the errors makes a difference: C62 needs error types that correspond. A choice with one alternative that
fails reports its error if errors are of type `Simple`, and panics if they are of type `Void`, on the same input. -/
theorem C62_needs_errors :
    Finishes (exEnv [2]) exNoDefs (.alters (.cons (.just 1) .nil) : ExG Nat) false 0
      (.failed 0 [.expectedFound [some 1] (some 2) (.span (0, 1))]) 0 ∧
    Crashes (exEnv [2]) exNoDefs (.alters (.cons (.just 1) .nil) : G exSig exNames (voidErr exSig) Nat) false 0
      "called `Option::unwrap()` on a `None` value" :=
  ⟨⟨20, (parsesAt_iff .zero).2 (by rfl)⟩, 20, (panicsAt_iff .zero).2 (by rfl)⟩

/-- The tracker makes a difference for what an error says was expected: `C62_tracker` cannot say more about that. On `1 3`,
where `1 2` or else `3` is wanted, `2` was expected; with a tracker whose places all compare equal, `2` or `3`. -/
theorem C62_needs_places :
    Finishes (exEnv [1, 3]) exNoDefs (.or (.seq 0 [1, 2]) (.just 3) : ExG Nat) false 0
      (.failed 1 [.expectedFound [some 2] (some 3) (.span (1, 2))]) 0 ∧
    Finishes (N := exSamePlaceNames) (⟨fun i => [1, 3][i]?, ()⟩ : Env exSamePlaceSig) (fun k => k.elim)
      (.or (.seq 0 [1, 2]) (.just 3) : G exSamePlaceSig exSamePlaceNames (simpleErr exSamePlaceSig) Nat) false 0
      (.failed 1 [.expectedFound [some 2, some 3] (some 3) (.span (1, 2))]) 0 :=
  ⟨⟨20, (parsesAt_iff .zero).2 (by rfl)⟩, C47_unmet_needs_places⟩

end PPC.Generic
