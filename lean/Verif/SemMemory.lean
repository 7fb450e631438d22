import Verif.SpecMemory
import Verif.RefLogic

/-!
# How many saved states a client owns: lemmas
-/

namespace PPC

variable {S : Sig} {N : Names S}

/-- The number of saved states owned after a call, given the number before it. -/
def Op.owned : Op S → Nat → Nat
  | .save, c => c + 1
  | .saveAt _, c => c + 1
  | .drop _, c => c - 1
  | _, c => c

/-- Whatever the answers of the stream are: a client that owns `c` saved states never owns more than `K`, drops none
that it does not own, and satisfies `post` with the number that it owns when it returns. -/
def Prog.Owns {α : Type} (K : Nat) (post : α → Nat → Prop) : Prog S α → Nat → Prop
  | .ret a, c => post a c
  | .panic _, _ => True
  | .oof, _ => True
  | .op o k, c => o.owned c ≤ K ∧ ∀ x, (k x).Owns K post (o.owned c)

/-- A client that owns at most `d` saved states besides those that it was given. It gives up `b` of those. -/
def Bal {α : Type} (b d : Nat) (p : Prog S α) : Prop :=
  ∀ c K, c + b + d ≤ K → p.Owns K (fun _ c' => c' = c) (c + b)

theorem Prog.Owns.imp {α : Type} {K : Nat} {post post' : α → Nat → Prop} (hp : ∀ a c, post a c → post' a c) :
    ∀ {p : Prog S α} {c : Nat}, p.Owns K post c → p.Owns K post' c
  | .ret _, _, h => hp _ _ h
  | .panic _, _, _ => trivial
  | .oof, _, _ => trivial
  | .op _ _, _, h => ⟨h.1, fun x => (h.2 x).imp hp⟩

theorem Prog.Owns.bind {α β : Type} {K : Nat} {post : β → Nat → Prop} {f : α → Prog S β} : ∀ {p : Prog S α} {c : Nat},
    p.Owns K (fun a c' => (f a).Owns K post c') c → (p.bind f).Owns K post c
  | .ret _, _, h => h
  | .panic _, _, _ => trivial
  | .oof, _, _ => trivial
  | .op _ _, _, h => ⟨h.1, fun x => (h.2 x).bind⟩

section

variable {α β γ δ E X : Type} {b d d' : Nat}

theorem Bal.ret {a : α} : Bal (S := S) 0 d (.ret a) := fun _ _ _ => rfl
theorem Bal.pure {a : α} : Bal (S := S) 0 d (pure a) := fun _ _ _ => rfl
theorem Bal.panic {m : String} : Bal b d (.panic m : Prog S α) := fun _ _ _ => trivial
theorem Bal.oof : Bal b d (.oof : Prog S α) := fun _ _ _ => trivial

theorem Bal.le {p : Prog S α} (h : Bal b d p) (hd : d ≤ d') : Bal b d' p := fun c K hk => h c K (by omega)

theorem Bal.bind {p : Prog S α} {k : α → Prog S β} (h : Bal 0 d p) (hk : ∀ a, Bal b d (k a)) : Bal b d (p.bind k) := by
  intro c K hc
  refine Prog.Owns.bind ((h (c + b) K (by omega)).imp fun a c' h' => ?_)
  subst h'
  exact hk a c K hc

theorem Bal.op {o : Op S} {k : o.Resp → Prog S α} (ho : ∀ c, o.owned c = c) (hk : ∀ x, Bal b d (k x)) :
    Bal b d (.op o k) := by
  intro c K hc
  refine ⟨by rw [ho]; omega, fun x => ?_⟩
  rw [ho]
  exact hk x c K hc

theorem Bal.save {k : SavedState → Prog S α} (hk : ∀ m, Bal 1 d (k m)) : Bal 0 (d + 1) (.op .save k) := by
  intro c K hc
  exact ⟨by simp only [Op.owned]; omega, fun x => hk x c K (by omega)⟩

theorem Bal.saveAt {i : Nat} {k : SavedState → Prog S α} (hk : ∀ m, Bal (b + 1) d (k m)) :
    Bal b (d + 1) (.op (.saveAt i) k) := by
  intro c K hc
  exact ⟨by simp only [Op.owned]; omega, fun x => hk x c K (by omega)⟩

theorem Bal.drop {m : SavedState} {k : Unit → Prog S α} (hk : ∀ x, Bal b d (k x)) : Bal (b + 1) d (.op (.drop m) k) := by
  intro c K hc
  refine ⟨by simp only [Op.owned]; omega, fun x => ?_⟩
  have : Op.owned (S := S) (.drop m) (c + (b + 1)) = c + b := by simp only [Op.owned]; omega
  rw [this]
  exact hk x c K (by omega)

theorem Bal.withSave {body : SavedState → Prog S α} (h : ∀ m, Bal 0 d (body m)) :
    Bal 0 (d + 1) (Prog.withSave body) := by
  unfold Prog.withSave; prog
  exact .save fun m => .bind (h m) fun a => .drop fun _ => .ret

theorem Bal.attempt {f : Prog S (Bool × α)} (h : Bal 0 d f) : Bal 0 (d + 1) (Prog.attempt f) := by
  refine Bal.withSave fun m => Bal.bind h fun a => ?_
  obtain ⟨b, r⟩ := a
  cases b
  · exact .op (fun _ => rfl) fun _ => .ret
  · exact .ret

end

/-! ## Primitives -/

/-- A call that neither saves nor drops. -/
macro "call" : tactic => `(tactic| refine Bal.op (fun _ => rfl) fun _ => ?_)

section

variable {ε : ErrTy S} {α : Type} {en : Bool} {d : Nat}

theorem pEnd_bal : Bal 0 d (pEnd ε en) := by
  unfold pEnd; prog
  refine Bal.op (fun _ => rfl) fun t => ?_
  cases t.isNone
  · simp only [Bool.false_eq_true, if_false]; call; call; call; exact .ret
  · exact .ret

theorem pJust_bal {x : S.I} : Bal 0 d (pJust ε x en) := by
  unfold pJust; prog
  refine Bal.op (fun _ => rfl) fun t => ?_
  split
  · call; exact .ret
  · call; call; exact .ret

theorem pFilter_bal {p : S.I → Bool} : Bal 0 1 (pFilter ε p en) := by
  refine Bal.attempt (d := 0) ?_
  prog
  refine Bal.op (fun _ => rfl) fun t => ?_
  split
  · split
    · call; exact .ret
    · call; call; exact .ret
  · call; call; exact .ret

theorem pFilterMap_bal {f : S.I → Option α} : Bal 0 d (pFilterMap ε f en) := by
  unfold pFilterMap; prog
  refine Bal.op (fun _ => rfl) fun t => ?_
  split
  · call; exact .ret
  · call; call; exact .ret

theorem seqLoop_bal : ∀ (items : List S.I), Bal 0 d (seqLoop (α := α) ε items)
  | [] => .ret
  | x :: items => by
    unfold seqLoop; prog
    refine Bal.op (fun _ => rfl) fun t => ?_
    split
    · call; exact seqLoop_bal items
    · call; call; exact .ret

theorem pSeq_bal {v : α} {items : List S.I} : Bal 0 1 (pSeq ε v items en) := by
  refine Bal.attempt (d := 0) ?_
  refine Bal.bind (seqLoop_bal items) fun a => ?_
  cases a <;> exact .ret

theorem pOneOf_bal {items : List S.I} : Bal 0 d (pOneOf ε items en) := by
  unfold pOneOf; prog
  refine Bal.op (fun _ => rfl) fun t => ?_
  split
  · split
    · call; exact .ret
    · call; call; exact .ret
  · call; call; exact .ret

theorem pNoneOf_bal {items : List S.I} : Bal 0 d (pNoneOf ε items en) := by
  unfold pNoneOf; prog
  refine Bal.op (fun _ => rfl) fun t => ?_
  split
  · split
    · call; call; exact .ret
    · call; exact .ret
  · call; call; exact .ret

end

/-! ## Combinators -/

/-- A parser that owns at most `d` saved states at a time. -/
def BalP {E α : Type} (p : Parser S E α) (d : Nat) : Prop := ∀ en, Bal 0 d (p en)

section

variable {α β γ δ E X : Type} {d d' : Nat}

theorem BalP.le {p : Parser S E α} (h : BalP p d) (hd : d ≤ d') : BalP p d' := fun en => (h en).le hd

theorem BalP.post {p : Parser S E α} (h : BalP p d) (f : Res α E → Res β γ) :
    BalP (fun en => (p en).bind fun r => .ret (f r)) d := fun en => (h en).bind fun _ => .ret

theorem pMapWithSpan_bal {p : Parser S E α} (h : BalP p d) {f : α → S.Span → β} : BalP (pMapWithSpan f p) (d + 1) :=
  fun en => by
  refine Bal.withSave fun m => Bal.bind (h en) fun r => ?_
  cases r with
  | success a => exact .op (fun _ => rfl) fun _ => .ret
  | recovered a es => exact .op (fun _ => rfl) fun _ => .ret
  | failed i es => exact .ret

theorem mapErrsWithSpan_bal {f : X → S.Span → E} {m : SavedState} : ∀ {es : List X}, Bal 0 d (mapErrsWithSpan f m es)
  | [] => .ret
  | e :: es => by
    unfold mapErrsWithSpan; prog
    call
    exact Bal.bind mapErrsWithSpan_bal fun _ => .ret

theorem pMapErrWithSpan_bal {p : Parser S X α} (h : BalP p d) {f : X → S.Span → E} :
    BalP (pMapErrWithSpan f p) (d + 1) := fun en => by
  refine Bal.withSave fun m => Bal.bind (h en) fun r => ?_
  cases r with
  | success a => exact .ret
  | recovered a es => exact Bal.bind mapErrsWithSpan_bal fun _ => .ret
  | failed i es => exact Bal.bind mapErrsWithSpan_bal fun _ => .ret

theorem tryMapBody_bal {f : α → S.Span → TryMapResult β E} {en : Bool} {m : SavedState} {a : α} :
    Bal 0 d (tryMapBody f en m a) := by
  unfold tryMapBody; prog
  call
  split
  · exact .ret
  · split
    · exact .panic
    · call; exact .ret
  · split
    · exact .panic
    · split <;> exact .ret

theorem pTryMap_bal {p : Parser S E α} (h : BalP p d) {f : α → S.Span → TryMapResult β E} : BalP (pTryMap f p) (d + 1) :=
  fun en => by
  refine Bal.withSave fun m => Bal.bind (h en) fun r => ?_
  cases r with
  | success a => exact tryMapBody_bal
  | recovered a es =>
    refine Bal.bind tryMapBody_bal fun x => ?_
    cases x <;> exact .ret
  | failed i es => exact .ret

theorem finishRec_bal {en : Bool} {o : α} {r : Option (List E)} : Bal 0 d (finishRec (S := S) en o r) := by
  unfold finishRec
  split
  · split
    · exact .ret
    · exact .panic
  · exact .ret

theorem concatLast_bal {p : Parser S E β} (h : BalP p d) {en : Bool} {m : SavedState} {f : β → γ}
    {r : Option (List E)} : Bal 0 d (concatLast en m f p r) := by
  refine Bal.bind (h en) fun x => ?_
  cases x with
  | success b => exact finishRec_bal
  | recovered b es => exact finishRec_bal
  | failed i es => exact .op (fun _ => rfl) fun _ => .ret

theorem concatMid_bal {p : Parser S E β} {q : Parser S E γ} (h : BalP p d) (h' : BalP q d) {en : Bool}
    {m : SavedState} {f : β × γ → δ} {r : Option (List E)} : Bal 0 d (concatMid en m f p q r) := by
  refine Bal.bind (h en) fun x => ?_
  cases x with
  | success b => exact concatLast_bal h'
  | recovered b es => exact concatLast_bal h'
  | failed i es => exact .op (fun _ => rfl) fun _ => .ret

theorem concat2_bal {p : Parser S E α} {q : Parser S E β} (h : BalP p d) (h' : BalP q d) {f : α × β → γ} :
    BalP (concat2 f p q) (d + 1) := fun en => by
  refine Bal.withSave fun m => Bal.bind (h en) fun x => ?_
  cases x with
  | success b => exact concatLast_bal h'
  | recovered b es => exact concatLast_bal h'
  | failed i es => exact .ret

theorem concat3_bal {p : Parser S E α} {q : Parser S E β} {r : Parser S E γ} (h : BalP p d) (h' : BalP q d)
    (h'' : BalP r d) {f : α × β × γ → δ} : BalP (concat3 f p q r) (d + 1) := fun en => by
  refine Bal.withSave fun m => Bal.bind (h en) fun x => ?_
  cases x with
  | success b => exact concatMid_bal h' h''
  | recovered b es => exact concatMid_bal h' h''
  | failed i es => exact .ret

theorem concatRest_bal {en : Bool} {m : SavedState} : ∀ {ps : List (Parser S E α)} {out : List α}
    {r : Option (List E)}, (∀ p ∈ ps, BalP p d) → Bal 0 d (concatRest en m ps out r)
  | [], _, _, _ => finishRec_bal
  | p :: ps, out, r, h => by
    unfold concatRest
    refine Bal.bind (h p (by simp) en) fun x => ?_
    have h' : ∀ q ∈ ps, BalP q d := fun q hq => h q (by simp [hq])
    cases x with
    | success b => exact concatRest_bal h'
    | recovered b es => exact concatRest_bal h'
    | failed i es => exact .op (fun _ => rfl) fun _ => .ret

theorem concatList_bal {ps : List (Parser S E α)} (h : ∀ p ∈ ps, BalP p d) : BalP (concatList ps) (d + 1) := fun en => by
  refine Bal.withSave fun m => ?_
  cases ps with
  | nil => exact finishRec_bal
  | cons p ps =>
    refine Bal.bind (h p (by simp) en) fun x => ?_
    have h' : ∀ q ∈ ps, BalP q d := fun q hq => h q (by simp [hq])
    cases x with
    | success b => exact concatRest_bal h'
    | recovered b es => exact concatRest_bal h'
    | failed i es => exact .ret

/-! ## Choice -/

/-- What the first pass of a choice returns: a value, or failures of the parsers of the choice. -/
theorem altFirst_bal : ∀ {ps : List (Parser S E α)} {fs : List (Failure S E α)}, (∀ p ∈ ps, BalP p d) →
    (∀ f ∈ fs, BalP f.2.2 d) → ∀ {β : Type} {k : α ⊕ List (Failure S E α) → Prog S β},
    (∀ o, Bal 0 d (k (.inl o))) → (∀ fs, (∀ f ∈ fs, BalP f.2.2 d) → Bal 0 d (k (.inr fs))) →
    Bal 0 d ((altFirst ps fs).bind k)
  | [], fs, _, hf, _, _, _, h2 => h2 fs hf
  | p :: ps, fs, hp, hf, _, k, h1, h2 => by
    unfold altFirst
    simp only [Prog.bind_eq, Prog.bind_assoc]
    refine Bal.bind (hp p (by simp) false) fun x => ?_
    cases x with
    | success o => exact h1 o
    | recovered o es => exact .panic
    | failed i es =>
      refine altFirst_bal (fun q hq => hp q (by simp [hq])) (fun f hf' => ?_) h1 h2
      rcases List.mem_append.1 hf' with h | h
      · exact hf f h
      · simp at h; subst h; exact hp p (by simp)

theorem insertDesc_mem_or {β : Type _} {x y : Nat × β} : ∀ {ys : List (Nat × β)}, y ∈ insertDesc x ys → y = x ∨ y ∈ ys
  | [], h => by simpa [insertDesc] using h
  | z :: zs, h => by
    unfold insertDesc at h
    split at h
    · simpa using h
    · rcases List.mem_cons.1 h with h | h
      · exact .inr (by simp [h])
      · rcases insertDesc_mem_or h with h | h
        · exact .inl h
        · exact .inr (by simp [h])

theorem foldl_insertDesc_mem {β : Type _} {y : Nat × β} : ∀ {xs acc : List (Nat × β)},
    y ∈ xs.foldl (fun acc x => insertDesc x acc) acc → y ∈ xs ∨ y ∈ acc
  | [], _, h => .inr h
  | x :: xs, acc, h => by
    rcases foldl_insertDesc_mem (xs := xs) h with h | h
    · exact .inl (by simp [h])
    · rcases insertDesc_mem_or h with h | h
      · exact .inl (by simp [h])
      · exact .inr h

theorem sortDesc_mem' {β : Type _} {y : Nat × β} {xs : List (Nat × β)} (h : y ∈ sortDesc xs) : y ∈ xs := by
  rcases foldl_insertDesc_mem h with h | h
  · exact h
  · cases h

theorem altRecover_bal : ∀ {fs : List (Failure S E α)}, (∀ f ∈ fs, BalP f.2.2 d) → Bal 0 d (altRecover fs)
  | [], _ => .ret
  | f :: fs, h => by
    obtain ⟨i, es, p⟩ := f
    unfold altRecover
    refine Bal.bind (h (i, es, p) (by simp) true) fun x => ?_
    cases x with
    | success o => exact .panic
    | recovered o es => exact .ret
    | failed i es => exact altRecover_bal fun f hf => h f (by simp [hf])

theorem altCombine_bal {ε : ErrTy S} {fs : List (Failure S ε.E α)} : Bal 0 d (altCombine ε fs) := by
  have h1 : ∀ fs : List (Failure S ε.E α), Bal 0 d (altElse ε fs) := by
    intro fs; unfold altElse; split
    · exact .ret
    · exact .panic
  unfold altCombine
  split
  · exact .panic
  · split
    · split
      · exact .ret
      · exact h1 _
    · exact h1 _

theorem alternate_bal {ε : ErrTy S} {ps : List (Parser S ε.E α)} (h : ∀ p ∈ ps, BalP p d) : BalP (alternate ε ps) d :=
  fun en => by
  refine altFirst_bal h (by simp) (fun o => .ret) fun fs hf => ?_
  simp only
  split
  · exact .panic
  · split
    · refine Bal.bind (altRecover_bal fun f hf' => hf f (sortDesc_mem' hf')) fun x => ?_
      cases x with
      | none => exact altCombine_bal
      | some r => exact .ret
    · exact altCombine_bal

/-! ## Repetition -/

/-- A client that owns at most `T` saved states, of which it was given `b`, which it gives up. -/
def Tot {α : Type} (b T : Nat) (p : Prog S α) : Prop := ∀ c K, c + T ≤ K → p.Owns K (fun _ c' => c' = c) (c + b)

theorem Bal.tot {b T : Nat} {p : Prog S α} (h : Bal b d p) (hT : b + d ≤ T) : Tot b T p := fun c K hk => h c K (by omega)

theorem Tot.bal {T : Nat} {p : Prog S α} (h : Tot 0 T p) : Bal 0 T p := fun c K hk => h c K (by omega)

theorem Tot.bind {b T : Nat} {p : Prog S α} {k : α → Prog S β} (h : Bal 0 d p) (hT : b + d ≤ T)
    (hk : ∀ a, Tot b T (k a)) : Tot b T (p.bind k) := by
  intro c K hc
  refine Prog.Owns.bind ((h (c + b) K (by omega)).imp fun a c' h' => ?_)
  subst h'
  exact hk a c K hc

/-- What `before` counts for. -/
def cnt (m : Option SavedState) : Nat := if m.isSome then 1 else 0

theorem cnt_le (m : Option SavedState) : cnt m ≤ 1 := by cases m <;> simp [cnt]

theorem Tot.dropOpt {T : Nat} {m : Option SavedState} (hT : cnt m ≤ T) {k : Unit → Prog S α} (hk : ∀ x, Tot 0 T (k x)) :
    Tot (cnt m) T ((dropOpt (S := S) m).bind k) := by
  cases m with
  | none => exact hk ()
  | some m =>
    intro c K hc
    have h1 : cnt (some m) = 1 := rfl
    rw [h1] at hT ⊢
    exact ⟨by simp only [Op.owned]; omega, fun x => hk x c K hc⟩

theorem repeatItem_bal {cfg : RepCfg} {item : Parser S E α} (hi : BalP item d) {en : Bool} {m0 : SavedState}
    {again : List α → Option (List E) → Prog S (Res (List α) E)} {out : List α} {r : Option (List E)}
    {before : Option SavedState} {T : Nat} (hT : cnt before + d ≤ T) (ha : ∀ out r, Tot 0 T (again out r)) :
    Tot (cnt before) T (repeatItem cfg item en m0 again out r before) := by
  have h1 : cnt before ≤ T := by omega
  unfold repeatItem
  simp only [Prog.bind_eq]
  split
  · exact Tot.dropOpt h1 fun _ => finishRec_bal.tot (d := 0) (by omega)
  · refine Tot.bind (hi _) hT fun x => ?_
    cases x with
    | success b => exact Tot.dropOpt h1 fun _ => ha _ _
    | recovered b es => exact Tot.dropOpt h1 fun _ => ha _ _
    | failed i es =>
      simp only
      split
      · cases before with
        | none => exact Bal.ret.tot (d := 0) (by omega)
        | some m =>
          refine Bal.tot (b := 1) (d := 0) ?_ (by simpa [cnt] using h1)
          simp only
          split
          · exact .op (fun _ => rfl) fun _ => .drop fun _ => .ret
          · exact .drop fun _ => .ret
      · refine Tot.bind (d := 0) (.op (fun _ => rfl) fun _ => .ret) (by have := cnt_le before; omega) fun _ => ?_
        exact Tot.dropOpt h1 fun _ => Bal.ret.tot (d := 0) (by omega)

theorem repeatLoop_bal {cfg : RepCfg} {item : Parser S E α} (hi : BalP item d) {sep : Option (Parser S E β)} {T : Nat}
    (hT : d ≤ T) (hs : ∀ s, sep = some s → BalP s d ∧ d + 1 ≤ T) {en : Bool} {m0 : SavedState} :
    ∀ {fuel : Nat} {out : List α} {r : Option (List E)}, Tot 0 T (repeatLoop cfg item sep en m0 fuel out r)
  | 0, _, _ => fun _ _ _ => trivial
  | fuel + 1, out, r => by
    unfold repeatLoop
    split
    · exact finishRec_bal.tot (d := 0) (by omega)
    · split
      · rename_i sep' _
        obtain ⟨h2, h3⟩ := hs _ rfl
        prog
        intro c K hc
        refine ⟨by simp only [Op.owned]; omega, fun m => ?_⟩
        refine (Tot.bind (b := 1) (T := T) (h2 _) (by omega) fun x => ?_) c K hc
        have hI : ∀ out r, Tot 1 T (repeatItem cfg item en m0 (repeatLoop cfg item (some sep') en m0 fuel) out r
            (some m)) := fun out r =>
          repeatItem_bal (before := some m) hi (by simp [cnt]; omega) fun _ _ => repeatLoop_bal hi hT hs
        cases x with
        | success b => exact hI _ _
        | recovered b es => exact hI _ _
        | failed i es =>
          simp only
          split
          · exact hI _ _
          · refine Bal.tot (d := 0) ?_ (by omega)
            split
            · exact .drop fun _ => .ret
            · exact .op (fun _ => rfl) fun _ => .drop fun _ => .ret
      · exact repeatItem_bal (before := none) hi (by simp [cnt]; omega) fun _ _ => repeatLoop_bal hi hT hs

theorem repeatP_bal {n : Nat} {cfg : RepCfg} {item : Parser S E α} (hi : BalP item d) {sep : Option (Parser S E β)} {T : Nat}
    (hT : d ≤ T) (hs : ∀ s, sep = some s → BalP s d ∧ d + 1 ≤ T) : BalP (repeatP n cfg item sep) (T + 1) :=
  fun _ => Bal.withSave fun _ => (repeatLoop_bal hi hT hs).bal

/-! ## Strategies -/

/-- A strategy that owns at most `d` saved states besides `started` and `failed`, if the parser owns at most `dp`. -/
def BalS (s : Strat S E α) (dp d : Nat) : Prop :=
  ∀ p : Parser S E α, BalP p dp → ∀ st fa es, Bal 0 d (s p st fa es)

variable {dp : Nat}

theorem BalS.of {s : Strat S E α} (h : ∀ p st fa es, Bal 0 d (s p st fa es)) : BalS s dp d := fun p _ => h p

theorem BalS.le {s : Strat S E α} (h : BalS s dp d) (hd : d ≤ d') : BalS s dp d' := fun p hp st fa es => (h p hp st fa es).le hd

theorem BalS.orElse {s t : Strat S E α} (h : BalS s dp d) (h' : BalS t dp d) : BalS (s.orElse t) dp d := by
  intro p hp st fa es
  refine Bal.bind (h p hp st fa es) fun x => ?_
  obtain ⟨o, fa', es'⟩ := x
  cases o with
  | some o => exact .ret
  | none => exact h' p hp st fa' es'

theorem tokenIs_bal {p : S.I → Bool} {b : Bool} : Bal 0 d (tokenIs p b) := by
  unfold tokenIs; prog; call; exact .ret

theorem findLoop_bal {p : S.I → Bool} : ∀ {n : Nat}, Bal 0 d (findLoop p n)
  | 0 => .oof
  | n + 1 => by
    unfold findLoop
    refine Bal.bind tokenIs_bal fun x => ?_
    cases x
    · exact .op (fun _ => rfl) fun _ => findLoop_bal
    · exact .ret

theorem scanLoop_bal {sc : Scanner S E} : ∀ {n : Nat} {st : sc.σ} {es : List E}, Bal 0 d (scanLoop sc n st es)
  | 0, _, _ => .oof
  | n + 1, st, es => by
    unfold scanLoop; prog
    refine Bal.op (fun _ => rfl) fun t => ?_
    split
    · call
      split
      · exact .panic
      · exact .ret
      · call; exact scanLoop_bal
    · call; exact .ret

theorem whileNotLoop_bal {t : Strat S E α} (ht : BalS t dp d) {pr : S.I → Bool} {p : Parser S E α} (hp : BalP p dp)
    {st : SavedState} : ∀ {n : Nat} {fa : SavedState} {es : List E}, Bal 0 d (whileNotLoop pr t p st n fa es)
  | 0, _, _ => .oof
  | n + 1, fa, es => by
    unfold whileNotLoop
    refine Bal.bind tokenIs_bal fun x => ?_
    cases x
    · refine Bal.bind (ht p hp st fa es) fun y => ?_
      obtain ⟨o, fa', es'⟩ := y
      cases o with
      | some o => exact .ret
      | none => exact .op (fun _ => rfl) fun _ => whileNotLoop_bal ht hp
    · exact .ret

theorem runIn_bal {p : Parser S E α} (hp : BalP p d) {ex si : Bool} {fa : SavedState} {es : List E} :
    Bal 0 (max d 1) (runIn p ex si fa es) := by
  refine Bal.bind ((hp _).le (Nat.le_max_left _ _)) fun x => ?_
  cases x with
  | success o => exact .ret
  | recovered o es => exact .ret
  | failed i es =>
    refine Bal.le (d := 0 + 1) ?_ (Nat.le_max_right _ _)
    exact .saveAt fun _ => .drop fun _ => .ret

theorem pToRecover_bal {p : Parser S E α} {s : Strat S E α} (hp : BalP p dp) (hs : BalS s dp d) :
    BalP (pToRecover p s) (max dp (d + 2)) := fun en => by
  refine Bal.bind ((hp en).le (Nat.le_max_left _ _)) fun x => ?_
  cases x with
  | success b => exact .ret
  | recovered b es => exact .ret
  | failed i es =>
    cases en with
    | false => exact .ret
    | true =>
      simp only [Bool.not_true, Bool.false_eq_true, if_false]
      prog
      refine Bal.le (d := d + 1 + 1) ?_ (Nat.le_max_right _ _)
      refine .save fun st => .saveAt fun fa => Bal.bind (hs p hp st fa es) fun r => ?_
      obtain ⟨o, fa', es'⟩ := r
      cases o with
      | some o => exact .drop fun _ => .drop fun _ => .ret
      | none => exact .op (fun _ => rfl) fun _ => .drop fun _ => .drop fun _ => .ret

end

/-! ## Every parser -/

section

variable {N : Names S} {ρ : REnv S N} {r n : Nat} {F : N.K → Prop}

set_option maxHeartbeats 4000000

mutual

theorem G.bal (hρ : ∀ k, F k → BalP (ρ k) r) : ∀ {ε : ErrTy S} {α : Type} (g : G S N ε α), g.All (callsL F) →
      BalP (g.denote ρ n) (g.saves r)
  | _, _, .empty, _ => fun _ => .ret
  | _, _, .none _, _ => fun _ => .ret
  | _, _, .eof, _ => fun _ => pEnd_bal
  | _, _, .just _, _ => fun _ => pJust_bal
  | _, _, .filter _, _ => fun _ => pFilter_bal
  | _, _, .filterMap _, _ => fun _ => pFilterMap_bal
  | _, _, .seq _ _, _ => fun _ => pSeq_bal
  | _, _, .oneOf _, _ => fun _ => pOneOf_bal
  | _, _, .noneOf _, _ => fun _ => pNoneOf_bal
  | _, _, .boxed g, hA => by
    simp only [G.denote, G.saves]
    exact G.bal hρ g hA.2
  | _, _, .withError g, hA => by
    simp only [G.denote, G.saves]
    exact G.bal hρ g hA.2
  | _, _, .to g _, hA => by
    simp only [G.denote, G.saves]
    exact (G.bal hρ g hA.2).post _
  | _, _, .some g, hA => by
    simp only [G.denote, G.saves]
    exact (G.bal hρ g hA.2).post _
  | _, _, .map _ g, hA => by
    simp only [G.denote, G.saves]
    exact (G.bal hρ g hA.2).post _
  | _, _, .mapErr _ g, hA => by
    simp only [G.denote, G.saves]
    exact (G.bal hρ g hA.2).post _
  | _, _, .mapWithSpan _ g, hA => by
    simp only [G.denote, G.saves]
    exact pMapWithSpan_bal (G.bal hρ g hA.2)
  | _, _, .mapErrWithSpan _ g, hA => by
    simp only [G.denote, G.saves]
    exact pMapErrWithSpan_bal (G.bal hρ g hA.2)
  | _, _, .tryMap _ g, hA => by
    simp only [G.denote, G.saves]
    exact pTryMap_bal (G.bal hρ g hA.2)
  | _, _, .then_ a b, hA => by
    simp only [G.denote, G.saves]
    exact concat2_bal ((G.bal hρ a hA.2.1).le (Nat.le_max_left _ _)) ((G.bal hρ b hA.2.2).le (Nat.le_max_right _ _))
  | _, _, .thenIgnore a b, hA => by
    simp only [G.denote, G.saves]
    exact concat2_bal ((G.bal hρ a hA.2.1).le (Nat.le_max_left _ _)) ((G.bal hρ b hA.2.2).le (Nat.le_max_right _ _))
  | _, _, .ignoreThen a b, hA => by
    simp only [G.denote, G.saves]
    exact concat2_bal ((G.bal hρ a hA.2.1).le (Nat.le_max_left _ _)) ((G.bal hρ b hA.2.2).le (Nat.le_max_right _ _))
  | _, _, .delimitedBy l m x, hA => by
    simp only [G.denote, G.saves]
    exact concat3_bal ((G.bal hρ l hA.2.1).le (by omega)) ((G.bal hρ m hA.2.2.1).le (by omega)) ((G.bal hρ x hA.2.2.2).le (by omega))
  | _, _, .paddedBy p m, hA => by
    simp only [G.denote, G.saves]
    exact concat3_bal ((G.bal hρ p hA.2.1).le (by omega)) ((G.bal hρ m hA.2.2).le (by omega)) ((G.bal hρ p hA.2.1).le (by omega))
  | _, _, .chain gs, hA => by
    simp only [G.denote, G.saves]
    exact concatList_bal (GL.bal hρ gs hA.2)
  | _, _, .or a b, hA => by
    simp only [G.denote, G.saves]
    refine alternate_bal fun p hp => ?_
    simp only [List.mem_cons, List.not_mem_nil, or_false] at hp
    rcases hp with rfl | rfl
    · exact (G.bal hρ a hA.2.1).le (Nat.le_max_left _ _)
    · exact (G.bal hρ b hA.2.2).le (Nat.le_max_right _ _)
  | _, _, .orNot g, hA => by
    simp only [G.denote, G.saves]
    refine alternate_bal fun p hp => ?_
    simp only [List.mem_cons, List.not_mem_nil, or_false] at hp
    rcases hp with rfl | rfl
    · exact (G.bal hρ g hA.2).post _
    · exact fun _ => .ret
  | _, _, .alters gs, hA => by
    simp only [G.denote, G.saves]
    exact alternate_bal (GL.bal hρ gs hA.2)
  | _, _, .repeated c g, hA => by
    simp only [G.denote, G.saves]
    exact repeatP_bal (G.bal hρ g hA.2) (Nat.le_refl _) (by rintro _ ⟨⟩)
  | _, _, .separatedBy c g s, hA => by
    simp only [G.denote, G.saves]
    refine repeatP_bal ((G.bal hρ g hA.2.1).le (Nat.le_max_left _ (s.saves r))) (by omega) ?_
    rintro _ ⟨⟩
    exact ⟨(G.bal hρ s hA.2.2).le (Nat.le_max_right _ _), by omega⟩
  | _, _, .toRecover g st, hA => by
    simp only [G.denote, G.saves]
    exact pToRecover_bal (G.bal hρ g hA.2.1) (CS.bal hρ st hA.2.2)
  | _, _, .call k, hA => hρ k hA

theorem GL.bal (hρ : ∀ k, F k → BalP (ρ k) r) : ∀ {ε : ErrTy S} {α : Type} (gs : GL S N ε α), gs.All (callsL F) →
    ∀ p ∈ gs.denote ρ n, BalP p (gs.saves r)
  | _, _, .nil, _, _, h => by simp [GL.denote] at h
  | _, _, .cons g gs, hA, p, h => by
    simp only [GL.denote, List.mem_cons] at h
    simp only [GL.saves]
    rcases h with rfl | h
    · exact (G.bal hρ g hA.1).le (Nat.le_max_left _ _)
    · exact (GL.bal hρ gs hA.2 p h).le (Nat.le_max_right _ _)

theorem IS.bal (hρ : ∀ k, F k → BalP (ρ k) r) {dp : Nat} : ∀ {ε : ErrTy S} {α : Type} (s : IS S N ε α), s.All (callsL F) →
    BalS (s.denote ρ n) dp (s.saves r dp)
  | _, _, .attemptTo, _ => .of fun _ _ _ _ => .ret
  | _, _, .skipIf s _, hA => by
    simp only [IS.denote, IS.saves]
    refine (IS.bal hρ s hA.2).orElse (.of fun _ _ _ _ => ?_)
    refine Bal.bind tokenIs_bal fun b => ?_
    cases b
    · exact .ret
    · exact .op (fun _ => rfl) fun _ => .ret
  | _, _, .pushError s _, hA => by
    simp only [IS.denote, IS.saves]
    exact (IS.bal hρ s hA.2).orElse (.of fun _ _ _ _ => .ret)
  | _, _, .pushErrorHere s _, hA => by
    simp only [IS.denote, IS.saves]
    exact (IS.bal hρ s hA.2).orElse (.of fun _ _ _ _ => .op (fun _ => rfl) fun _ => .ret)
  | _, _, .pushErrorUpToHere s _, hA => by
    simp only [IS.denote, IS.saves]
    exact (IS.bal hρ s hA.2).orElse (.of fun _ _ _ _ => .op (fun _ => rfl) fun _ => .ret)
  | _, _, .pushErrorForToken s _, hA => by
    simp only [IS.denote, IS.saves]
    exact (IS.bal hρ s hA.2).orElse (.of fun _ _ _ _ => .op (fun _ => rfl) fun _ => .op (fun _ => rfl) fun _ => .ret)
  | _, _, .updateErrors s _, hA => by
    simp only [IS.denote, IS.saves]
    exact (IS.bal hρ s hA.2).orElse (.of fun _ _ _ _ => .ret)
  | _, _, .updateErrorsHere s _, hA => by
    simp only [IS.denote, IS.saves]
    exact (IS.bal hρ s hA.2).orElse (.of fun _ _ _ _ => .op (fun _ => rfl) fun _ => .ret)
  | _, _, .updateErrorsUpToHere s _, hA => by
    simp only [IS.denote, IS.saves]
    exact (IS.bal hρ s hA.2).orElse (.of fun _ _ _ _ => .op (fun _ => rfl) fun _ => .ret)
  | _, _, .updateErrorsForToken s _, hA => by
    simp only [IS.denote, IS.saves]
    exact (IS.bal hρ s hA.2).orElse (.of fun _ _ _ _ => .op (fun _ => rfl) fun _ => .op (fun _ => rfl) fun _ => .ret)
  | _, _, .restart s, hA => by
    simp only [IS.denote, IS.saves]
    exact (IS.bal hρ s hA.2).orElse (.of fun _ _ _ _ => .op (fun _ => rfl) fun _ => .ret)
  | _, _, .seekToFailed s, hA => by
    simp only [IS.denote, IS.saves]
    exact (IS.bal hρ s hA.2).orElse (.of fun _ _ _ _ => .op (fun _ => rfl) fun _ => .ret)
  | _, _, .skip s, hA => by
    simp only [IS.denote, IS.saves]
    exact (IS.bal hρ s hA.2).orElse (.of fun _ _ _ _ => .op (fun _ => rfl) fun _ => .ret)
  | _, _, .boxed s, hA => by
    simp only [IS.denote, IS.saves]
    exact IS.bal hρ s hA.2
  | _, _, .find s _, hA => by
    simp only [IS.denote, IS.saves]
    exact (IS.bal hρ s hA.2).orElse (.of fun _ _ _ _ => Bal.bind findLoop_bal fun _ => .ret)
  | _, _, .scan s _, hA => by
    simp only [IS.denote, IS.saves]
    exact (IS.bal hρ s hA.2).orElse (.of fun _ _ _ _ => Bal.bind scanLoop_bal fun _ => .ret)
  | _, _, .maybe s t, hA => by
    simp only [IS.denote, IS.saves]
    refine ((IS.bal hρ s hA.2.1).le (Nat.le_max_left _ _)).orElse fun p hp st fa es => ?_
    exact Bal.le (Bal.attempt (Bal.bind (IS.bal hρ t hA.2.2 p hp st fa es) fun _ => .ret)) (Nat.le_max_right _ _)
  | _, _, .whileNot s _ t, hA => by
    simp only [IS.denote, IS.saves]
    refine ((IS.bal hρ s hA.2.1).le (Nat.le_max_left _ _)).orElse fun p hp st fa es => ?_
    exact (whileNotLoop_bal (IS.bal hρ t hA.2.2) hp).le (Nat.le_max_right _ _)
  | _, _, .retry s _ _, hA => by
    simp only [IS.denote, IS.saves]
    refine ((IS.bal hρ s hA.2).le (Nat.le_max_left _ _)).orElse fun p hp st fa es => ?_
    exact (runIn_bal hp).le (Nat.le_max_right _ _)
  | _, _, .tryToParse s g _ _, hA => by
    simp only [IS.denote, IS.saves]
    refine ((IS.bal hρ s hA.2.1).le (Nat.le_max_left _ _)).orElse (.of fun p st fa es => ?_)
    exact (runIn_bal (G.bal hρ g hA.2.2)).le (Nat.le_max_right _ _)

theorem CS.bal (hρ : ∀ k, F k → BalP (ρ k) r) {dp : Nat} : ∀ {ε : ErrTy S} {α : Type} (s : CS S N ε α), s.All (callsL F) →
    BalS (s.denote ρ n) dp (s.saves r dp)
  | _, _, .ret s _, hA => by
    simp only [CS.denote, CS.saves]
    exact (IS.bal hρ s hA).orElse (.of fun _ _ _ _ => .ret)
  | _, _, .retWith s _, hA => by
    simp only [CS.denote, CS.saves]
    exact (IS.bal hρ s hA).orElse (.of fun _ _ _ _ => .ret)
  | _, _, .retWithSpan s _, hA => by
    simp only [CS.denote, CS.saves]
    exact (IS.bal hρ s hA).orElse (.of fun _ _ _ _ => .op (fun _ => rfl) fun _ => .ret)
  | _, _, .orFail s, hA => by
    simp only [CS.denote, CS.saves]
    exact IS.bal hρ s hA

end

end

end PPC
