import Verif.PropsBuilder
import Verif.PropsRecursion
import Verif.PropsRepeat

/-!
# Equivalences between parsers: C43

`a ≃ b`: the parsers `a` and `b` cannot be told apart by running them: on every input, from every
position, with recovery enabled or not, they return the same result (output, errors, failure index)
and leave the stream at the same position, or panic with the same message.
-/

namespace PPC

variable {S : Sig} {N : Names S} {ε : ErrTy S} {α β γ δ ζ : Type}

/-! ## Specification -/

/-- The parsers cannot be told apart by running them. -/
def Equivalent (a b : G S N ε α) : Prop :=
  ∀ (e : Env S) (D : Defs S N) (en : Bool) (i : Nat), Valid e i →
    (∀ r j, Finishes e D a en i r j ↔ Finishes e D b en i r j) ∧
    (∀ m, Crashes e D a en i m ↔ Crashes e D b en i m)

@[inherit_doc] scoped infix:50 " ≃ " => Equivalent

/-! ## Auxiliary lemmas -/

theorem Equivalent.of_bounds {a b : G S N ε α}
    (h1 : ∀ e D n en i, Valid e i → a.sem e D n en i ≠ .oof → ∃ m, b.sem e D m en i = a.sem e D n en i)
    (h2 : ∀ e D n en i, Valid e i → b.sem e D n en i ≠ .oof → ∃ m, a.sem e D m en i = b.sem e D n en i) :
    a ≃ b := by
  intro e D en i hi
  constructor
  · intro r j
    constructor
    · rintro ⟨n, h⟩
      rw [parsesAt_iff hi] at h
      obtain ⟨m, hm⟩ := h1 e D n en i hi (by rw [h]; exact fun h => by cases h)
      exact ⟨m, (parsesAt_iff hi).2 (hm.trans h)⟩
    · rintro ⟨n, h⟩
      rw [parsesAt_iff hi] at h
      obtain ⟨m, hm⟩ := h2 e D n en i hi (by rw [h]; exact fun h => by cases h)
      exact ⟨m, (parsesAt_iff hi).2 (hm.trans h)⟩
  · intro msg
    constructor
    · rintro ⟨n, h⟩
      rw [panicsAt_iff hi] at h
      obtain ⟨m, hm⟩ := h1 e D n en i hi (by rw [h]; exact fun h => by cases h)
      exact ⟨m, (panicsAt_iff hi).2 (hm.trans h)⟩
    · rintro ⟨n, h⟩
      rw [panicsAt_iff hi] at h
      obtain ⟨m, hm⟩ := h2 e D n en i hi (by rw [h]; exact fun h => by cases h)
      exact ⟨m, (panicsAt_iff hi).2 (hm.trans h)⟩

theorem Equivalent.of_sem {a b : G S N ε α} (h : ∀ e D n en i, a.sem e D n en i = b.sem e D n en i) :
    a ≃ b :=
  .of_bounds (fun e D n en i _ _ => ⟨n, (h e D n en i).symm⟩) (fun e D n en i _ _ => ⟨n, h e D n en i⟩)

theorem Equivalent.of_sem_valid {a b : G S N ε α}
    (h : ∀ e D n en i, Valid e i → a.sem e D n en i = b.sem e D n en i) : a ≃ b :=
  .of_bounds (fun e D n en i hi _ => ⟨n, (h e D n en i hi).symm⟩)
    (fun e D n en i hi _ => ⟨n, h e D n en i hi⟩)

theorem Res.map_map {E : Type} (f : β → γ) (g : α → β) (r : Res α E) :
    (r.map g).map f = r.map fun x => f (g x) := by
  cases r <;> rfl

theorem Res.mapErr_mapErr {E E' E'' : Type} (f : E' → E'') (g : E → E') (r : Res α E) :
    (r.mapErr g).mapErr f = r.mapErr fun x => f (g x) := by
  cases r <;> simp [Res.mapErr]

theorem Out.bind_assoc {x : Out α} {f : α → Out β} {g : β → Out γ} :
    ((x >>= f) >>= g) = x >>= fun a => f a >>= g := by
  cases x <;> rfl

theorem Out.bind_congr {x : Out α} {f g : α → Out β} (h : ∀ a, f a = g a) : (x >>= f) = x >>= g := by
  cases x <;> simp_all

theorem Out.bind_congr' {x : Out α} {f g : α → Out β} (h : ∀ a, x = .ok a → f a = g a) :
    (x >>= f) = x >>= g := by
  cases x with
  | ok a => exact h a rfl
  | panic m => rfl
  | oof => rfl
  | stuck => rfl

theorem finishSem_map {E : Type} {en : Bool} {o : α} {f : α → β} {r : Option (List E)} {j : Nat} :
    (finishSem en o r j >>= fun x => Out.ok (x.1.map f, x.2)) = finishSem en (f o) r j := by
  cases r <;> cases en <;> rfl

theorem concatLastSem_map {E : Type} {en : Bool} {st j : Nat} {f : β → γ} {h : γ → δ} {q : PSem E β}
    {r : Option (List E)} :
    (concatLastSem en st f q r j >>= fun x => Out.ok (x.1.map h, x.2)) =
      concatLastSem en st (fun b => h (f b)) q r j := by
  unfold concatLastSem
  rw [Out.bind_assoc]
  refine Out.bind_congr fun x => ?_
  obtain ⟨r', k⟩ := x
  cases r' with
  | success b => exact finishSem_map
  | recovered b es => exact finishSem_map
  | failed x es => rfl

theorem qConcat2_map {E : Type} {en : Bool} {i : Nat} {f : α × β → γ} {h : γ → δ} {qa : PSem E α}
    {qb : PSem E β} : qMap h (qConcat2 f qa qb) en i = qConcat2 (fun x => h (f x)) qa qb en i := by
  unfold qMap qConcat2
  rw [Out.bind_assoc]
  refine Out.bind_congr fun x => ?_
  obtain ⟨r', k⟩ := x
  cases r' with
  | success b => exact concatLastSem_map
  | recovered b es => exact concatLastSem_map
  | failed x es => rfl

theorem extendRec_assoc {E : Type} {r : Option (List E)} {a b : List E} :
    extendRec r (a ++ b) = extendRec (extendRec r a) b := by
  cases r <;> simp [extendRec]

theorem extendRec_some {E : Type} {r : Option (List E)} {a : List E} :
    ∃ l, extendRec r a = some l := by
  cases r <;> simp [extendRec]

/-- Two sequences nested to the left are one sequence of three. -/
theorem concat2_left {E : Type} {en : Bool} {i : Nat} {f : γ × δ → ζ} {h : α × β → γ} {qa : PSem E α}
    {qb : PSem E β} {qc : PSem E δ} (ha : NR qa) (hb : NR qb) :
    qConcat2 f (qConcat2 h qa qb) qc en i = qConcat3 (fun x => f (h (x.1, x.2.1), x.2.2)) qa qb qc en i := by
  unfold qConcat2 qConcat3
  rw [Out.bind_assoc]
  cases hq : qa en i with
  | ok x =>
    obtain ⟨r, j⟩ := x
    cases r with
    | success a =>
      simp only [bind, Out.bind]
      unfold concatLastSem concatMidSem
      simp only [bind, Out.bind]
      cases hb' : qb en j with
      | ok y =>
        obtain ⟨r', k⟩ := y
        cases r' with
        | success b => rfl
        | recovered b es =>
          cases en
          · exact (hb _ _ _ _ hb').elim
          · rfl
        | failed x es => rfl
      | panic m => rfl
      | oof => rfl
      | stuck => rfl
    | recovered a es =>
      cases en with
      | false => exact (ha _ _ _ _ hq).elim
      | true =>
      simp only [bind, Out.bind]
      unfold concatLastSem concatMidSem
      simp only [bind, Out.bind]
      cases hb' : qb true j with
      | ok y =>
        obtain ⟨r', k⟩ := y
        cases r' <;> rfl
      | panic m => rfl
      | oof => rfl
      | stuck => rfl
    | failed x es => rfl
  | panic m => rfl
  | oof => rfl
  | stuck => rfl

/-- Two sequences nested to the right are one sequence of three. -/
theorem concat2_right {E : Type} {en : Bool} {i : Nat} {f : α × γ → ζ} {h : β × δ → γ} {qa : PSem E α}
    {qb : PSem E β} {qc : PSem E δ} (ha : NR qa) (hb : NR qb) (hc : NR qc) :
    qConcat2 f qa (qConcat2 h qb qc) en i = qConcat3 (fun x => f (x.1, h x.2)) qa qb qc en i := by
  unfold qConcat2 qConcat3
  refine Out.bind_congr' fun x hq => ?_
  obtain ⟨r, j⟩ := x
  have key : ∀ (a : α) (r : Option (List E)), (en = false → r = none) →
      concatLastSem en i (fun b => f (a, b)) (qConcat2 h qb qc) r j =
        concatMidSem en i (fun x => f (a, h x)) qb qc r j := by
    intro a r hr
    unfold concatLastSem concatMidSem qConcat2
    simp only [bind, Out.bind]
    cases hb' : qb en j with
    | ok y =>
      obtain ⟨r', k⟩ := y
      cases r' with
      | success b =>
        simp only [concatLastSem, bind, Out.bind]
        cases hc' : qc en k with
        | ok z =>
          obtain ⟨r'', l⟩ := z
          cases r'' with
          | success c => rfl
          | recovered c es =>
            cases en with
            | false => exact (hc _ _ _ _ hc').elim
            | true => rfl
          | failed x es => rfl
        | panic m => rfl
        | oof => rfl
        | stuck => rfl
      | recovered b es =>
        cases en with
        | false => exact (hb _ _ _ _ hb').elim
        | true =>
          simp only [concatLastSem, bind, Out.bind]
          cases hc' : qc true k with
          | ok z =>
            obtain ⟨r'', l⟩ := z
            cases r'' with
            | success c => rfl
            | recovered c es' =>
              simp only [finishSem, extendRec]
              cases r <;> simp
            | failed x es => rfl
          | panic m => rfl
          | oof => rfl
          | stuck => rfl
      | failed x es => rfl
    | panic m => rfl
    | oof => rfl
    | stuck => rfl
  cases r with
  | success a => exact key a none (fun _ => rfl)
  | recovered a es =>
    cases en with
    | false => exact (ha _ _ _ _ hq).elim
    | true => exact key a (some es) (fun h => by cases h)
  | failed x es => rfl

theorem qConcat3_map {E : Type} {en : Bool} {i : Nat} {f : α × β × γ → δ} {h : δ → ζ} {qa : PSem E α}
    {qb : PSem E β} {qc : PSem E γ} :
    qMap h (qConcat3 f qa qb qc) en i = qConcat3 (fun x => h (f x)) qa qb qc en i := by
  unfold qMap qConcat3
  rw [Out.bind_assoc]
  refine Out.bind_congr fun x => ?_
  obtain ⟨r', k⟩ := x
  have key : ∀ a r, (concatMidSem en i (fun x => f (a, x)) qb qc r k >>= fun x => Out.ok (x.1.map h, x.2)) =
      concatMidSem en i (fun x => h (f (a, x))) qb qc r k := by
    intro a r
    unfold concatMidSem
    rw [Out.bind_assoc]
    refine Out.bind_congr fun x => ?_
    obtain ⟨r', k⟩ := x
    cases r' with
    | success b => exact concatLastSem_map
    | recovered b es => exact concatLastSem_map
    | failed x es => rfl
  cases r' with
  | success b => exact key _ _
  | recovered b es => exact key _ _
  | failed x es => rfl

/-- Run one more element of a list. -/
def snocSem {E : Type} (en : Bool) (st : Nat) (q : PSem E α) :
    Res (List α) E × Nat → Out (Res (List α) E × Nat)
  | (.success a, j) => concatLastSem en st (fun b => a ++ [b]) q none j
  | (.recovered a es, j) => concatLastSem en st (fun b => a ++ [b]) q (some es) j
  | (.failed x es, j) => .ok (.failed x es, j)

theorem concatRest_snoc {E : Type} {en : Bool} {st : Nat} {q : PSem E α} :
    ∀ {qs : List (PSem E α)} {out : List α} {r : Option (List E)} {i : Nat}, (∀ q' ∈ qs, NR q') →
    (en = false → r = none) →
    concatRestSem en st (qs ++ [q]) out r i = (concatRestSem en st qs out r i >>= snocSem en st q) := by
  intro qs
  induction qs with
  | nil =>
    intro out r i _ hr
    simp only [List.nil_append, concatRestSem]
    cases r with
    | none => rfl
    | some es =>
      cases en with
      | false => cases hr rfl
      | true => rfl
  | cons q' qs ih =>
    intro out r i hq hr
    simp only [List.cons_append, concatRestSem]
    rw [Out.bind_assoc]
    refine Out.bind_congr' fun x hx => ?_
    obtain ⟨r', k⟩ := x
    cases r' with
    | success a => exact ih (fun q hq' => hq q (List.mem_cons_of_mem _ hq')) hr
    | recovered a es =>
      refine ih (fun q hq' => hq q (List.mem_cons_of_mem _ hq')) ?_
      rintro rfl
      exact (hq q' List.mem_cons_self _ _ _ _ hx).elim
    | failed x es => rfl

theorem qConcat_snoc {E : Type} {en : Bool} {i : Nat} {q : PSem E α} {qs : List (PSem E α)}
    (hne : qs ≠ []) (hq : ∀ q' ∈ qs, NR q') :
    qConcat (qs ++ [q]) en i = qConcat2 (fun x : List α × α => x.1 ++ [x.2]) (qConcat qs) q en i := by
  cases qs with
  | nil => exact (hne rfl).elim
  | cons q' qs =>
    simp only [List.cons_append, qConcat, qConcat2]
    rw [Out.bind_assoc]
    refine Out.bind_congr' fun x hx => ?_
    obtain ⟨r', k⟩ := x
    cases r' with
    | success a =>
      refine (concatRest_snoc (fun q hq' => hq q (List.mem_cons_of_mem _ hq')) (fun _ => rfl)).trans ?_
      exact Out.bind_congr fun x => by obtain ⟨r', k⟩ := x; cases r' <;> rfl
    | recovered a es =>
      refine (concatRest_snoc (fun q hq' => hq q (List.mem_cons_of_mem _ hq')) ?_).trans
        (Out.bind_congr fun x => by obtain ⟨r', k⟩ := x; cases r' <;> rfl)
      rintro rfl
      exact (hq q' List.mem_cons_self _ _ _ _ hx).elim
    | failed x es => rfl

theorem qConcat_pair {E : Type} {en : Bool} {i : Nat} {qa qb : PSem E α} :
    qConcat [qa, qb] en i = qConcat2 (fun x : α × α => [x.1, x.2]) qa qb en i := by
  simp only [qConcat, qConcat2]
  refine Out.bind_congr fun x => ?_
  obtain ⟨r', k⟩ := x
  cases r' with
  | success a =>
    simp only [concatRestSem, concatLastSem]
    refine Out.bind_congr fun x => ?_
    obtain ⟨r', k⟩ := x
    cases r' <;> rfl
  | recovered a es =>
    simp only [concatRestSem, concatLastSem]
    refine Out.bind_congr fun x => ?_
    obtain ⟨r', k⟩ := x
    cases r' <;> rfl
  | failed x es => rfl

theorem matchSeq_append {e : Env S} : ∀ {xs ys : List S.I} {i : Nat}, matchSeq e (xs ++ ys) i =
    match matchSeq e xs i with
    | none => matchSeq e ys (i + xs.length)
    | some x => some x := by
  intro xs
  induction xs with
  | nil => intro ys i; simp [matchSeq]
  | cons x xs ih =>
    intro ys i
    simp only [List.cons_append, matchSeq]
    split
    · rw [ih, List.length_cons]
      rw [show i + 1 + xs.length = i + (xs.length + 1) by omega]
    · rfl

/-! ## Repetition -/

/-- In a repetition without minimum, maximum or flags, recovery plays no role and the items so far are
only prepended. -/
theorem repLoop_prefix {E : Type} {item : PSem E α} (hn : NR item) :
    ∀ {m : Nat} {β γ : Type} {en en' : Bool} {st st' : Nat} {out : List α} {i : Nat},
    repLoopSem {} item (none : Option (PSem E β)) en st m out none i =
      (repLoopSem {} item (none : Option (PSem E γ)) en' st' m [] none i >>= fun x =>
        .ok (x.1.map (fun os => out ++ os), x.2)) := by
  intro m
  induction m with
  | zero => intros; rfl
  | succ m ih =>
    intro β γ en en' st st' out i
    simp only [repLoopSem, RepCfg.atMax, Bool.and_false, Bool.false_eq_true, if_false, repItemSem,
      Nat.not_lt_zero, decide_false, Bool.and_false]
    rw [Out.bind_assoc]
    refine Out.bind_congr' fun x hx => ?_
    obtain ⟨r', k⟩ := x
    cases r' with
    | success a =>
      simp only
      rw [ih (γ := γ) (en' := en') (st' := st') (out := out ++ [a]),
        ih (γ := γ) (en' := en') (st' := st') (out := [] ++ [a]), Out.bind_assoc]
      refine Out.bind_congr fun x => ?_
      obtain ⟨r', k⟩ := x
      cases r' <;> simp [Res.map, bind, Out.bind]
    | recovered a es => exact (hn _ _ _ _ hx).elim
    | failed x es => simp [Res.map, bind, Out.bind]

/-- After the first item, a repetition with separators is one of `sep.ignore_then(item)`. -/
theorem repLoop_separated {E : Type} {item : PSem E α} {sep : PSem E β} (hn : NR item) (hs : NR sep)
    {en en' : Bool} {st st' : Nat} : ∀ {m : Nat} {out : List α} {i : Nat}, out ≠ [] →
    repLoopSem {} item (some sep) en st m out none i =
      repLoopSem {} (qConcat2 Prod.snd sep item) (none : Option (PSem E α)) en' st' m out none i := by
  intro m
  induction m with
  | zero => intros; rfl
  | succ m ih =>
    intro out i hne
    have h1 : out.isEmpty = false := by cases out <;> simp_all
    simp only [repLoopSem, RepCfg.atMax, Bool.and_false, Bool.false_eq_true, if_false, repItemSem,
      Nat.not_lt_zero, decide_false, Bool.and_false, h1, Bool.not_false, Bool.true_or, Bool.false_and,
      qConcat2]
    rw [Out.bind_assoc]
    refine Out.bind_congr' fun x hx => ?_
    obtain ⟨r', k⟩ := x
    cases r' with
    | success a =>
      simp only [concatLastSem]
      rw [Out.bind_assoc]
      refine Out.bind_congr' fun x hx => ?_
      obtain ⟨r', k⟩ := x
      cases r' with
      | success b => exact ih (by simp)
      | recovered b es => exact (hn _ _ _ _ hx).elim
      | failed x es => simp [bind, Out.bind]
    | recovered a es => exact (hs _ _ _ _ hx).elim
    | failed x es => simp [bind, Out.bind]

/-- The loop of a plain repetition. -/
def plainLoop {E : Type} (q : PSem E α) (m i : Nat) : Out (Res (List α) E × Nat) :=
  repLoopSem {} q (none : Option (PSem E α)) false i m [] none i

/-- An item and then a plain repetition, or nothing. -/
def consSem {E : Type} (q h : PSem E α) (m i : Nat) : Out (Res (List α) E × Nat) := do
  match ← q false i with
  | (.success b, j) => do
    let (r, k) ← plainLoop h m j
    .ok (r.map (fun os => b :: os), k)
  | (.recovered _ _, _) => .stuck
  | (.failed _ _, j) => .ok (.success [], j)

theorem plainLoop_succ {E : Type} {q : PSem E α} (hn : NR q) {m i : Nat} :
    plainLoop q (m + 1) i = consSem q q m i := by
  unfold plainLoop consSem
  simp only [repLoopSem, RepCfg.atMax, Bool.and_false, Bool.false_eq_true, if_false, repItemSem,
    Nat.not_lt_zero, decide_false, Bool.and_false]
  refine Out.bind_congr' fun x hx => ?_
  obtain ⟨r', k⟩ := x
  cases r' with
  | success b =>
    simp only
    rw [repLoop_prefix hn (γ := α) (en' := false) (st' := k) (out := [] ++ [b])]
    rfl
  | recovered b es => exact (hn _ _ _ _ hx).elim
  | failed x es => simp

theorem plainLoop_success {E : Type} {q : PSem E α} (hn : NR q) : ∀ {m i k : Nat} {r : Res (List α) E},
    plainLoop q m i = .ok (r, k) → ∃ os, r = .success os := by
  intro m
  induction m with
  | zero => intro i k r h; cases h
  | succ m ih =>
    intro i k r h
    rw [plainLoop_succ hn] at h
    simp only [consSem, Out.bind_eq_ok] at h
    obtain ⟨⟨r', j⟩, h1, h2⟩ := h
    cases r' with
    | success b =>
      simp only [Out.bind_eq_ok] at h2
      obtain ⟨⟨r'', l⟩, h3, h4⟩ := h2
      obtain ⟨os, rfl⟩ := ih h3
      cases h4
      exact ⟨_, rfl⟩
    | recovered b es => cases h2
    | failed x es => cases h2; exact ⟨_, rfl⟩

/-- `q'` does what `q` does, if `q` does anything. -/
def Better {E : Type} (q q' : PSem E α) : Prop := ∀ en i, q en i ≠ .oof → q' en i = q en i

theorem consSem_better {E : Type} {q q' h h' : PSem E α} {m m' i : Nat} (hq : Better q q')
    (hl : ∀ j, plainLoop h m j ≠ .oof → plainLoop h' m' j = plainLoop h m j)
    (hne : consSem q h m i ≠ .oof) : consSem q' h' m' i = consSem q h m i := by
  unfold consSem at hne ⊢
  have h1 : q false i ≠ .oof := by
    intro h0
    rw [h0] at hne
    exact hne rfl
  rw [hq _ _ h1]
  refine Out.bind_congr' fun x hx => ?_
  obtain ⟨r', k⟩ := x
  rw [hx] at hne
  cases r' with
  | success b =>
    have h2 : plainLoop h m k ≠ .oof := by
      intro h0
      simp only [bind, Out.bind, h0] at hne
      exact hne rfl
    simp only
    rw [hl _ h2]
  | recovered b es => rfl
  | failed x es => rfl

theorem plainLoop_better {E : Type} {q q' : PSem E α} (hq : Better q q') (hn : NR q) (hn' : NR q') :
    ∀ {m m' i : Nat}, m ≤ m' → plainLoop q m i ≠ .oof → plainLoop q' m' i = plainLoop q m i := by
  intro m
  induction m with
  | zero => intro m' i _ h; exact (h rfl).elim
  | succ m ih =>
    intro m' i hm h
    obtain ⟨m'', rfl⟩ : ∃ m'', m' = m'' + 1 := ⟨m' - 1, by omega⟩
    rw [plainLoop_succ hn] at h ⊢
    rw [plainLoop_succ hn']
    exact consSem_better hq (fun j hj => ih (by omega) hj) h

theorem sem_better {g : G S N ε α} {e : Env S} {D : Defs S N} {n m : Nat} (h : n ≤ m) :
    Better (g.sem e D n) (g.sem e D m) := fun en i hne => G.sem_mono e D h g en i hne

theorem repeated_plain {g : G S N ε α} {e : Env S} {D : Defs S N} {n i : Nat} {en : Bool} :
    (G.repeated {} g).sem e D n en i = plainLoop (g.sem e D n) n i := by
  show repLoopSem {} (g.sem e D n) (none : Option (PSem ε.E α)) en i n [] none i = _
  rw [plainLoop, repLoop_prefix (G.sem_nr D n g) (γ := α) (en' := false) (st' := i)]
  cases repLoopSem {} (g.sem e D n) (none : Option (PSem ε.E α)) false i n [] none i with
  | ok x => obtain ⟨r, j⟩ := x; cases r <;> simp [Res.map, bind, Out.bind]
  | panic m => rfl
  | oof => rfl
  | stuck => rfl

/-- The choice between an item followed by a plain repetition, and nothing. -/
theorem cons_or_nil {g h : G S N ε α} {e : Env S} {D : Defs S N} {n i : Nat} {en : Bool} :
    (G.or (.map (fun x => x.1 :: x.2) (.then_ g (.repeated {} h))) (.to .empty [])).sem e D n en i =
      consSem (g.sem e D n) (h.sem e D n) n i := by
  show qAlternate ε [qMap (fun x => x.1 :: x.2) (qConcat2 id (g.sem e D n)
    ((G.repeated {} h).sem e D n)), qMap (fun _ => []) qEmpty] en i = _
  simp only [qAlternate, altFirstSem]
  rw [qConcat2_map]
  unfold consSem
  cases hg : g.sem e D n false i with
  | ok x =>
    obtain ⟨r, j⟩ := x
    cases r with
    | success b =>
      simp only [qConcat2, hg, bind, Out.bind, concatLastSem, repeated_plain]
      cases hl : plainLoop (h.sem e D n) n j with
      | ok x =>
        obtain ⟨r', k⟩ := x
        obtain ⟨os, rfl⟩ := plainLoop_success (G.sem_nr D n h) hl
        rfl
      | panic m => rfl
      | oof => rfl
      | stuck => rfl
    | recovered b es => exact (G.sem_nr D n g _ _ _ _ hg).elim
    | failed x es => simp [qConcat2, hg, bind, Out.bind, qMap, qEmpty, Res.map]
  | panic m => simp [qConcat2, hg, bind, Out.bind]
  | oof => simp [qConcat2, hg, bind, Out.bind]
  | stuck => simp [qConcat2, hg, bind, Out.bind]

theorem separated_plain {item : G S N ε α} {sep : G S N ε β} {e : Env S} {D : Defs S N} {n i : Nat}
    {en : Bool} : (G.separatedBy {} item sep).sem e D (n + 1) en i =
      consSem (item.sem e D (n + 1)) ((G.ignoreThen sep item).sem e D (n + 1)) n i := by
  show repLoopSem {} (item.sem e D (n + 1)) (some (sep.sem e D (n + 1))) en i (n + 1) [] none i = _
  unfold consSem
  simp only [repLoopSem, RepCfg.atMax, Bool.and_false, Bool.false_eq_true, if_false, repItemSem,
    Nat.not_lt_zero, decide_false, Bool.and_false, List.isEmpty_nil, Bool.not_true, Bool.or_false]
  refine Out.bind_congr' fun x hx => ?_
  obtain ⟨r', k⟩ := x
  cases r' with
  | success b =>
    simp only [List.nil_append]
    rw [repLoop_separated (en' := false) (st' := k) (G.sem_nr D _ item) (G.sem_nr D _ sep) (by simp)]
    have := repLoop_prefix (G.sem_nr (e := e) D (n + 1) (G.ignoreThen sep item)) (m := n) (β := α) (γ := α)
      (en := false) (en' := false) (st := k) (st' := k) (out := [b]) (i := k)
    exact this
  | recovered b es => exact (G.sem_nr D _ item _ _ _ _ hx).elim
  | failed x es => simp

/-! ## C43: equivalences -/

section Laws

variable (a b c g item : G S N ε α)

/-- C43: `≃` is an equivalence. -/
theorem C43_equivalence : (∀ a : G S N ε α, a ≃ a) ∧ (∀ a b : G S N ε α, a ≃ b → b ≃ a) ∧
    (∀ a b c : G S N ε α, a ≃ b → b ≃ c → a ≃ c) :=
  ⟨fun _ _ _ _ _ _ => ⟨fun _ _ => Iff.rfl, fun _ => Iff.rfl⟩,
   fun _ _ h e D en i hi => ⟨fun r j => ((h e D en i hi).1 r j).symm, fun m => ((h e D en i hi).2 m).symm⟩,
   fun _ _ _ h h' e D en i hi => ⟨fun r j => ((h e D en i hi).1 r j).trans ((h' e D en i hi).1 r j),
     fun m => ((h e D en i hi).2 m).trans ((h' e D en i hi).2 m)⟩⟩

/-- C43: `boxed()` and `with_error()` change nothing. -/
theorem C43_transparent : .boxed g ≃ g ∧ .withError g ≃ g :=
  ⟨.of_sem fun _ _ _ _ _ => rfl, .of_sem fun _ _ _ _ _ => rfl⟩

/-- C43: `map(|x| x)` changes nothing, and two `map`s are one. -/
theorem C43_map (f : β → γ) (h : α → β) :
    .map (fun x => x) g ≃ g ∧ .map f (.map h g) ≃ .map (fun x => f (h x)) g := by
  constructor
  · refine .of_sem fun e D n en i => ?_
    show qMap (fun x => x) (g.sem e D n) en i = g.sem e D n en i
    unfold qMap
    cases g.sem e D n en i with
    | ok x => obtain ⟨r, j⟩ := x; cases r <;> rfl
    | panic m => rfl
    | oof => rfl
    | stuck => rfl
  · refine .of_sem fun e D n en i => ?_
    show qMap f (qMap h (g.sem e D n)) en i = qMap (fun x => f (h x)) (g.sem e D n) en i
    unfold qMap
    rw [Out.bind_assoc]
    refine Out.bind_congr fun x => ?_
    simp only [bind, Out.bind, Res.map_map]

/-- C43: `to(v)`, `ignored()` and `some()` are `map`s. -/
theorem C43_to (v : β) : .to g v ≃ .map (fun _ => v) g ∧ g.ignored ≃ .map (fun _ => ()) g ∧
    .some g ≃ .map some g :=
  ⟨.of_sem fun _ _ _ _ _ => rfl, .of_sem fun _ _ _ _ _ => rfl, .of_sem fun _ _ _ _ _ => rfl⟩

/-- C43: two `map_err`s are one, if the intermediate error type is the same. -/
theorem C43_map_err (f h : ε.E → ε.E) :
    (.mapErr (ε := ε) f (.mapErr (ε := ε) h g) : G S N ε α) ≃ .mapErr (fun x => f (h x)) g := by
  refine .of_sem fun e D n en i => ?_
  show qMapErr f (qMapErr h (g.sem e D n)) en i = qMapErr (fun x => f (h x)) (g.sem e D n) en i
  unfold qMapErr
  rw [Out.bind_assoc]
  refine Out.bind_congr fun x => ?_
  simp only [bind, Out.bind, Res.mapErr_mapErr]

/-- C43: `then_ignore` and `ignore_then` are `then` and a projection. -/
theorem C43_then_projections (p : G S N ε β) :
    .thenIgnore a p ≃ .map Prod.fst (.then_ a p) ∧ .ignoreThen a p ≃ .map Prod.snd (.then_ a p) :=
  ⟨.of_sem fun _ _ _ _ _ => (qConcat2_map (f := id)).symm,
   .of_sem fun _ _ _ _ _ => (qConcat2_map (f := id)).symm⟩

/-- C43: `then` is associative. -/
theorem C43_then_assoc (p : G S N ε β) (q : G S N ε γ) :
    .map (fun x => (x.1.1, x.1.2, x.2)) (.then_ (.then_ a p) q) ≃ .then_ a (.then_ p q) := by
  refine .of_sem fun e D n en i => ?_
  show qMap _ (qConcat2 id (qConcat2 id (a.sem e D n) (p.sem e D n)) (q.sem e D n)) en i =
    qConcat2 id (a.sem e D n) (qConcat2 id (p.sem e D n) (q.sem e D n)) en i
  rw [qConcat2_map, concat2_left (G.sem_nr D n a) (G.sem_nr D n p),
    concat2_right (G.sem_nr D n a) (G.sem_nr D n p) (G.sem_nr D n q)]
  rfl

/-- C43: `m.delimited_by(l, r)` is `l.ignore_then(m).then_ignore(r)`, and also
`l.ignore_then(m.then_ignore(r))`; `m.padded_by(p)` is `m.delimited_by(p, p)`. -/
theorem C43_delimited_by (l : G S N ε β) (r : G S N ε γ) :
    .delimitedBy l a r ≃ .thenIgnore (.ignoreThen l a) r ∧
    .delimitedBy l a r ≃ .ignoreThen l (.thenIgnore a r) ∧
    .paddedBy l a ≃ .delimitedBy l a l := by
  refine ⟨.of_sem fun e D n en i => ?_, .of_sem fun e D n en i => ?_, .of_sem fun _ _ _ _ _ => rfl⟩
  · exact (concat2_left (f := Prod.fst) (h := Prod.snd) (qc := r.sem e D n) (G.sem_nr D n l)
      (G.sem_nr D n a)).symm
  · exact (concat2_right (f := Prod.snd) (h := Prod.fst) (G.sem_nr D n l) (G.sem_nr D n a)
      (G.sem_nr D n r)).symm

/-- C43: `empty()` after a parser changes nothing, and neither does `empty()` before a parser that goes
back to its start when it fails. -/
theorem C43_empty : .thenIgnore a .empty ≃ a ∧
    ((∀ e D n en i, Valid e i → Rewinds e D n a en i) → .ignoreThen .empty a ≃ a) := by
  constructor
  · refine .of_sem fun e D n en i => ?_
    show qConcat2 Prod.fst (a.sem e D n) qEmpty en i = a.sem e D n en i
    unfold qConcat2
    cases hq : a.sem e D n en i with
    | ok x =>
      obtain ⟨r, j⟩ := x
      cases r with
      | success o => rfl
      | recovered o es =>
        cases en with
        | false => exact (G.sem_nr D n a _ _ _ _ hq).elim
        | true => rfl
      | failed x es => rfl
    | panic m => rfl
    | oof => rfl
    | stuck => rfl
  · intro hr
    refine .of_sem_valid fun e D n en i hi => ?_
    show qConcat2 Prod.snd qEmpty (a.sem e D n) en i = a.sem e D n en i
    simp only [qConcat2, qEmpty, bind, Out.bind, concatLastSem]
    cases hq : a.sem e D n en i with
    | ok x =>
      obtain ⟨r, j⟩ := x
      cases r with
      | success o => rfl
      | recovered o es =>
        cases en with
        | false => exact (G.sem_nr D n a _ _ _ _ hq).elim
        | true => rfl
      | failed x es => rw [hr e D n en i hi x es j ((parsesAt_iff hi).2 hq)]
    | panic m => rfl
    | oof => rfl
    | stuck => rfl

/-- C43: `a.chain(b)` is `a.then(b)` with the outputs in a vector, and `.and(c)` appends one more. -/
theorem C43_chain (cs : List (G S N ε α)) :
    (a.chainWith b).parser ≃ .map (fun x => [x.1, x.2]) (.then_ a b) ∧
    ((cs.foldl Chain.and (a.chainWith b)).and g).parser ≃
      .map (fun x => x.1 ++ [x.2]) (.then_ (cs.foldl Chain.and (a.chainWith b)).parser g) := by
  refine ⟨.of_sem fun e D n en i => ?_, .of_sem fun e D n en i => ?_⟩
  · refine Eq.trans ?_ (qConcat2_map (f := id)).symm
    exact qConcat_pair
  · refine Eq.trans ?_ (qConcat2_map (f := id)).symm
    rw [Chain.parser, chain_sem, Chain.and, GL.push_toList, List.map_append]
    refine (qConcat_snoc ?_ ?_).trans ?_
    · rw [chain_parsers]
      simp [G.chainWith, GL.toList]
    · intro q hq
      obtain ⟨g', _, rfl⟩ := List.mem_map.1 hq
      exact G.sem_nr D n g'
    · rw [← chain_sem]
      rfl

/-- C43: `a.alters(b)` is `a.or(b)`; `g.or_not()` is `g.some().or(none())`. -/
theorem C43_or : (a.altersWith b).parser ≃ .or a b ∧ .orNot g ≃ .or (.some g) (.none α) :=
  ⟨.of_sem fun _ _ _ _ _ => rfl, .of_sem fun _ _ _ _ _ => rfl⟩

/-- C43: `filter(p)` is `filter_map` of the function that keeps what satisfies `p`. -/
theorem C43_filter (p : S.I → Bool) :
    (.filter p : G S N ε S.I) ≃ .filterMap (fun t => if p t then some t else none) := by
  refine .of_sem fun e D n en i => ?_
  show qFilter e ε p en i = qFilterMap e ε _ en i
  unfold qFilter qFilterMap
  cases e.source i with
  | none => rfl
  | some t => by_cases h : p t = true <;> simp [h]

/-- C43: `just(t)` is `one_of(t)` and `seq(t)`, if the token equality is equality. -/
theorem C43_just (t : S.I) (heq : ∀ t u, S.eqI t u = true → t = u) :
    (.just t : G S N ε S.I) ≃ Build.oneOf t ∧ (.just t : G S N ε S.I) ≃ Build.seqOf t := by
  constructor
  · refine .of_sem fun e D n en i => ?_
    show qJust e ε t en i = qOneOf e ε [t] en i
    unfold qJust qOneOf isTok
    cases e.source i with
    | none => rfl
    | some u =>
      by_cases h : S.eqI u t = true
      · simp [heq _ _ h]
      · simp [h]
  · refine .of_sem fun e D n en i => ?_
    show qJust e ε t en i = qSeq e ε t [t] en i
    simp only [qJust, qSeq, matchSeq]
    split <;> simp

/-- C43: a `seq` can be split anywhere, and the empty one is `empty()`. -/
theorem C43_seq (v : α) (xs ys : List S.I) (u : β) (w : γ) :
    (.seq v (xs ++ ys) : G S N ε α) ≃ .to (.then_ (.seq u xs) (.seq w ys)) v ∧
    (.seq v [] : G S N ε α) ≃ .to .empty v := by
  refine ⟨.of_sem fun e D n en i => ?_, .of_sem fun _ _ _ _ _ => rfl⟩
  show qSeq e ε v (xs ++ ys) en i = qMap (fun _ => v) (qConcat2 id (qSeq e ε u xs) (qSeq e ε w ys)) en i
  rw [qConcat2_map]
  unfold qConcat2 qSeq
  rw [matchSeq_append]
  cases matchSeq e xs i with
  | some x => rfl
  | none =>
    simp only [bind, Out.bind, concatLastSem]
    cases matchSeq e ys (i + xs.length) with
    | some x => rfl
    | none => simp [finishSem, Nat.add_assoc]

/-- C43: `g.repeated()` is `g.then(g.repeated())` or nothing. -/
theorem C43_repeated : .repeated {} g ≃
    .or (.map (fun x => x.1 :: x.2) (.then_ g (.repeated {} g))) (.to .empty []) := by
  refine .of_bounds (fun e D n en i _ h => ?_) (fun e D n en i _ h => ?_)
  · refine ⟨n, ?_⟩
    rw [repeated_plain] at h ⊢
    rw [cons_or_nil]
    cases n with
    | zero => exact (h rfl).elim
    | succ n =>
      have hn := G.sem_nr (e := e) D (n + 1) g
      rw [plainLoop_succ hn] at h ⊢
      exact consSem_better (fun _ _ _ => rfl)
        (fun j hj => plainLoop_better (fun _ _ _ => rfl) hn hn (Nat.le_succ n) hj) h
  · refine ⟨n + 1, ?_⟩
    rw [cons_or_nil] at h ⊢
    have hn := G.sem_nr (e := e) D n g
    have hn' := G.sem_nr (e := e) D (n + 1) g
    rw [repeated_plain, plainLoop_succ hn']
    exact consSem_better (sem_better (Nat.le_succ n))
      (fun j hj => plainLoop_better (sem_better (Nat.le_succ n)) hn hn' (Nat.le_refl n) hj) h

/-- C43: `item.separated_by(sep)` is nothing, or an item and then `sep.ignore_then(item)` repeated. -/
theorem C43_separated_by (sep : G S N ε β) : .separatedBy {} item sep ≃
    .or (.map (fun x => x.1 :: x.2) (.then_ item (.repeated {} (.ignoreThen sep item)))) (.to .empty []) := by
  refine .of_bounds (fun e D n en i _ h => ?_) (fun e D n en i _ h => ?_)
  · refine ⟨n, ?_⟩
    rw [cons_or_nil]
    cases n with
    | zero => exact (h rfl).elim
    | succ n =>
      have hn := G.sem_nr (e := e) D (n + 1) (.ignoreThen sep item)
      rw [separated_plain] at h ⊢
      exact consSem_better (fun _ _ _ => rfl)
        (fun j hj => plainLoop_better (fun _ _ _ => rfl) hn hn (Nat.le_succ n) hj) h
  · refine ⟨n + 1, ?_⟩
    rw [cons_or_nil] at h ⊢
    have hn := G.sem_nr (e := e) D n (.ignoreThen sep item)
    have hn' := G.sem_nr (e := e) D (n + 1) (.ignoreThen sep item)
    rw [separated_plain]
    exact consSem_better (sem_better (Nat.le_succ n))
      (fun j hj => plainLoop_better (sem_better (Nat.le_succ n)) hn hn' (Nat.le_refl n) hj) h

end Laws

/-! ## Not everything is equivalent -/

/-- Different results are told apart: swapping the alternatives of a choice matters. -/
example : ¬ ((.or (.just 1) (.to (.just 1) 2) : ExG Nat) ≃ .or (.to (.just 1) 2) (.just 1)) := by
  intro h
  have h1 : Finishes (exEnv [1]) exNoDefs (.or (.just 1) (.to (.just 1) 2) : ExG Nat) false 0
      (.success 1) 1 := ⟨20, exParsesAt (by decide +kernel)⟩
  have h2 : Finishes (exEnv [1]) exNoDefs (.or (.to (.just 1) 2) (.just 1) : ExG Nat) false 0
      (.success 2) 1 := ⟨20, exParsesAt (by decide +kernel)⟩
  have h3 := C33_unique .zero (((h _ _ _ _ .zero).1 _ _).1 h1) h2
  cases h3.1

/-- C43: with a minimum, the unrolling of a repetition is only equivalent without recovery: when the
required item is recovered, `g.repeated().at_least(1)` reports success and
`g.then(g.repeated())` a recovery. -/
theorem C43_at_least_one_differs :
    ¬ ((.repeated (({} : RepCfg).atLeast 1) (.toRecover (.just 1) (Build.justReturn 9)) : ExG (List Nat)) ≃
      .map (fun x => x.1 :: x.2) (.then_ (.toRecover (.just 1) (Build.justReturn 9))
        (.repeated {} (.toRecover (.just 1) (Build.justReturn 9))))) := by
  intro h
  have h1 : Finishes (exEnv [2]) exNoDefs
      (.repeated (({} : RepCfg).atLeast 1) (.toRecover (.just 1) (Build.justReturn 9)) : ExG (List Nat))
      true 0 (.success [9]) 0 := ⟨20, exParsesAt (by decide +kernel)⟩
  have h2 : Finishes (exEnv [2]) exNoDefs (.map (fun x => x.1 :: x.2)
        (.then_ (.toRecover (.just 1) (Build.justReturn 9))
        (.repeated {} (.toRecover (.just 1) (Build.justReturn 9)))) : ExG (List Nat)) true 0
      (.recovered [9] [.expectedFound [some 1] (some 2) (.span (0, 1))]) 0 :=
    ⟨20, exParsesAt (by decide +kernel)⟩
  have h3 := C33_unique .zero (((h _ _ _ _ .zero).1 _ _).1 h1) h2
  cases h3.1

/-- The equivalences apply to concrete parsers: both sides of `C43_separated_by` on `1 2 1 2`. -/
example : Finishes (exEnv [1, 2, 1, 2]) exNoDefs (.separatedBy {} (.just 1) (.just 2) : ExG (List Nat)) false 0
      (.success [1, 1]) 3 ∧
    Finishes (exEnv [1, 2, 1, 2]) exNoDefs (.or (.map (fun x => x.1 :: x.2) (.then_ (.just 1)
      (.repeated {} (.ignoreThen (.just 2) (.just 1))))) (.to .empty []) : ExG (List Nat)) false 0
      (.success [1, 1]) 3 := by
  have h : Finishes (exEnv [1, 2, 1, 2]) exNoDefs (.separatedBy {} (.just 1) (.just 2) : ExG (List Nat))
      false 0 (.success [1, 1]) 3 := ⟨20, exParsesAt (by decide +kernel)⟩
  exact ⟨h, ((C43_separated_by (.just 1 : ExG Nat) (.just 2 : ExG Nat) _ _ _ _ .zero).1 _ _).1 h⟩

/-- The condition of `C43_empty` holds for `just(1)`. -/
example : ∀ e D n en i, Valid e i → Rewinds e D n (.just 1 : ExG Nat) en i :=
  fun _ _ _ _ _ hi => rewinds_of_clean hi (fun k => k.elim) trivial

end PPC
