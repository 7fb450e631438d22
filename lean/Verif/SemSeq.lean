import Verif.SemChoice

/-!
# Sequencing on the positional semantics: lemmas
-/

namespace PPC

variable {S : Sig} {E α β γ δ : Type}

/-- A computation returns an output, with success or recovery. -/
def GivesO (x : Out (Res α E × Nat)) (o : α) (es : List E) (rec : Bool) (j : Nat) : Prop :=
  (rec = false ∧ es = [] ∧ x = .ok (.success o, j)) ∨ (rec = true ∧ x = .ok (.recovered o es, j))

theorem gives_iff {N : Names S} {e : Env S} {D : Defs S N} {n : Nat} {ε : ErrTy S} {g : G S N ε α}
    {en : Bool} {i j : Nat} {o : α} {es : List ε.E} {rec : Bool} (hi : Valid e i) :
    Gives e D n g en i o es rec j ↔ GivesO (g.sem e D n en i) o es rec j := by
  simp only [Gives, GivesO, parsesAt_iff hi]

theorem GivesO.congr {x y : Out (Res α E × Nat)} (h : x = y) {o : α} {es : List E} {rec : Bool} {j : Nat} :
    GivesO x o es rec j ↔ GivesO y o es rec j := by rw [h]

theorem givesO_success {a o : α} {es : List E} {rec : Bool} {j k : Nat} :
    GivesO (.ok (.success a, k)) o es rec j ↔ rec = false ∧ es = [] ∧ o = a ∧ j = k := by
  constructor
  · rintro (⟨h1, h2, h3⟩ | ⟨h1, h3⟩)
    · cases h3; exact ⟨h1, h2, rfl, rfl⟩
    · cases h3
  · rintro ⟨h1, h2, rfl, rfl⟩; exact .inl ⟨h1, h2, rfl⟩

theorem givesO_recovered {a o : α} {es es' : List E} {rec : Bool} {j k : Nat} :
    GivesO (.ok (.recovered a es', k)) o es rec j ↔ rec = true ∧ es = es' ∧ o = a ∧ j = k := by
  constructor
  · rintro (⟨h1, h2, h3⟩ | ⟨h1, h3⟩)
    · cases h3
    · cases h3; exact ⟨h1, rfl, rfl, rfl⟩
  · rintro ⟨h1, rfl, rfl, rfl⟩; exact .inr ⟨h1, rfl⟩

theorem givesO_failed {o : α} {es es' : List E} {rec : Bool} {j k x : Nat} :
    GivesO (.ok (.failed x es', k)) o es rec j ↔ False := by
  constructor
  · rintro (⟨_, _, h3⟩ | ⟨_, h3⟩) <;> cases h3
  · exact False.elim

theorem givesO_panic {o : α} {es : List E} {rec : Bool} {j : Nat} {m : String} :
    GivesO (.panic m) o es rec j ↔ False := by
  constructor
  · rintro (⟨_, _, h3⟩ | ⟨_, h3⟩) <;> cases h3
  · exact False.elim

theorem givesO_oof {o : α} {es : List E} {rec : Bool} {j : Nat} :
    GivesO (.oof : Out (Res α E × Nat)) o es rec j ↔ False := by
  constructor
  · rintro (⟨_, _, h3⟩ | ⟨_, h3⟩) <;> cases h3
  · exact False.elim

theorem givesO_stuck {o : α} {es : List E} {rec : Bool} {j : Nat} :
    GivesO (.stuck : Out (Res α E × Nat)) o es rec j ↔ False := by
  constructor
  · rintro (⟨_, _, h3⟩ | ⟨_, h3⟩) <;> cases h3
  · exact False.elim

/-- The errors gathered so far. -/
def recErrs (r : Option (List E)) : List E := r.getD []

theorem recErrs_extend (r : Option (List E)) (es : List E) :
    recErrs (extendRec r es) = recErrs r ++ es ∧ (extendRec r es).isSome = true := by
  cases r <;> simp [recErrs, extendRec]

theorem finish_gives {en : Bool} {a : α} {r : Option (List E)} {k : Nat} {o : α} {es : List E}
    {rec : Bool} {j : Nat} : GivesO (finishSem en a r k) o es rec j ↔
      o = a ∧ j = k ∧ es = recErrs r ∧ rec = r.isSome ∧ (rec = true → en = true) := by
  cases r with
  | none =>
    simp only [finishSem, givesO_success, recErrs, Option.getD_none, Option.isSome_none]
    constructor
    · rintro ⟨rfl, rfl, rfl, rfl⟩; simp
    · rintro ⟨rfl, rfl, rfl, rfl, _⟩; simp
  | some es' =>
    simp only [finishSem, recErrs, Option.getD_some, Option.isSome_some]
    split
    · rename_i he
      rw [givesO_recovered]
      constructor
      · rintro ⟨rfl, rfl, rfl, rfl⟩; simp [he]
      · rintro ⟨rfl, rfl, rfl, rfl, _⟩; simp
    · rename_i he
      rw [givesO_panic]
      constructor
      · exact False.elim
      · rintro ⟨_, _, _, rfl, h⟩; exact he (h rfl)

theorem finish_not_failed {en : Bool} {a : α} {r : Option (List E)} {k x j : Nat} {es : List E} :
    finishSem en a r k ≠ .ok (.failed x es, j) := by
  cases r with
  | none => intro h; cases h
  | some es' =>
    simp only [finishSem]
    split <;> (intro h; cases h)

theorem concatLast_gives {en : Bool} {st : Nat} {f : β → γ} {qb : PSem E β} {r : Option (List E)}
    {i j : Nat} {c : γ} {es : List E} {rec : Bool} :
    GivesO (concatLastSem en st f qb r i) c es rec j ↔
      ∃ b es2 r2, GivesO (qb en i) b es2 r2 j ∧ c = f b ∧ es = recErrs r ++ es2 ∧
        rec = (r.isSome || r2) ∧ (rec = true → en = true) := by
  unfold concatLastSem
  cases hq : qb en i with
  | ok x =>
    obtain ⟨rr, k⟩ := x
    simp only [Out.ok_bind]
    cases rr with
    | success b =>
      simp only [finish_gives, givesO_success]
      constructor
      · rintro ⟨rfl, rfl, rfl, rfl, h⟩; exact ⟨b, [], false, ⟨rfl, rfl, rfl, rfl⟩, rfl, by simp, by simp, h⟩
      · rintro ⟨b', es2, r2, ⟨rfl, rfl, rfl, rfl⟩, rfl, rfl, rfl, h⟩; exact ⟨rfl, rfl, by simp, by simp, h⟩
    | recovered b es' =>
      simp only [finish_gives, givesO_recovered, (recErrs_extend r es').1, (recErrs_extend r es').2]
      constructor
      · rintro ⟨rfl, rfl, rfl, rfl, h⟩; exact ⟨b, es', true, ⟨rfl, rfl, rfl, rfl⟩, rfl, rfl, by simp, h⟩
      · rintro ⟨b', es2, r2, ⟨rfl, rfl, rfl, rfl⟩, rfl, rfl, rfl, h⟩; exact ⟨rfl, rfl, rfl, by simp, h⟩
    | failed x es' => simp [givesO_failed]
  | panic m => simp [givesO_panic]
  | oof => simp [givesO_oof]
  | stuck => simp [givesO_stuck]

theorem concatLast_failed {en : Bool} {st : Nat} {f : β → γ} {qb : PSem E β} {r : Option (List E)}
    {i j x : Nat} {es : List E} :
    concatLastSem en st f qb r i = .ok (.failed x es, j) ↔
      j = st ∧ ∃ k, qb en i = .ok (.failed x es, k) := by
  unfold concatLastSem
  simp only [Out.bind_eq_ok]
  constructor
  · rintro ⟨⟨rr, k⟩, h1, h2⟩
    cases rr with
    | success b => exact (finish_not_failed h2).elim
    | recovered b es' => exact (finish_not_failed h2).elim
    | failed x' es' => cases h2; exact ⟨rfl, k, h1⟩
  · rintro ⟨rfl, k, h⟩; exact ⟨_, h, rfl⟩

/-- Chaining a part in front. -/
theorem part_gives {x : Out (Res α E × Nat)} {ks : Option (List E) → α → Nat → Out (Res β E × Nat)}
    {fail : Nat → List E → Nat → Out (Res β E × Nat)} {r : Option (List E)} {c : β} {es : List E}
    {rec : Bool} {j : Nat} (hf : ∀ y es' k, ¬GivesO (fail y es' k) c es rec j)
    {body : Res α E × Nat → Out (Res β E × Nat)}
    (hb1 : ∀ a k, body (.success a, k) = ks r a k)
    (hb2 : ∀ a es' k, body (.recovered a es', k) = ks (extendRec r es') a k)
    (hb3 : ∀ y es' k, body (.failed y es', k) = fail y es' k) :
    GivesO (x >>= body) c es rec j ↔
      ∃ a es1 r1 k, GivesO x a es1 r1 k ∧
        ∃ r', recErrs r' = recErrs r ++ es1 ∧ r'.isSome = (r.isSome || r1) ∧
          GivesO (ks r' a k) c es rec j := by
  have hrr : ∀ {r1 r2 : Option (List E)}, recErrs r1 = recErrs r2 → r1.isSome = r2.isSome → r1 = r2 := by
    intro r1 r2 h1 h2
    cases r1 <;> cases r2 <;> simp_all [recErrs]
  cases x with
  | ok x =>
    obtain ⟨rr, k⟩ := x
    simp only [Out.ok_bind]
    cases rr with
    | success a =>
      rw [hb1]
      constructor
      · intro h
        exact ⟨a, [], false, k, givesO_success.2 ⟨rfl, rfl, rfl, rfl⟩, r, by simp, by simp, h⟩
      · rintro ⟨a', es1, r1, k', h1, r', h2, h3, h4⟩
        obtain ⟨rfl, rfl, rfl, rfl⟩ := givesO_success.1 h1
        have : r' = r := hrr (by simpa using h2) (by simpa using h3)
        subst this
        exact h4
    | recovered a es' =>
      rw [hb2]
      constructor
      · intro h
        exact ⟨a, es', true, k, givesO_recovered.2 ⟨rfl, rfl, rfl, rfl⟩, extendRec r es',
          (recErrs_extend r es').1, by simp [(recErrs_extend r es').2], h⟩
      · rintro ⟨a', es1, r1, k', h1, r', h2, h3, h4⟩
        obtain ⟨rfl, rfl, rfl, rfl⟩ := givesO_recovered.1 h1
        have : r' = extendRec r es1 := hrr (by rw [h2, (recErrs_extend r es1).1])
          (by rw [h3, (recErrs_extend r es1).2]; simp)
        subst this
        exact h4
    | failed y es' =>
      rw [hb3]
      constructor
      · intro h; exact (hf _ _ _ h).elim
      · rintro ⟨a', es1, r1, k', h1, _⟩; exact (givesO_failed.1 h1).elim
  | panic m => simp [givesO_panic]
  | oof => simp [givesO_oof]
  | stuck => simp [givesO_stuck]

/-- Failing after a part in front. -/
theorem part_failed {x : Out (Res α E × Nat)} {ks : Option (List E) → α → Nat → Out (Res β E × Nat)}
    {st : Nat → Nat} {r : Option (List E)} {y : Nat} {es : List E} {j : Nat}
    {body : Res α E × Nat → Out (Res β E × Nat)}
    (hb1 : ∀ a k, body (.success a, k) = ks r a k)
    (hb2 : ∀ a es' k, body (.recovered a es', k) = ks (extendRec r es') a k)
    (hb3 : ∀ y es' k, body (.failed y es', k) = .ok (.failed y es', st k)) :
    (x >>= body) = .ok (.failed y es, j) ↔
      (∃ k, x = .ok (.failed y es, k) ∧ j = st k) ∨
      ∃ a es1 r1 k, GivesO x a es1 r1 k ∧
        ∃ r', recErrs r' = recErrs r ++ es1 ∧ r'.isSome = (r.isSome || r1) ∧
          ks r' a k = .ok (.failed y es, j) := by
  have hrr : ∀ {r1 r2 : Option (List E)}, recErrs r1 = recErrs r2 → r1.isSome = r2.isSome → r1 = r2 := by
    intro r1 r2 h1 h2
    cases r1 <;> cases r2 <;> simp_all [recErrs]
  cases x with
  | ok x =>
    obtain ⟨rr, k⟩ := x
    simp only [Out.ok_bind]
    cases rr with
    | success a =>
      rw [hb1]
      constructor
      · intro h
        exact .inr ⟨a, [], false, k, givesO_success.2 ⟨rfl, rfl, rfl, rfl⟩, r, by simp, by simp, h⟩
      · rintro (⟨k', h1, h2⟩ | ⟨a', es1, r1, k', h1, r', h2, h3, h4⟩)
        · cases h1
        · obtain ⟨rfl, rfl, rfl, rfl⟩ := givesO_success.1 h1
          have : r' = r := hrr (by simpa using h2) (by simpa using h3)
          subst this
          exact h4
    | recovered a es' =>
      rw [hb2]
      constructor
      · intro h
        exact .inr ⟨a, es', true, k, givesO_recovered.2 ⟨rfl, rfl, rfl, rfl⟩, extendRec r es',
          (recErrs_extend r es').1, by simp [(recErrs_extend r es').2], h⟩
      · rintro (⟨k', h1, h2⟩ | ⟨a', es1, r1, k', h1, r', h2, h3, h4⟩)
        · cases h1
        · obtain ⟨rfl, rfl, rfl, rfl⟩ := givesO_recovered.1 h1
          have : r' = extendRec r es1 := hrr (by rw [h2, (recErrs_extend r es1).1])
            (by rw [h3, (recErrs_extend r es1).2]; simp)
          subst this
          exact h4
    | failed y' es' =>
      rw [hb3]
      constructor
      · intro h
        cases h
        exact .inl ⟨k, rfl, rfl⟩
      · rintro (⟨k', h1, rfl⟩ | ⟨a', es1, r1, k', h1, _⟩)
        · cases h1; rfl
        · exact (givesO_failed.1 h1).elim
  | panic m => simp [givesO_panic]
  | oof => simp [givesO_oof]
  | stuck => simp [givesO_stuck]

theorem qConcat2_gives {f : α × β → γ} {qa : PSem E α} {qb : PSem E β} {en : Bool} {i j : Nat} {c : γ}
    {es : List E} {rec : Bool} : GivesO (qConcat2 f qa qb en i) c es rec j ↔
      ∃ a es1 r1 k b es2 r2, GivesO (qa en i) a es1 r1 k ∧ GivesO (qb en k) b es2 r2 j ∧
        c = f (a, b) ∧ es = es1 ++ es2 ∧ rec = (r1 || r2) ∧ (rec = true → en = true) := by
  unfold qConcat2
  rw [part_gives (r := none) (ks := fun r a k => concatLastSem en i (fun b => f (a, b)) qb r k)
    (fail := fun y es' k => .ok (.failed y es', k)) (fun _ _ _ h => givesO_failed.1 h)
    (fun _ _ => rfl) (fun _ _ _ => rfl) (fun _ _ _ => rfl)]
  constructor
  · rintro ⟨a, es1, r1, k, h1, r', h2, h3, h4⟩
    obtain ⟨b, es2, r2, h5, h6, h7, h8, h9⟩ := concatLast_gives.1 h4
    exact ⟨a, es1, r1, k, b, es2, r2, h1, h5, h6, by rw [h7, h2]; simp [recErrs],
      by rw [h8, h3]; simp, h9⟩
  · rintro ⟨a, es1, r1, k, b, es2, r2, h1, h5, h6, h7, h8, h9⟩
    refine ⟨a, es1, r1, k, h1, if r1 then some es1 else none, ?_, ?_, ?_⟩
    · rcases h1 with ⟨rfl, rfl, _⟩ | ⟨rfl, _⟩ <;> simp [recErrs]
    · cases r1 <;> simp
    · refine concatLast_gives.2 ⟨b, es2, r2, h5, h6, ?_, ?_, h9⟩
      · rcases h1 with ⟨rfl, rfl, _⟩ | ⟨rfl, _⟩ <;> simp [recErrs, h7]
      · cases r1 <;> simp [h8]

theorem qConcat2_failed {f : α × β → γ} {qa : PSem E α} {qb : PSem E β} {en : Bool} {i j x : Nat}
    {es : List E} : qConcat2 f qa qb en i = .ok (.failed x es, j) ↔
      qa en i = .ok (.failed x es, j) ∨
      ∃ a es1 r1 k, GivesO (qa en i) a es1 r1 k ∧ j = i ∧ ∃ k', qb en k = .ok (.failed x es, k') := by
  unfold qConcat2
  rw [part_failed (r := none) (ks := fun r a k => concatLastSem en i (fun b => f (a, b)) qb r k)
    (st := fun k => k) (fun _ _ => rfl) (fun _ _ _ => rfl) (fun _ _ _ => rfl)]
  constructor
  · rintro (⟨k, h1, rfl⟩ | ⟨a, es1, r1, k, h1, r', _, _, h4⟩)
    · exact .inl h1
    · exact .inr ⟨a, es1, r1, k, h1, concatLast_failed.1 h4⟩
  · rintro (h | ⟨a, es1, r1, k, h1, h2⟩)
    · exact .inl ⟨j, h, rfl⟩
    · refine .inr ⟨a, es1, r1, k, h1, if r1 then some es1 else none, ?_, ?_, concatLast_failed.2 h2⟩
      · rcases h1 with ⟨rfl, rfl, _⟩ | ⟨rfl, _⟩ <;> simp [recErrs]
      · cases r1 <;> simp

theorem concatMid_gives {en : Bool} {st : Nat} {f : β × γ → δ} {qb : PSem E β} {qc : PSem E γ}
    {r : Option (List E)} {i j : Nat} {d : δ} {es : List E} {rec : Bool} :
    GivesO (concatMidSem en st f qb qc r i) d es rec j ↔
      ∃ b es2 r2 k c es3 r3, GivesO (qb en i) b es2 r2 k ∧ GivesO (qc en k) c es3 r3 j ∧
        d = f (b, c) ∧ es = recErrs r ++ (es2 ++ es3) ∧ rec = (r.isSome || (r2 || r3)) ∧
        (rec = true → en = true) := by
  unfold concatMidSem
  rw [part_gives (r := r) (ks := fun r a k => concatLastSem en st (fun c => f (a, c)) qc r k)
    (fail := fun y es' k => .ok (.failed y es', st)) (fun _ _ _ h => givesO_failed.1 h)
    (fun _ _ => rfl) (fun _ _ _ => rfl) (fun _ _ _ => rfl)]
  constructor
  · rintro ⟨a, es1, r1, k, h1, r', h2, h3, h4⟩
    obtain ⟨b, es2, r2, h5, h6, h7, h8, h9⟩ := concatLast_gives.1 h4
    exact ⟨a, es1, r1, k, b, es2, r2, h1, h5, h6, by rw [h7, h2, List.append_assoc],
      by rw [h8, h3, Bool.or_assoc], h9⟩
  · rintro ⟨a, es1, r1, k, b, es2, r2, h1, h5, h6, h7, h8, h9⟩
    refine ⟨a, es1, r1, k, h1, if r1 then extendRec r es1 else r, ?_, ?_, ?_⟩
    · rcases h1 with ⟨rfl, rfl, _⟩ | ⟨rfl, _⟩ <;> simp [recErrs_extend]
    · cases r1 <;> simp [recErrs_extend]
    · refine concatLast_gives.2 ⟨b, es2, r2, h5, h6, ?_, ?_, h9⟩
      · rcases h1 with ⟨rfl, rfl, _⟩ | ⟨rfl, _⟩ <;> simp [recErrs_extend, h7]
      · cases r1 <;> simp [h8, recErrs_extend]

theorem concatMid_failed {en : Bool} {st : Nat} {f : β × γ → δ} {qb : PSem E β} {qc : PSem E γ}
    {r : Option (List E)} {i j x : Nat} {es : List E} :
    concatMidSem en st f qb qc r i = .ok (.failed x es, j) ↔
      j = st ∧ ((∃ k, qb en i = .ok (.failed x es, k)) ∨
        ∃ b es2 r2 k, GivesO (qb en i) b es2 r2 k ∧ ∃ k', qc en k = .ok (.failed x es, k')) := by
  unfold concatMidSem
  rw [part_failed (r := r) (ks := fun r a k => concatLastSem en st (fun c => f (a, c)) qc r k)
    (st := fun _ => st) (fun _ _ => rfl) (fun _ _ _ => rfl) (fun _ _ _ => rfl)]
  constructor
  · rintro (⟨k, h1, rfl⟩ | ⟨a, es1, r1, k, h1, r', _, _, h4⟩)
    · exact ⟨rfl, .inl ⟨k, h1⟩⟩
    · obtain ⟨h5, h6⟩ := concatLast_failed.1 h4
      exact ⟨h5, .inr ⟨a, es1, r1, k, h1, h6⟩⟩
  · rintro ⟨rfl, ⟨k, h⟩ | ⟨a, es1, r1, k, h1, h2⟩⟩
    · exact .inl ⟨k, h, rfl⟩
    · refine .inr ⟨a, es1, r1, k, h1, if r1 then extendRec r es1 else r, ?_, ?_,
        concatLast_failed.2 ⟨rfl, h2⟩⟩
      · rcases h1 with ⟨rfl, rfl, _⟩ | ⟨rfl, _⟩ <;> simp [recErrs_extend]
      · cases r1 <;> simp [recErrs_extend]

theorem qConcat3_gives {f : α × β × γ → δ} {qa : PSem E α} {qb : PSem E β} {qc : PSem E γ} {en : Bool}
    {i j : Nat} {d : δ} {es : List E} {rec : Bool} : GivesO (qConcat3 f qa qb qc en i) d es rec j ↔
      ∃ a es1 r1 k b es2 r2 l c es3 r3, GivesO (qa en i) a es1 r1 k ∧ GivesO (qb en k) b es2 r2 l ∧
        GivesO (qc en l) c es3 r3 j ∧ d = f (a, b, c) ∧ es = es1 ++ (es2 ++ es3) ∧
        rec = (r1 || (r2 || r3)) ∧ (rec = true → en = true) := by
  unfold qConcat3
  rw [part_gives (r := none) (ks := fun r a k => concatMidSem en i (fun x => f (a, x)) qb qc r k)
    (fail := fun y es' k => .ok (.failed y es', k)) (fun _ _ _ h => givesO_failed.1 h)
    (fun _ _ => rfl) (fun _ _ _ => rfl) (fun _ _ _ => rfl)]
  constructor
  · rintro ⟨a, es1, r1, k, h1, r', h2, h3, h4⟩
    obtain ⟨b, es2, r2, l, c, es3, r3, h5, h6, h7, h8, h9, h10⟩ := concatMid_gives.1 h4
    exact ⟨a, es1, r1, k, b, es2, r2, l, c, es3, r3, h1, h5, h6, h7, by rw [h8, h2]; simp [recErrs],
      by rw [h9, h3]; simp, h10⟩
  · rintro ⟨a, es1, r1, k, b, es2, r2, l, c, es3, r3, h1, h5, h6, h7, h8, h9, h10⟩
    refine ⟨a, es1, r1, k, h1, if r1 then some es1 else none, ?_, ?_, ?_⟩
    · rcases h1 with ⟨rfl, rfl, _⟩ | ⟨rfl, _⟩ <;> simp [recErrs]
    · cases r1 <;> simp
    · refine concatMid_gives.2 ⟨b, es2, r2, l, c, es3, r3, h5, h6, h7, ?_, ?_, h10⟩
      · rcases h1 with ⟨rfl, rfl, _⟩ | ⟨rfl, _⟩ <;> simp [recErrs, h8]
      · cases r1 <;> simp [h9]

theorem qConcat3_failed {f : α × β × γ → δ} {qa : PSem E α} {qb : PSem E β} {qc : PSem E γ} {en : Bool}
    {i j x : Nat} {es : List E} : qConcat3 f qa qb qc en i = .ok (.failed x es, j) ↔
      qa en i = .ok (.failed x es, j) ∨
      ∃ a es1 r1 k, GivesO (qa en i) a es1 r1 k ∧ j = i ∧
        ((∃ k', qb en k = .ok (.failed x es, k')) ∨
          ∃ b es2 r2 l, GivesO (qb en k) b es2 r2 l ∧ ∃ k', qc en l = .ok (.failed x es, k')) := by
  unfold qConcat3
  rw [part_failed (r := none) (ks := fun r a k => concatMidSem en i (fun x => f (a, x)) qb qc r k)
    (st := fun k => k) (fun _ _ => rfl) (fun _ _ _ => rfl) (fun _ _ _ => rfl)]
  constructor
  · rintro (⟨k, h1, rfl⟩ | ⟨a, es1, r1, k, h1, r', _, _, h4⟩)
    · exact .inl h1
    · exact .inr ⟨a, es1, r1, k, h1, concatMid_failed.1 h4⟩
  · rintro (h | ⟨a, es1, r1, k, h1, h2⟩)
    · exact .inl ⟨j, h, rfl⟩
    · refine .inr ⟨a, es1, r1, k, h1, if r1 then some es1 else none, ?_, ?_, concatMid_failed.2 h2⟩
      · rcases h1 with ⟨rfl, rfl, _⟩ | ⟨rfl, _⟩ <;> simp [recErrs]
      · cases r1 <;> simp

/-- The parts, one after the other. -/
def GivesAllO (en : Bool) : List (PSem E α) → Nat → List α → List E → Bool → Nat → Prop
  | [], i, os, es, rec, j => os = [] ∧ es = [] ∧ rec = false ∧ j = i
  | q :: qs, i, os, es, rec, j => ∃ o es1 r1 k os' es2 r2, GivesO (q en i) o es1 r1 k ∧
      GivesAllO en qs k os' es2 r2 j ∧ os = o :: os' ∧ es = es1 ++ es2 ∧ rec = (r1 || r2)

/-- The failure of the first part that fails. -/
def FirstFailsO (en : Bool) : List (PSem E α) → Nat → Nat → List E → Prop
  | [], _, _, _ => False
  | q :: qs, i, x, es => (∃ k, q en i = .ok (.failed x es, k)) ∨
      ∃ o es1 r1 k, GivesO (q en i) o es1 r1 k ∧ FirstFailsO en qs k x es

theorem concatRest_gives {en : Bool} {st : Nat} {qs : List (PSem E α)} : ∀ {out : List α}
    {r : Option (List E)} {i j : Nat} {os : List α} {es : List E} {rec : Bool},
    GivesO (concatRestSem en st qs out r i) os es rec j ↔
      ∃ os2 es2 r2, GivesAllO en qs i os2 es2 r2 j ∧ os = out ++ os2 ∧ es = recErrs r ++ es2 ∧
        rec = (r.isSome || r2) ∧ (rec = true → en = true) := by
  induction qs with
  | nil =>
    intro out r i j os es rec
    simp only [concatRestSem, finish_gives, GivesAllO]
    constructor
    · rintro ⟨rfl, rfl, rfl, rfl, h⟩; exact ⟨[], [], false, ⟨rfl, rfl, rfl, rfl⟩, by simp, by simp, by simp, h⟩
    · rintro ⟨os2, es2, r2, ⟨rfl, rfl, rfl, rfl⟩, rfl, rfl, rfl, h⟩; exact ⟨by simp, rfl, by simp, by simp, h⟩
  | cons q qs ih =>
    intro out r i j os es rec
    unfold concatRestSem
    rw [part_gives (r := r) (ks := fun r a k => concatRestSem en st qs (out ++ [a]) r k)
      (fail := fun y es' k => .ok (.failed y es', st)) (fun _ _ _ h => givesO_failed.1 h)
      (fun _ _ => rfl) (fun _ _ _ => rfl) (fun _ _ _ => rfl)]
    constructor
    · rintro ⟨a, es1, r1, k, h1, r', h2, h3, h4⟩
      obtain ⟨os2, es2, r2, h5, h6, h7, h8, h9⟩ := ih.1 h4
      exact ⟨a :: os2, es1 ++ es2, r1 || r2, ⟨a, es1, r1, k, os2, es2, r2, h1, h5, rfl, rfl, rfl⟩,
        by rw [h6]; simp, by rw [h7, h2, List.append_assoc], by rw [h8, h3, Bool.or_assoc], h9⟩
    · rintro ⟨os2, es2, r2, ⟨a, es1, r1, k, os', es2', r2', h1, h5, rfl, rfl, rfl⟩, h6, h7, h8, h9⟩
      refine ⟨a, es1, r1, k, h1, if r1 then extendRec r es1 else r, ?_, ?_, ?_⟩
      · rcases h1 with ⟨rfl, rfl, _⟩ | ⟨rfl, _⟩ <;> simp [recErrs_extend]
      · cases r1 <;> simp [recErrs_extend]
      · refine ih.2 ⟨os', es2', r2', h5, by rw [h6]; simp, ?_, ?_, h9⟩
        · rcases h1 with ⟨rfl, rfl, _⟩ | ⟨rfl, _⟩ <;> simp [recErrs_extend, h7]
        · cases r1 <;> simp [h8, recErrs_extend]

theorem concatRest_failed {en : Bool} {st : Nat} {qs : List (PSem E α)} : ∀ {out : List α}
    {r : Option (List E)} {i j x : Nat} {es : List E},
    concatRestSem en st qs out r i = .ok (.failed x es, j) ↔ j = st ∧ FirstFailsO en qs i x es := by
  induction qs with
  | nil =>
    intro out r i j x es
    simp only [concatRestSem, FirstFailsO, and_false, iff_false]
    exact finish_not_failed
  | cons q qs ih =>
    intro out r i j x es
    unfold concatRestSem
    rw [part_failed (r := r) (ks := fun r a k => concatRestSem en st qs (out ++ [a]) r k)
      (st := fun _ => st) (fun _ _ => rfl) (fun _ _ _ => rfl) (fun _ _ _ => rfl)]
    constructor
    · rintro (⟨k, h1, rfl⟩ | ⟨a, es1, r1, k, h1, r', _, _, h4⟩)
      · exact ⟨rfl, .inl ⟨k, h1⟩⟩
      · obtain ⟨h5, h6⟩ := ih.1 h4
        exact ⟨h5, .inr ⟨a, es1, r1, k, h1, h6⟩⟩
    · rintro ⟨rfl, ⟨k, h⟩ | ⟨a, es1, r1, k, h1, h2⟩⟩
      · exact .inl ⟨k, h, rfl⟩
      · refine .inr ⟨a, es1, r1, k, h1, if r1 then extendRec r es1 else r, ?_, ?_, ih.2 ⟨rfl, h2⟩⟩
        · rcases h1 with ⟨rfl, rfl, _⟩ | ⟨rfl, _⟩ <;> simp [recErrs_extend]
        · cases r1 <;> simp [recErrs_extend]

theorem qConcat_gives {qs : List (PSem E α)} {en : Bool} {i j : Nat} {os : List α} {es : List E}
    {rec : Bool} : GivesO (qConcat qs en i) os es rec j ↔
      GivesAllO en qs i os es rec j ∧ (rec = true → en = true) := by
  cases qs with
  | nil =>
    simp only [qConcat, givesO_success, GivesAllO]
    constructor
    · rintro ⟨rfl, rfl, rfl, rfl⟩; simp
    · rintro ⟨⟨rfl, rfl, rfl, rfl⟩, _⟩; simp
  | cons q qs =>
    unfold qConcat
    rw [part_gives (r := none) (ks := fun r a k => concatRestSem en i qs [a] r k)
      (fail := fun y es' k => .ok (.failed y es', k)) (fun _ _ _ h => givesO_failed.1 h)
      (fun _ _ => rfl) (fun _ _ _ => rfl) (fun _ _ _ => rfl)]
    constructor
    · rintro ⟨a, es1, r1, k, h1, r', h2, h3, h4⟩
      obtain ⟨os2, es2, r2, h5, h6, h7, h8, h9⟩ := concatRest_gives.1 h4
      exact ⟨⟨a, es1, r1, k, os2, es2, r2, h1, h5, h6, by rw [h7, h2]; simp [recErrs],
        by rw [h8, h3]; simp⟩, h9⟩
    · rintro ⟨⟨a, es1, r1, k, os2, es2, r2, h1, h5, h6, h7, h8⟩, h9⟩
      refine ⟨a, es1, r1, k, h1, if r1 then some es1 else none, ?_, ?_, ?_⟩
      · rcases h1 with ⟨rfl, rfl, _⟩ | ⟨rfl, _⟩ <;> simp [recErrs]
      · cases r1 <;> simp
      · refine concatRest_gives.2 ⟨os2, es2, r2, h5, h6, ?_, ?_, h9⟩
        · rcases h1 with ⟨rfl, rfl, _⟩ | ⟨rfl, _⟩ <;> simp [recErrs, h7]
        · cases r1 <;> simp [h8]

theorem qConcat_failed {qs : List (PSem E α)} {en : Bool} {i j x : Nat} {es : List E} :
    qConcat qs en i = .ok (.failed x es, j) ↔
      ∃ q qs', qs = q :: qs' ∧ (q en i = .ok (.failed x es, j) ∨
        ∃ o es1 r1 k, GivesO (q en i) o es1 r1 k ∧ j = i ∧ FirstFailsO en qs' k x es) := by
  cases qs with
  | nil => simp [qConcat]
  | cons q qs =>
    unfold qConcat
    rw [part_failed (r := none) (ks := fun r a k => concatRestSem en i qs [a] r k)
      (st := fun k => k) (fun _ _ => rfl) (fun _ _ _ => rfl) (fun _ _ _ => rfl)]
    constructor
    · rintro (⟨k, h1, rfl⟩ | ⟨a, es1, r1, k, h1, r', _, _, h4⟩)
      · exact ⟨q, qs, rfl, .inl h1⟩
      · exact ⟨q, qs, rfl, .inr ⟨a, es1, r1, k, h1, concatRest_failed.1 h4⟩⟩
    · rintro ⟨q', qs', h0, h⟩
      cases h0
      rcases h with h | ⟨a, es1, r1, k, h1, h2⟩
      · exact .inl ⟨j, h, rfl⟩
      · refine .inr ⟨a, es1, r1, k, h1, if r1 then some es1 else none, ?_, ?_, concatRest_failed.2 h2⟩
        · rcases h1 with ⟨rfl, rfl, _⟩ | ⟨rfl, _⟩ <;> simp [recErrs]
        · cases r1 <;> simp

end PPC
