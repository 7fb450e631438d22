import Verif.SemCost4

/-!
# The number of calls, by position and outcome: lemmas
-/

namespace PPC

variable {S : Sig} {N : Names S} {e : Env S}

/-- Started at position `i`, the client makes at most `K` calls. -/
def Cost {α : Type} (e : Env S) (p : Prog S α) (i K : Nat) : Prop := ∀ c : Cursor, c.WF e → c.pos = i → AtMost e p c K

section

variable {α β : Type} {i j K K' : Nat}

theorem Up.cost {p : Prog S α} (h : Up e p K) : Cost e p i K := fun c hw _ => h c hw

theorem Cost.up {p : Prog S α} (h : ∀ i, Valid e i → Cost e p i K) : Up e p K := fun c hw =>
  h c.pos (hw.valid hw.posLe) c hw rfl

theorem Cost.le {p : Prog S α} (h : Cost e p i K) (hk : K ≤ K') : Cost e p i K' := fun c hw hp => (h c hw hp).le hk

theorem Cost.of_valid {p : Prog S α} (h : Valid e i → Cost e p i K) : Cost e p i K := fun c hw hp =>
  h (hp ▸ hw.valid hw.posLe) c hw hp

theorem Cost.withSave {body : SavedState → Prog S α} (h : ∀ m, Cost e (body m) i K) :
    Cost e (Prog.withSave body) i (K + 2) := fun c hw hp => by
  refine AtMost.le (K := 1 + (K + (1 + 0))) ?_ (by omega)
  unfold Prog.withSave; prog
  refine AtMost.op fun m c' hs => ?_
  have hw' := hw.step _ hs
  refine (h m c' hw' (by cases hs; exact hp)).bind fun a c2 hr => ?_
  exact Up.op (K := 0) (fun _ => .ret) c2 (Prog.run_wf _ hw' hr)

theorem Cost.pbind {E : Type} {p : Parser S E α} {q : PSem E α} (hr : PRef e p q) {en : Bool} {k : Res α E → Prog S β}
    (h : Cost e (p en) i K) (hk : ∀ x j, q en i = .ok (x, j) → Cost e (k x) j K') :
    Cost e ((p en).bind k) i (K + K') := fun c hw hp => by
  refine (h c hw hp).bind fun x c' hx => ?_
  have hq := hr.of_run hw hx
  rw [hp] at hq
  exact hk x c'.pos hq c' (Prog.run_wf _ hw hx) rfl

end

/-- Not a failure. -/
def Res.Done {α E : Type} (x : Res α E) : Prop := ∀ y es, x ≠ .failed y es

section

variable {E α β γ δ : Type} {i K K' K'' : Nat}

theorem Res.Done.success {a : α} : (Res.success a : Res α E).Done := fun _ _ h => by cases h
theorem Res.Done.recovered {a : α} {es : List E} : (Res.recovered a es : Res α E).Done := fun _ _ h => by cases h

theorem Res.Done.map {x : Res α E} {f : α → β} : (x.map f).Done ↔ x.Done := by
  cases x
  · exact ⟨fun _ => .success, fun _ => .success⟩
  · exact ⟨fun _ => .recovered, fun _ => .recovered⟩
  · exact ⟨fun h => (h _ _ rfl).elim, fun h => (h _ _ rfl).elim⟩

theorem post_cost {p : Prog S α} {f : α → β} (h : Cost e p i K) : Cost e (p.bind fun r => .ret (f r)) i K :=
  fun c hw hp => ((h c hw hp).bind (K' := 0) fun _ _ _ => .ret).le (by omega)

theorem tryMap_cost {p : Parser S E α} {f : α → S.Span → TryMapResult β E} {en : Bool} (h : Cost e (p en) i K) :
    Cost e (pTryMap f p en) i (K + 4) := by
  refine Cost.withSave (K := K + 2) fun m c hw hp => ?_
  refine (h c hw hp).bind fun r c' hr => ?_
  have hw' := Prog.run_wf _ hw hr
  cases r with
  | success a => exact tryMapBody_up c' hw'
  | recovered a es =>
    refine Up.bind' (K' := 0) tryMapBody_up (fun r => ?_) (by omega) c' hw'
    cases r <;> exact .ret
  | failed i es => exact .ret

theorem concatLast_cost {p : Parser S E β} {en : Bool} (h : Cost e (p en) i K) {m : SavedState} {f : β → γ}
    {r : Option (List E)} : Cost e (concatLast en m f p r) i (K + 1) := fun c hw hp => by
  refine (h c hw hp).bind fun x c' hr => ?_
  have hw' := Prog.run_wf _ hw hr
  cases x with
  | success b => exact finishRec_up c' hw'
  | recovered b es => exact finishRec_up c' hw'
  | failed i es => exact Up.op (K := 0) (fun _ => .ret) c' hw'

theorem concatMid_cost {p : Parser S E β} {q : PSem E β} (hr : PRef e p q) {p' : Parser S E γ} {en : Bool}
    (h : Cost e (p en) i K) (h' : ∀ x j, q en i = .ok (x, j) → x.Done → Cost e (p' en) j K') {m : SavedState}
    {f : β × γ → δ} {r : Option (List E)} : Cost e (concatMid en m f p p' r) i (K + (K' + 1)) := by
  refine Cost.pbind hr h fun x j hx => ?_
  cases x with
  | success b => exact concatLast_cost (h' _ _ hx .success)
  | recovered b es => exact concatLast_cost (h' _ _ hx .recovered)
  | failed i es => exact Up.cost (Up.le (Up.op (K := 0) fun _ => .ret) (by omega))

theorem concat2_cost {p : Parser S E α} {q : PSem E α} (hr : PRef e p q) {p' : Parser S E β} {en : Bool}
    (h : Cost e (p en) i K) (h' : ∀ x j, q en i = .ok (x, j) → x.Done → Cost e (p' en) j K') {f : α × β → γ} :
    Cost e (concat2 f p p' en) i (K + K' + 3) := by
  refine Cost.le (Cost.withSave (K := K + (K' + 1)) fun m => Cost.pbind hr h fun x j hx => ?_) (by omega)
  cases x with
  | success b => exact concatLast_cost (h' _ _ hx .success)
  | recovered b es => exact concatLast_cost (h' _ _ hx .recovered)
  | failed i es => exact Up.cost .ret

theorem concat3_cost {p : Parser S E α} {q : PSem E α} (hr : PRef e p q) {p' : Parser S E β} {q' : PSem E β}
    (hr' : PRef e p' q') {p'' : Parser S E γ} {en : Bool} (h : Cost e (p en) i K)
    (h' : ∀ x j, q en i = .ok (x, j) → x.Done → Cost e (p' en) j K')
    (h'' : ∀ x j y k, q en i = .ok (x, j) → x.Done → q' en j = .ok (y, k) → y.Done → Cost e (p'' en) k K'')
    {f : α × β × γ → δ} : Cost e (concat3 f p p' p'' en) i (K + K' + K'' + 3) := by
  refine Cost.le (Cost.withSave (K := K + (K' + (K'' + 1))) fun m => Cost.pbind hr h fun x j hx => ?_) (by omega)
  cases x with
  | success b => exact concatMid_cost hr' (h' _ _ hx .success) fun y k hy hd => h'' _ _ _ _ hx .success hy hd
  | recovered b es => exact concatMid_cost hr' (h' _ _ hx .recovered) fun y k hy hd => h'' _ _ _ _ hx .recovered hy hd
  | failed i es => exact Up.cost .ret

/-! ## Choice -/

theorem altFirst_cost {p : Parser S E α} {q : PSem E α} (hr : PRef e p q) {ps : List (Parser S E α)}
    {fs : List (Failure S E α)} (h : Cost e (p false) i K)
    (h' : ∀ x es j, q false i = .ok (.failed x es, j) → ∀ fs, Cost e (altFirst ps fs) j K') :
    Cost e (altFirst (p :: ps) fs) i (K + K') := by
  refine Cost.pbind hr h fun x j hx => ?_
  cases x with
  | success b => exact Up.cost .ret
  | recovered b es => exact Up.cost .panic
  | failed x es => exact h' _ _ _ hx _

/-- Without recovery, a choice makes no calls other than those of the first pass. -/
theorem alternate_cost_off {ε : ErrTy S} {ps : List (Parser S ε.E α)} (h : Cost e (altFirst ps []) i K) :
    Cost e (alternate ε ps false) i K := fun c hw hp => by
  refine AtMost.le ((h c hw hp).bind (K' := 0) fun a c' hr => ?_) (by omega)
  cases a with
  | inl o => exact .ret
  | inr fs =>
    show AtMost e (if fs.isEmpty then _ else _) c' 0
    split
    · exact .panic
    · exact altCombine_up c' (Prog.run_wf _ hw hr)

/-- If one of two alternatives never fails, then a choice makes no calls other than those of the first pass. -/
theorem alternate_cost_done {ε : ErrTy S} {ps : List (Parser S ε.E α)} {en : Bool} (h : Cost e (altFirst ps []) i K)
    (hd : ∀ c fs c', c.WF e → c.pos = i → (altFirst ps []).run (Cursor.step e) c ≠ .ok (.inr fs, c')) :
    Cost e (alternate ε ps en) i K := fun c hw hp => by
  refine AtMost.le ((h c hw hp).bind (K' := 0) fun a c' hr => ?_) (by omega)
  cases a with
  | inl o => exact .ret
  | inr fs => exact (hd c fs c' hw hp hr).elim

/-! ## Calls against the distance -/

/-- Started at `i`, the client makes at most `y - x` calls, and `x ≤ y`. -/
def Fits (e : Env S) (p : Prog S α) (i x y : Nat) : Prop := ∀ c : Cursor, c.WF e → c.pos = i → p.calls (Cursor.step e) c + x ≤ y

theorem Fits.cost {p : Prog S α} {x y : Nat} (h : Fits e p i x y) : Cost e p i (y - x) := fun c hw hp => by
  have := h c hw hp
  unfold AtMost; omega

theorem Cost.fits {p : Prog S α} {x y : Nat} (h : Cost e p i K) (hk : K + x ≤ y) : Fits e p i x y := fun c hw hp => by
  have := h c hw hp
  unfold AtMost at this; omega

theorem Fits.le {p : Prog S α} {x y x' y' : Nat} (h : Fits e p i x y) (hk : y + x' ≤ y' + x) : Fits e p i x' y' :=
  fun c hw hp => by
    have := h c hw hp
    omega

theorem Fits.of_valid {p : Prog S α} {x y : Nat} (h : Valid e i → Fits e p i x y) : Fits e p i x y := fun c hw hp =>
  h (hp ▸ hw.valid hw.posLe) c hw hp

theorem PRef.run_of {p : Parser S E α} {q : PSem E α} (h : PRef e p q) {en : Bool} {c : Cursor} {g : Res α E × Nat}
    (hw : c.WF e) (hq : q en c.pos = .ok g) : ∃ c', (p en).run (Cursor.step e) c = .ok (g.1, c') ∧ c'.pos = g.2 := by
  have h1 := h en c hw
  unfold Ref at h1
  rw [hq] at h1
  cases hr : (p en).run (Cursor.step e) c with
  | ok x =>
    rw [hr] at h1
    obtain ⟨-, h3, -⟩ := h1
    exact ⟨x.2, by rw [h3], by rw [h3]⟩
  | panic m => rw [hr] at h1; exact h1.elim
  | oof => rw [hr] at h1; exact h1.elim
  | stuck => rw [hr] at h1; exact h1.elim

theorem PRef.sem_of {p : Parser S E α} {q : PSem E α} (h : PRef e p q) {en : Bool} {c c' : Cursor} {r : Res α E}
    (hw : c.WF e) (hx : (p en).run (Cursor.step e) c = .ok (r, c')) : q en c.pos = .ok (r, c'.pos) := by
  have h1 := h en c hw
  unfold Ref at h1
  rw [hx] at h1
  cases hq : q en c.pos with
  | ok g =>
    rw [hq] at h1
    obtain ⟨-, h3, -⟩ := h1
    rw [h3]
  | panic m => rw [hq] at h1; exact h1.elim
  | oof => rw [hq] at h1; exact h1.elim
  | stuck => rw [hq] at h1; exact h1.elim

theorem Fits.bind {p : Parser S E α} {q : PSem E α} (hr : PRef e p q) {en : Bool} {k : Res α E → Prog S β} {x y : Nat}
    (h0 : (∀ r j, q en i ≠ .ok (r, j)) → Fits e (p en) i x y)
    (hk : ∀ r j, q en i = .ok (r, j) → Valid e j → ∃ x1 y1 x2 y2, Fits e (p en) i x1 y1 ∧ Fits e (k r) j x2 y2 ∧
      y1 + y2 + x ≤ y + x1 + x2) : Fits e ((p en).bind k) i x y := fun c hw hp => by
  rw [Prog.calls_bind]
  by_cases hq : ∃ r j, q en i = .ok (r, j)
  · obtain ⟨r, j, hq⟩ := hq
    obtain ⟨c', hx, hp'⟩ := hr.run_of hw ((congrArg (q en) hp).trans hq)
    replace hp' : c'.pos = j := hp'
    have hw' := Prog.run_wf _ hw hx
    obtain ⟨x1, y1, x2, y2, h1, h2, h3⟩ := hk _ _ hq (hp' ▸ hw'.valid hw'.posLe)
    have h1 := h1 c hw hp
    have h2 := h2 c' hw' hp'
    rw [hx]
    show _ + (k r).calls (Cursor.step e) c' + x ≤ y
    omega
  · have hq : ∀ r j, q en i ≠ .ok (r, j) := fun r j h => hq ⟨r, j, h⟩
    have h1 := h0 hq c hw hp
    cases hx : (p en).run (Cursor.step e) c with
    | ok a => exact (hq _ _ (hp ▸ hr.of_run hw hx)).elim
    | panic m => exact h1
    | oof => exact h1
    | stuck => exact h1

theorem Fits.withSave {body : SavedState → Prog S α} {x y : Nat} (h : ∀ m, Fits e (body m) i (x + 2) y) :
    Fits e (Prog.withSave body) i x y := fun c hw hp => by
  have h1 := Cost.withSave (fun m => (h m).cost) c hw hp
  unfold AtMost at h1
  obtain ⟨m, c', hs⟩ : ∃ m c', Cursor.step e .save c = .ok (m, c') := ⟨_, _, rfl⟩
  have h2 := h m c' (hw.step _ hs) (by cases hs; exact hp)
  omega

theorem post_fits {p : Prog S α} {f : α → β} {x y : Nat} (h : Fits e p i x y) : Fits e (p.bind fun r => .ret (f r)) i x y :=
  fun c hw hp => by
    have h1 := post_cost (f := f) h.cost c hw hp
    have h2 := h c hw hp
    unfold AtMost at h1
    omega

theorem concat2_fits {p : Parser S E α} {q : PSem E α} (hr : PRef e p q) {p' : Parser S E β} {en : Bool} {x y : Nat}
    (h0 : (∀ r j, q en i = .ok (r, j) → ¬ r.Done) → Fits e (p en) i (x + 3) y)
    (hk : ∀ r j, q en i = .ok (r, j) → r.Done → Valid e j → ∃ x1 y1 x2 y2, Fits e (p en) i x1 y1 ∧
      Fits e (p' en) j x2 y2 ∧ y1 + y2 + x + 3 ≤ y + x1 + x2) {f : α × β → γ} :
    Fits e (concat2 f p p' en) i x y := by
  refine Fits.withSave fun m => Fits.bind hr (fun hn => (h0 fun r j hq => (hn _ _ hq).elim).le (by omega)) fun r j hq hv => ?_
  have hl : ∀ x2 y2, Fits e (p' en) j x2 y2 → ∀ (f : β → γ) r, Fits e (concatLast en m f p' r) j x2 (y2 + 1) :=
    fun x2 y2 h f r c hw hp => by
      have h1 := concatLast_cost (m := m) (f := f) (r := r) h.cost c hw hp
      have h2 := h c hw hp
      unfold AtMost at h1
      omega
  cases r with
  | success a =>
    obtain ⟨x1, y1, x2, y2, h1, h2, h3⟩ := hk _ _ hq .success hv
    exact ⟨x1, y1, x2, y2 + 1, h1, hl _ _ h2 _ _, by omega⟩
  | recovered a es =>
    obtain ⟨x1, y1, x2, y2, h1, h2, h3⟩ := hk _ _ hq .recovered hv
    exact ⟨x1, y1, x2, y2 + 1, h1, hl _ _ h2 _ _, by omega⟩
  | failed z es => exact ⟨x + 3, y, 0, 0,
    h0 fun r' j' hq' => by rw [hq] at hq'; cases hq'; exact fun h => h _ _ rfl, Cost.fits (K := 0) (Up.cost .ret) (Nat.le_refl _), by omega⟩

/-! ## Repetition -/

/-- The configuration of a repetition of at least `m` items without other options. -/
abbrev atLeastCfg (m : Nat) : RepCfg := ⟨m, none, false, false⟩

/-- A repetition that has enough items does not fail. -/
theorem repLoop_done {m : Nat} {qi : PSem E α} {qs : Option (PSem E β)} {en : Bool} {start : Nat} :
    ∀ (fuel : Nat) (out : List α) (r : Option (List E)) (i : Nat) {x : Res (List α) E} {j : Nat}, m ≤ out.length →
      repLoopSem (atLeastCfg m) qi qs en start fuel out r i = .ok (x, j) → x.Done
  | 0, _, _, _, _, _, _, h => by cases h
  | fuel + 1, out, r, i, x, j, hm, h => by
    have hitem : ∀ r b i, repItemSem (atLeastCfg m) qi en start (repLoopSem (atLeastCfg m) qi qs en start fuel) out r b i =
        .ok (x, j) → x.Done := by
      intro r b i h
      unfold repItemSem at h
      rw [if_neg (by simp)] at h
      obtain ⟨⟨y, k⟩, h1, h2⟩ := Out.bind_eq_ok.1 h
      cases y with
      | success o => exact repLoop_done fuel _ _ _ (by simp; omega) h2
      | recovered o es => exact repLoop_done fuel _ _ _ (by simp; omega) h2
      | failed z es =>
        replace h2 : (if _ then _ else _) = _ := h2
        rw [if_pos hm] at h2
        cases h2; exact .success
    unfold repLoopSem at h
    rw [if_neg (by simp [RepCfg.atMax])] at h
    cases qs with
    | none => exact hitem _ _ _ h
    | some s =>
      cases out with
      | nil => exact hitem _ _ _ h
      | cons o out =>
        obtain ⟨⟨y, k⟩, h1, h2⟩ := Out.bind_eq_ok.1 h
        cases y with
        | success o => exact hitem _ _ _ h2
        | recovered o es => exact hitem _ _ _ h2
        | failed z es =>
          replace h2 : (if _ then _ else _) = _ := h2
          rw [if_neg (by simp), if_pos hm] at h2
          cases h2; exact .success

theorem Fits.save {k : SavedState → Prog S α} {x y : Nat} (h : ∀ m, Fits e (k m) i (x + 1) y) :
    Fits e (.op .save k) i x y := fun c hw hp => by
  obtain ⟨m, c', hs⟩ : ∃ m c', Cursor.step e .save c = .ok (m, c') := ⟨_, _, rfl⟩
  have h2 := h m c' (hw.step _ hs) (by cases hs; exact hp)
  rw [Prog.calls]
  simp only [hs]
  omega

theorem Fits.dropOpt {b : Option SavedState} {k : Unit → Prog S α} {x y : Nat} (h : Fits e (k ()) i (x + 1) y) :
    Fits e ((dropOpt b).bind k) i x y := fun c hw hp => by
  rw [Prog.calls_bind]
  have h0 := dropOpt_up (m := b) c hw
  unfold AtMost at h0
  have h1 := h c hw hp
  cases hx : (PPC.dropOpt (S := S) b).run (Cursor.step e) c with
  | ok a =>
    have h2 := h a.2 (Prog.run_wf _ hw hx) ((dropOpt_run (u := a.1) hx).trans hp)
    show _ + ((k ()).calls (Cursor.step e) a.2) + x ≤ y
    omega
  | panic m => show _ + 0 + x ≤ y; omega
  | oof => show _ + 0 + x ≤ y; omega
  | stuck => show _ + 0 + x ≤ y; omega

theorem mul_mono {A i j : Nat} (h : i ≤ j) : A * i ≤ A * j := Nat.mul_le_mul_left _ h

/-- A repetition whose items are paid for by the distance that they move (with `A` calls for each token, of which `t`
are left over after each item): it is paid for as well, except for the last attempt at an item. -/
theorem repeatLoop_fits {m A t f W Ks : Nat} {P : Nat → Prop} {F : Bool → Prop} {L : Nat} (hL : Length e L) {item : Parser S E α} {qi : PSem E α}
    (hri : PRef e item qi) {sep : Option (Parser S E β)} {qs : Option (PSem E β)}
    (hs : ∀ s, sep = some s → ∃ q, qs = some q ∧ PRef e s q ∧ UpP e s Ks ∧ ∀ b i x j, q b i = .ok (x, j) → i ≤ j)
    (hn : sep = none → qs = none)
    (hok : ∀ b, F b → ∀ i x j, qi b i = .ok (x, j) → x.Done → Fits e (item b) i (A * i + t) (A * j))
    (hany : ∀ b, F b → ∀ i, Fits e (item b) i (A * i) (A * L + f))
    (hstay : ∀ b, F b → ∀ i x es j, qi b i = .ok (.failed x es, j) → j = i)
    (hlast : ∀ b, F b → ∀ i x es j, qi b i = .ok (.failed x es, j) → P i → Cost e (item b) i W) (ht : Ks + 2 ≤ t)
    {en : Bool} (hF : ∀ l, F (en && decide (l < m))) {m0 : SavedState} {start : Nat} :
    ∀ (fuel : Nat) (out : List α) (r : Option (List E)) (i : Nat),
      Fits e (repeatLoop (atLeastCfg m) item sep en m0 fuel out r) i (A * i) (A * L + f + Ks + 3) ∧
      ∀ x j, repLoopSem (atLeastCfg m) qi qs en start fuel out r i = .ok (x, j) → x.Done →
        ∃ k, (k = j ∨ ∃ s b y, qs = some s ∧ s b j = .ok (y, k) ∧ y.Done) ∧
          (P k → Fits e (repeatLoop (atLeastCfg m) item sep en m0 fuel out r) i (A * i) (A * j + Ks + 3 + W))
  | 0, _, _, i => by
    refine ⟨Fits.of_valid fun hv => Cost.fits (K := 0) (Up.cost .oof) ?_, fun x j h => by cases h⟩
    have := mul_mono (A := A) (hL.le.1 hv)
    omega
  | fuel + 1, out, r, i => by
    have hitem : ∀ (bs : Option Nat) (r : Option (List E)) (i2 : Nat), bs.getD i2 ≤ i2 →
        (∀ before, Fits e (repeatItem (atLeastCfg m) item en m0 (repeatLoop (atLeastCfg m) item sep en m0 fuel) out r before) i2
          (A * i2) (A * L + f + 2)) ∧
        ∀ x j, repItemSem (atLeastCfg m) qi en start (repLoopSem (atLeastCfg m) qi qs en start fuel) out r bs i2 =
            .ok (x, j) → x.Done →
          ∃ k, (k = j ∨ (bs = some j ∧ k = i2) ∨ ∃ s b y, qs = some s ∧ s b j = .ok (y, k) ∧ y.Done) ∧
            (P k → ∀ before, Fits e
              (repeatItem (atLeastCfg m) item en m0 (repeatLoop (atLeastCfg m) item sep en m0 fuel) out r before) i2 (A * bs.getD i2) (A * j + 2 + W)) := by
      intro bs r i2 hb
      replace hb := mul_mono (A := A) hb
      have hif : ¬ ((atLeastCfg m).allowTrailing && (atLeastCfg m).atMax out.length) = true := by simp
      unfold repeatItem repItemSem
      simp only [if_neg hif]
      have htail : ∀ (before : Option SavedState) z es k, Cost e (do
          if (atLeastCfg m).minimum ≤ out.length then
            match before with
            | some m1 =>
              if !(atLeastCfg m).allowTrailing then Prog.restore m1
              Prog.drop m1
            | none => pure ()
            return .success out
          else
            Prog.restore m0
            PPC.dropOpt before
            return .failed z es : Prog S (Res (List α) E)) k 2 := by
        intro before z es k
        refine Up.cost ?_
        split
        · cases before with
          | none => exact .ret
          | some m => exact Up.op (K := 1) (fun _ => Up.op (K := 0) fun _ => .ret)
        · exact Up.op (K := 1) (fun _ => dropOpt_up.bind' (K' := 0) (fun _ => .ret) (by omega))
      have ih := fun o r k => repeatLoop_fits (m := m) (P := P) (W := W) hL hri hs hn hok hany hstay hlast ht (en := en)
        hF (m0 := m0) (start := start) fuel (out ++ [o]) r k
      refine ⟨fun before => Fits.bind hri (fun _ => (hany _ (hF _) i2).le (by omega)) fun y k hq hv => ?_, fun x j h hd => ?_⟩
      · cases y with
        | success o =>
          exact ⟨_, _, A * k, A * L + f + Ks + 4, hok _ (hF _) _ _ _ hq .success, Fits.dropOpt ((ih o _ k).1.le (by omega)), by omega⟩
        | recovered o es =>
          exact ⟨_, _, A * k, A * L + f + Ks + 4, hok _ (hF _) _ _ _ hq .recovered, Fits.dropOpt ((ih o _ k).1.le (by omega)),
            by omega⟩
        | failed z es => exact ⟨_, _, 0, 2, hany _ (hF _) i2, (htail before z es k).fits (by omega), by omega⟩
      · obtain ⟨⟨y, k⟩, h1, h2⟩ := Out.bind_eq_ok.1 h
        cases y with
        | success o =>
          obtain ⟨k', h3, h4⟩ := (ih o _ k).2 x j h2 hd
          refine ⟨k', h3.imp id Or.inr, fun hP before => Fits.bind hri (fun hne => (hne _ _ h1).elim) fun y k2 hq hv => ?_⟩
          rw [h1] at hq; cases hq
          exact ⟨_, _, A * k, _, hok _ (hF _) _ _ _ h1 .success, Fits.dropOpt ((h4 hP).le (y' := A * j + Ks + 4 + W) (by omega)),
            by omega⟩
        | recovered o es =>
          obtain ⟨k', h3, h4⟩ := (ih o _ k).2 x j h2 hd
          refine ⟨k', h3.imp id Or.inr, fun hP before => Fits.bind hri (fun hne => (hne _ _ h1).elim) fun y k2 hq hv => ?_⟩
          rw [h1] at hq; cases hq
          exact ⟨_, _, A * k, _, hok _ (hF _) _ _ _ h1 .recovered, Fits.dropOpt ((h4 hP).le (y' := A * j + Ks + 4 + W) (by omega)),
            by omega⟩
        | failed z es =>
          replace h2 : (if _ then _ else _) = _ := h2
          split at h2
          · have hj : k = i2 := hstay _ (hF _) _ _ _ _ h1
            subst hj
            refine ⟨k, ?_, fun hP before => Fits.bind hri (fun hne => (hne _ _ h1).elim) fun y k2 hq hv => ?_⟩
            · cases bs with
              | none => cases h2; exact .inl rfl
              | some b => cases h2; exact .inr (.inl ⟨rfl, rfl⟩)
            · rw [h1] at hq; cases hq
              exact ⟨_, _, 0, 2, (hlast _ (hF _) _ _ _ _ h1 hP).fits (x := 0) (Nat.le_refl _), (htail before z es k).fits (by omega), by
                cases bs with
                | none => cases h2; simp only [Option.getD_none]; omega
                | some b => cases h2; simp; omega⟩
          · cases h2; exact (hd _ _ rfl).elim
    have hif : ¬ (!(atLeastCfg m).allowTrailing && (atLeastCfg m).atMax out.length) = true := by simp [RepCfg.atMax]
    unfold repeatLoop repLoopSem
    rw [if_neg hif, if_neg hif]
    have hplain : Fits e (repeatItem (atLeastCfg m) item en m0 (repeatLoop (atLeastCfg m) item sep en m0 fuel) out r none) i
        (A * i) (A * L + f + Ks + 3) ∧ ∀ x j, repItemSem (atLeastCfg m) qi en start
          (repLoopSem (atLeastCfg m) qi qs en start fuel) out r none i = .ok (x, j) → x.Done →
        ∃ k, (k = j ∨ ∃ s b y, qs = some s ∧ s b j = .ok (y, k) ∧ y.Done) ∧
          (P k → Fits e (repeatItem (atLeastCfg m) item en m0 (repeatLoop (atLeastCfg m) item sep en m0 fuel) out r none) i
            (A * i) (A * j + Ks + 3 + W)) := by
      refine ⟨((hitem none r i (Nat.le_refl _)).1 none).le (by omega), fun x j h hd => ?_⟩
      obtain ⟨k, h1, h2⟩ := (hitem none r i (Nat.le_refl _)).2 x j h hd
      refine ⟨k, h1.imp id (fun h => h.resolve_left fun h => by cases h.1), fun hP => (h2 hP none).le (by simp only [Option.getD_none]; omega)⟩
    cases sep with
    | none => rw [hn rfl] at *; exact hplain
    | some s =>
      obtain ⟨q, rfl, hrs, hus, hqs⟩ := hs s rfl
      cases out with
      | nil => exact hplain
      | cons o out =>
        have hlast2 : ∀ z es k m1, Cost e (do
            if (o :: out).isEmpty then
              repeatItem (atLeastCfg m) item en m0 (repeatLoop (atLeastCfg m) item (some s) en m0 fuel) (o :: out) r (some m1)
            else if (atLeastCfg m).minimum ≤ (o :: out).length then
              Prog.drop m1
              return .success (o :: out)
            else
              Prog.restore m0
              Prog.drop m1
              return .failed z es : Prog S (Res (List α) E)) k 2 := by
          intro z es k m1
          refine Up.cost ?_
          rw [if_neg (by simp)]
          split
          · exact Up.le (Up.op (K := 0) (fun _ => .ret)) (by omega)
          · exact Up.op (K := 1) (fun _ => Up.op (K := 0) fun _ => .ret)
        refine ⟨Fits.of_valid fun hv => Fits.save fun m1 => Fits.bind hrs (fun _ => (hus _).cost.fits ?_) fun y k hq hv => ?_,
          fun x j h hd => ?_⟩
        · have := mul_mono (A := A) (hL.le.1 hv); omega
        · have hle := mul_mono (A := A) (hqs _ _ _ _ hq)
          have hkL := mul_mono (A := A) (hL.le.1 hv)
          cases y with
          | success b =>
            exact ⟨0, Ks, _, _, (hus _).cost.fits (Nat.le_refl _), (hitem (some i) r k (hqs _ _ _ _ hq)).1 (some m1), by omega⟩
          | recovered b es =>
            exact ⟨0, Ks, _, _, (hus _).cost.fits (Nat.le_refl _),
              (hitem (some i) (extendRec r es) k (hqs _ _ _ _ hq)).1 (some m1), by omega⟩
          | failed z es =>
            exact ⟨0, Ks, 0, 2, (hus _).cost.fits (Nat.le_refl _), (hlast2 z es k m1).fits (by omega), by omega⟩
        · obtain ⟨⟨y, k⟩, h1, h2⟩ := Out.bind_eq_ok.1 h
          have hle := mul_mono (A := A) (hqs _ _ _ _ h1)
          have hdone : ∀ r y, q (en && decide ((o :: out).length < (atLeastCfg m).minimum) && !(o :: out).isEmpty) i = .ok (y, k) →
              y.Done → repItemSem (atLeastCfg m) qi en start (repLoopSem (atLeastCfg m) qi (some q) en start fuel) (o :: out) r
                (some i) k = .ok (x, j) →
              ∃ k', (k' = j ∨ ∃ s b y, some q = some s ∧ s b j = .ok (y, k') ∧ y.Done) ∧
                (P k' → ∀ m1, Fits e (repeatItem (atLeastCfg m) item en m0 (repeatLoop (atLeastCfg m) item (some s) en m0 fuel)
                  (o :: out) r (some m1)) k (A * i) (A * j + 2 + W)) := by
            intro r y h1 hy h2
            obtain ⟨k', h3, h4⟩ := (hitem (some i) r k (hqs _ _ _ _ h1)).2 x j h2 hd
            refine ⟨k', ?_, fun hP m1 => h4 hP _⟩
            rcases h3 with h3 | ⟨h3, h5⟩ | h3
            · exact .inl h3
            · cases h3; rw [h5]; exact .inr ⟨_, _, _, rfl, h1, hy⟩
            · exact .inr h3
          cases y with
          | success b =>
            obtain ⟨k', h3, h4⟩ := hdone _ _ h1 .success h2
            refine ⟨k', h3, fun hP => Fits.save fun m1 => Fits.bind hrs (fun hne => (hne _ _ h1).elim) fun y k2 hq hv => ?_⟩
            rw [h1] at hq; cases hq
            exact ⟨0, Ks, _, _, (hus _).cost.fits (Nat.le_refl _), h4 hP m1, by omega⟩
          | recovered b es =>
            obtain ⟨k', h3, h4⟩ := hdone _ _ h1 .recovered h2
            refine ⟨k', h3, fun hP => Fits.save fun m1 => Fits.bind hrs (fun hne => (hne _ _ h1).elim) fun y k2 hq hv => ?_⟩
            rw [h1] at hq; cases hq
            exact ⟨0, Ks, _, _, (hus _).cost.fits (Nat.le_refl _), h4 hP m1, by omega⟩
          | failed z es =>
            refine ⟨j, .inl rfl, fun hP => Fits.save fun m1 => Fits.bind hrs (fun hne => (hne _ _ h1).elim) fun y k2 hq hv => ?_⟩
            rw [h1] at hq; cases hq
            refine ⟨0, Ks, 0, 2, (hus _).cost.fits (Nat.le_refl _), (hlast2 z es k m1).fits (by omega), ?_⟩
            replace h2 : (if _ then _ else _) = _ := h2
            rw [if_neg (by simp)] at h2
            split at h2
            · cases h2; omega
            · cases h2; exact (hd _ _ rfl).elim

/-! ## Parsers whose calls are paid for by the distance -/

theorem finishSem_ok {en : Bool} {o : α} {r : Option (List E)} {i j : Nat} {x : Res α E}
    (h : finishSem en o r i = .ok (x, j)) : j = i := by
  unfold finishSem at h
  split at h
  · split at h
    · cases h; rfl
    · cases h
  · cases h; rfl

theorem concatLastSem_done {en : Bool} {start : Nat} {f : β → γ} {q : PSem E β} {r : Option (List E)} {i j : Nat}
    {x : Res γ E} (h : concatLastSem en start f q r i = .ok (x, j)) (hd : x.Done) : ∃ b, q en i = .ok (b, j) ∧ b.Done := by
  obtain ⟨⟨y, k⟩, h1, h2⟩ := Out.bind_eq_ok.1 h
  cases y with
  | success b => have := finishSem_ok h2; subst this; exact ⟨_, h1, .success⟩
  | recovered b es => have := finishSem_ok h2; subst this; exact ⟨_, h1, .recovered⟩
  | failed z es => cases h2; exact (hd _ _ rfl).elim

theorem qConcat2_done {f : α × β → γ} {q : PSem E α} {q' : PSem E β} {en : Bool} {i j : Nat} {x : Res γ E}
    (h : qConcat2 f q q' en i = .ok (x, j)) (hd : x.Done) :
    ∃ a k b, q en i = .ok (a, k) ∧ a.Done ∧ q' en k = .ok (b, j) ∧ b.Done := by
  obtain ⟨⟨y, k⟩, h1, h2⟩ := Out.bind_eq_ok.1 h
  cases y with
  | success b => obtain ⟨c, h3, h4⟩ := concatLastSem_done h2 hd; exact ⟨_, _, _, h1, .success, h3, h4⟩
  | recovered b es => obtain ⟨c, h3, h4⟩ := concatLastSem_done h2 hd; exact ⟨_, _, _, h1, .recovered, h3, h4⟩
  | failed z es => cases h2; exact (hd _ _ rfl).elim

theorem concatMidSem_done {en : Bool} {start : Nat} {f : β × γ → δ} {q : PSem E β} {q' : PSem E γ} {r : Option (List E)}
    {i j : Nat} {x : Res δ E} (h : concatMidSem en start f q q' r i = .ok (x, j)) (hd : x.Done) :
    ∃ b k c, q en i = .ok (b, k) ∧ b.Done ∧ q' en k = .ok (c, j) ∧ c.Done := by
  obtain ⟨⟨y, k⟩, h1, h2⟩ := Out.bind_eq_ok.1 h
  cases y with
  | success b => obtain ⟨c, h3, h4⟩ := concatLastSem_done h2 hd; exact ⟨_, _, _, h1, .success, h3, h4⟩
  | recovered b es => obtain ⟨c, h3, h4⟩ := concatLastSem_done h2 hd; exact ⟨_, _, _, h1, .recovered, h3, h4⟩
  | failed z es => cases h2; exact (hd _ _ rfl).elim

theorem qConcat3_done {f : α × β × γ → δ} {q : PSem E α} {q' : PSem E β} {q'' : PSem E γ} {en : Bool} {i j : Nat}
    {x : Res δ E} (h : qConcat3 f q q' q'' en i = .ok (x, j)) (hd : x.Done) :
    ∃ a k b l c, q en i = .ok (a, k) ∧ a.Done ∧ q' en k = .ok (b, l) ∧ b.Done ∧ q'' en l = .ok (c, j) ∧ c.Done := by
  obtain ⟨⟨y, k⟩, h1, h2⟩ := Out.bind_eq_ok.1 h
  cases y with
  | success b =>
    obtain ⟨b, l, c, h3, h4, h5, h6⟩ := concatMidSem_done h2 hd; exact ⟨_, _, _, _, _, h1, .success, h3, h4, h5, h6⟩
  | recovered b es =>
    obtain ⟨b, l, c, h3, h4, h5, h6⟩ := concatMidSem_done h2 hd; exact ⟨_, _, _, _, _, h1, .recovered, h3, h4, h5, h6⟩
  | failed z es => cases h2; exact (hd _ _ rfl).elim

theorem concatLastSem_failed {en : Bool} {start : Nat} {f : β → γ} {q : PSem E β} {r : Option (List E)} {i j z : Nat}
    {es : List E} (h : concatLastSem en start f q r i = .ok (.failed z es, j)) : j = start := by
  have hf : ∀ (b : γ) r k, finishSem en b r k ≠ .ok (.failed z es, j) := by
    intro b r k h
    unfold finishSem at h
    split at h
    · split at h <;> cases h
    · cases h
  obtain ⟨⟨y, k⟩, h1, h2⟩ := Out.bind_eq_ok.1 h
  cases y with
  | success b => exact (hf _ _ _ h2).elim
  | recovered b es => exact (hf _ _ _ h2).elim
  | failed z es => cases h2; rfl

/-- A failing pair is back at its start, if that is so for the first part. -/
theorem qConcat2_stays {f : α × β → γ} {q : PSem E α} {q' : PSem E β} {en : Bool} {i : Nat}
    (hq : ∀ z es j, q en i = .ok (.failed z es, j) → j = i) : ∀ z es j, qConcat2 f q q' en i = .ok (.failed z es, j) → j = i := by
  intro z es j h
  obtain ⟨⟨y, k⟩, h1, h2⟩ := Out.bind_eq_ok.1 h
  cases y with
  | success b => exact concatLastSem_failed h2
  | recovered b es => exact concatLastSem_failed h2
  | failed z es => cases h2; exact hq _ _ _ h1

theorem concatMidSem_failed {en : Bool} {start : Nat} {f : β × γ → δ} {q : PSem E β} {q' : PSem E γ} {r : Option (List E)}
    {i j z : Nat} {es : List E} (h : concatMidSem en start f q q' r i = .ok (.failed z es, j)) : j = start := by
  obtain ⟨⟨y, k⟩, h1, h2⟩ := Out.bind_eq_ok.1 h
  cases y with
  | success b => exact concatLastSem_failed h2
  | recovered b es => exact concatLastSem_failed h2
  | failed z es => cases h2; rfl

theorem qConcat3_stays {f : α × β × γ → δ} {q : PSem E α} {q' : PSem E β} {q'' : PSem E γ} {en : Bool} {i : Nat}
    (hq : ∀ z es j, q en i = .ok (.failed z es, j) → j = i) :
    ∀ z es j, qConcat3 f q q' q'' en i = .ok (.failed z es, j) → j = i := by
  intro z es j h
  obtain ⟨⟨y, k⟩, h1, h2⟩ := Out.bind_eq_ok.1 h
  cases y with
  | success b => exact concatMidSem_failed h2
  | recovered b es => exact concatMidSem_failed h2
  | failed z es => cases h2; exact hq _ _ _ h1

theorem qMap_ok {f : α → β} {q : PSem E α} {en : Bool} {i j : Nat} {x : Res β E} (h : qMap f q en i = .ok (x, j)) :
    ∃ y, q en i = .ok (y, j) ∧ x = y.map f := by
  obtain ⟨⟨y, k⟩, h1, h2⟩ := Out.bind_eq_ok.1 h
  cases h2; exact ⟨_, h1, rfl⟩

theorem qMap_stays {f : α → β} {q : PSem E α} {en : Bool} {i : Nat}
    (hq : ∀ z es j, q en i = .ok (.failed z es, j) → j = i) : ∀ z es j, qMap f q en i = .ok (.failed z es, j) → j = i := by
  intro z es j h
  obtain ⟨y, h1, h2⟩ := qMap_ok h
  cases y <;> cases h2
  exact hq _ _ _ h1

/-- The calls are paid for with `A` calls for each token that is consumed, and `s` more. If the parser fails, then with
`A` calls for each token of the rest of the input. This is without recovery. -/
structure Lin (e : Env S) (L : Nat) (p : Parser S E α) (q : PSem E α) (A s : Nat) : Prop where
  ref : PRef e p q
  le : ∀ en i x j, q en i = .ok (x, j) → i ≤ j
  any : ∀ i, Fits e (p false) i (A * i) (A * L + s)
  ok : ∀ i x j, q false i = .ok (x, j) → x.Done → Fits e (p false) i (A * i) (A * j + s)

variable {L A A' s s' s'' : Nat} {p : Parser S E α} {q : PSem E α} {p' : Parser S E β} {q' : PSem E β}
  {p'' : Parser S E γ} {q'' : PSem E γ}

theorem Lin.of_up (hL : Length e L) (hr : PRef e p q) (hle : ∀ en i x j, q en i = .ok (x, j) → i ≤ j) (h : Up e (p false) K) :
    Lin e L p q A K where
  ref := hr
  le := hle
  any i := Fits.of_valid fun hv => h.cost.fits (by have := mul_mono (A := A) (hL.le.1 hv); omega)
  ok i x j hq _ := h.cost.fits (by have := mul_mono (A := A) (hle _ _ _ _ hq); omega)

theorem mul_le {a b i j s c : Nat} (h : c + a * i ≤ a * j + s) (hij : i ≤ j) (hab : a ≤ b) : c + b * i ≤ b * j + s := by
  obtain ⟨d, rfl⟩ := Nat.exists_eq_add_of_le hab
  have := mul_mono (A := d) hij
  rw [Nat.add_mul, Nat.add_mul]
  omega

theorem Lin.mono (hL : Length e L) (h : Lin e L p q A s) (hA : A ≤ A') (hs : s ≤ s') : Lin e L p q A' s' where
  ref := h.ref
  le := h.le
  any i := Fits.of_valid fun hv c hw hp => by
    have := mul_le (h.any i c hw hp) (hL.le.1 hv) hA
    omega
  ok i x j hq hd c hw hp := by
    have := mul_le (h.ok i x j hq hd c hw hp) (h.le _ _ _ _ hq) hA
    omega

theorem Lin.concat2 (h : Lin e L p q A s) (h' : Lin e L p' q' A s') {f : α × β → γ} (hr : PRef e (concat2 f p p') (qConcat2 f q q'))
    (hle : ∀ en i x j, qConcat2 f q q' en i = .ok (x, j) → i ≤ j) :
    Lin e L (concat2 f p p') (qConcat2 f q q') A (s + s' + 3) where
  ref := hr
  le := hle
  any i := concat2_fits h.ref (fun _ => (h.any i).le (by omega)) fun r j hq hd hv =>
    ⟨_, _, _, _, h.ok _ _ _ hq hd, h'.any j, by omega⟩
  ok i x j hx hd := by
    obtain ⟨a, k, b, h1, h2, h3, h4⟩ := qConcat2_done hx hd
    refine concat2_fits h.ref (fun hn => (hn _ _ h1 h2).elim) fun r j' hq hd' hv => ?_
    rw [h1] at hq; cases hq
    exact ⟨_, _, _, _, h.ok _ _ _ h1 h2, h'.ok _ _ _ h3 h4, by omega⟩

theorem concat3_fits (hr : PRef e p q) (hr' : PRef e p' q') {en : Bool} {x y : Nat}
    (h0 : (∀ r j, q en i = .ok (r, j) → ¬ r.Done) → Fits e (p en) i (x + 3) y)
    (h1 : ∀ r j, q en i = .ok (r, j) → r.Done → (∀ r' k, q' en j = .ok (r', k) → ¬ r'.Done) → ∃ x1 y1 x2 y2,
      Fits e (p en) i x1 y1 ∧ Fits e (p' en) j x2 y2 ∧ y1 + y2 + x + 3 ≤ y + x1 + x2)
    (h2 : ∀ r j r' k, q en i = .ok (r, j) → r.Done → q' en j = .ok (r', k) → r'.Done → ∃ x1 y1 x2 y2 x3 y3,
      Fits e (p en) i x1 y1 ∧ Fits e (p' en) j x2 y2 ∧ Fits e (p'' en) k x3 y3 ∧ y1 + y2 + y3 + x + 3 ≤ y + x1 + x2 + x3)
    {f : α × β × γ → δ} : Fits e (concat3 f p p' p'' en) i x y := by
  refine Fits.withSave fun m => Fits.bind hr (fun hn => (h0 fun r j hq => (hn _ _ hq).elim).le (by omega)) fun r j hq hv => ?_
  have hl : ∀ k x2 y2, Fits e (p'' en) k x2 y2 → ∀ (f : γ → δ) r, Fits e (concatLast en m f p'' r) k x2 (y2 + 1) :=
    fun k x2 y2 h f r c hw hp => by
      have h1 := concatLast_cost (m := m) (f := f) (r := r) h.cost c hw hp
      have h2 := h c hw hp
      unfold AtMost at h1
      omega
  have hmid : r.Done → ∃ x1 y1 x2 y2, Fits e (p en) i x1 y1 ∧ (∀ (f : β × γ → δ) r,
      Fits e (concatMid en m f p' p'' r) j x2 y2) ∧ y1 + y2 + (x + 2) ≤ y + x1 + x2 := by
    intro hd
    by_cases hx : ∃ r' k, q' en j = .ok (r', k) ∧ r'.Done
    · obtain ⟨r', k, h3, h4⟩ := hx
      obtain ⟨x1, y1, x2, y2, x3, y3, h5, h6, h7, h8⟩ := h2 _ _ _ _ hq hd h3 h4
      refine ⟨x1, y1, x2 + x3, y2 + y3 + 1, h5, fun f r => Fits.bind hr' (fun hn => (hn _ _ h3).elim) fun r2 k2 hq2 _ => ?_,
        by omega⟩
      rw [h3] at hq2; cases hq2
      cases r' with
      | success b => exact ⟨_, _, _, _, h6, hl _ _ _ h7 _ _, by omega⟩
      | recovered b es => exact ⟨_, _, _, _, h6, hl _ _ _ h7 _ _, by omega⟩
      | failed z es => exact (h4 _ _ rfl).elim
    · have hx : ∀ r' k, q' en j = .ok (r', k) → ¬ r'.Done := fun r' k h h' => hx ⟨r', k, h, h'⟩
      obtain ⟨x1, y1, x2, y2, h5, h6, h7⟩ := h1 _ _ hq hd hx
      refine ⟨x1, y1, x2, y2 + 1, h5, fun f r => Fits.bind hr' (fun _ => h6.le (by omega)) fun r2 k2 hq2 _ => ?_, by omega⟩
      cases r2 with
      | success b => exact (hx _ _ hq2 .success).elim
      | recovered b es => exact (hx _ _ hq2 .recovered).elim
      | failed z es =>
        exact ⟨_, _, 0, 1, h6, Cost.fits (K := 1) (Up.cost (Up.op (K := 0) fun _ => .ret)) (by omega), by omega⟩
  cases r with
  | success a =>
    obtain ⟨x1, y1, x2, y2, h3, h4, h5⟩ := hmid .success
    exact ⟨_, _, _, _, h3, h4 _ _, h5⟩
  | recovered a es =>
    obtain ⟨x1, y1, x2, y2, h3, h4, h5⟩ := hmid .recovered
    exact ⟨_, _, _, _, h3, h4 _ _, h5⟩
  | failed z es =>
    exact ⟨x + 3, y, 0, 0,
      h0 fun r' j' hq' => by rw [hq] at hq'; cases hq'; exact fun h => h _ _ rfl,
      Cost.fits (K := 0) (Up.cost .ret) (Nat.le_refl _), by omega⟩

theorem Lin.concat3 (h : Lin e L p q A s) (h' : Lin e L p' q' A s') (h'' : Lin e L p'' q'' A s'') {f : α × β × γ → δ}
    (hr : PRef e (concat3 f p p' p'') (qConcat3 f q q' q''))
    (hle : ∀ en i x j, qConcat3 f q q' q'' en i = .ok (x, j) → i ≤ j) :
    Lin e L (concat3 f p p' p'') (qConcat3 f q q' q'') A (s + s' + s'' + 3) where
  ref := hr
  le := hle
  any i := concat3_fits h.ref h'.ref (fun _ => (h.any i).le (by omega))
    (fun r j hq hd _ => ⟨_, _, _, _, h.ok _ _ _ hq hd, h'.any j, by omega⟩)
    fun r j r' k hq hd hq' hd' => ⟨_, _, _, _, _, _, h.ok _ _ _ hq hd, h'.ok _ _ _ hq' hd', h''.any k, by omega⟩
  ok i x j hx hd := by
    obtain ⟨a, k, b, l, c, h1, h2, h3, h4, h5, h6⟩ := qConcat3_done hx hd
    refine concat3_fits h.ref h'.ref (fun hn => (hn _ _ h1 h2).elim) (fun r j' hq hd' hn => ?_) fun r j' r' k' hq hd' hq' hd'' => ?_
    · rw [h1] at hq; cases hq
      exact (hn _ _ h3 h4).elim
    · rw [h1] at hq; cases hq
      rw [h3] at hq'; cases hq'
      exact ⟨_, _, _, _, _, _, h.ok _ _ _ h1 h2, h'.ok _ _ _ h3 h4, h''.ok _ _ _ h5 h6, by omega⟩

theorem Lin.map (h : Lin e L p q A s) {f : α → β} (hr : PRef e (fun en => (p en).bind fun r => .ret (r.map f)) (qMap f q)) :
    Lin e L (fun en => (p en).bind fun r => .ret (r.map f)) (qMap f q) A s where
  ref := hr
  le en i x j hq := by
    obtain ⟨y, h1, -⟩ := qMap_ok hq
    exact h.le _ _ _ _ h1
  any i := post_fits (h.any i)
  ok i x j hq hd := by
    obtain ⟨y, h1, rfl⟩ := qMap_ok hq
    exact post_fits (h.ok _ _ _ h1 (Res.Done.map.1 hd))

theorem qTryMap_ok {f : α → S.Span → TryMapResult β E} {en : Bool} {i j : Nat} {x : Res β E}
    (h : qTryMap e f q en i = .ok (x, j)) : ∃ y k, q en i = .ok (y, k) ∧ (x.Done → y.Done ∧ k = j) ∧ (i ≤ k → i ≤ j) := by
  have hstep : ∀ k a, ∀ {x : Res β E} {j}, tryMapStep e f en i k a = .ok (x, j) → (x.Done → k = j) ∧ (i ≤ k → i ≤ j) := by
    intro k a x j h
    unfold tryMapStep at h
    split at h
    · cases h; exact ⟨fun _ => rfl, id⟩
    · split at h
      · cases h
      · cases h; exact ⟨fun h => (h _ _ rfl).elim, fun _ => Nat.le_refl _⟩
    · split at h
      · cases h
      · split at h
        · cases h; exact ⟨fun _ => rfl, id⟩
        · cases h; exact ⟨fun _ => rfl, id⟩
  obtain ⟨⟨y, k⟩, h1, h2⟩ := Out.bind_eq_ok.1 h
  refine ⟨y, k, h1, ?_⟩
  cases y with
  | success a => exact ⟨fun hd => ⟨.success, (hstep _ _ h2).1 hd⟩, (hstep _ _ h2).2⟩
  | recovered a es =>
    obtain ⟨⟨z, l⟩, h3, h4⟩ := Out.bind_eq_ok.1 h2
    cases h4
    refine ⟨fun hd => ⟨.recovered, (hstep _ _ h3).1 fun y es hz => ?_⟩, (hstep _ _ h3).2⟩
    subst hz; exact hd _ _ rfl
  | failed z es => cases h2; exact ⟨fun hd => (hd _ _ rfl).elim, id⟩

theorem Lin.tryMap (h : Lin e L p q A s) {f : α → S.Span → TryMapResult β E} (hr : PRef e (pTryMap f p) (qTryMap e f q)) :
    Lin e L (pTryMap f p) (qTryMap e f q) A (s + 4) where
  ref := hr
  le en i x j hq := by
    obtain ⟨y, k, h1, -, h2⟩ := qTryMap_ok hq
    exact h2 (h.le _ _ _ _ h1)
  any i c hw hp := by
    have h1 := h.any i c hw hp
    have h2 := tryMap_cost (f := f) (h.any i).cost c hw hp
    unfold AtMost at h2
    omega
  ok i x j hq hd c hw hp := by
    obtain ⟨y, k, h1, h3, -⟩ := qTryMap_ok hq
    obtain ⟨h4, rfl⟩ := h3 hd
    have h5 := h.ok _ _ _ h1 h4 c hw hp
    have h2 := tryMap_cost (f := f) (h.ok _ _ _ h1 h4).cost c hw hp
    unfold AtMost at h2
    omega

theorem alternate_fits_done {ε : ErrTy S} {ps : List (Parser S ε.E α)} {en : Bool} {x y : Nat}
    (h : Fits e (altFirst ps []) i x y)
    (hd : ∀ c fs c', c.WF e → c.pos = i → (altFirst ps []).run (Cursor.step e) c ≠ .ok (.inr fs, c')) :
    Fits e (alternate ε ps en) i x y := fun c hw hp => by
  have h1 := alternate_cost_done (en := en) h.cost hd c hw hp
  have h2 := h c hw hp
  unfold AtMost at h1
  omega

theorem alternate_fits_off {ε : ErrTy S} {ps : List (Parser S ε.E α)} {x y : Nat}
    (h : Fits e (altFirst ps []) i x y) : Fits e (alternate ε ps false) i x y := fun c hw hp => by
  have h1 := alternate_cost_off h.cost c hw hp
  have h2 := h c hw hp
  unfold AtMost at h1
  omega

theorem Fits.ret {a : α} : Fits e (.ret a) i 0 0 := Cost.fits (K := 0) (Up.cost .ret) (Nat.le_refl _)
theorem Fits.panic {m : String} : Fits e (.panic m : Prog S α) i 0 0 := Cost.fits (K := 0) (Up.cost .panic) (Nat.le_refl _)

/-- `or_not` of a parser that fails early. -/
theorem Lin.orNot {ε : ErrTy S} {p : Parser S ε.E α} {q : PSem ε.E α} {U : Nat} (h : Lin e L p q A s)
    (hf : ∀ i z es j, q false i = .ok (.failed z es, j) → Cost e (p false) i U)
    (hr : PRef e (pOrNot ε p) (qAlternate ε [qMap Option.some q, qNone])) (hrs : PRef e (pSome p) (qMap Option.some q)) :
    Lin e L (pOrNot ε p) (qAlternate ε [qMap Option.some q, qNone]) A (s + U) := by
  have hcost : ∀ en i x y, ((∀ r j, q false i ≠ .ok (r, j)) → Fits e (p false) i x y) →
      (∀ r j, q false i = .ok (r, j) → Fits e (p false) i x y) → Fits e (pOrNot ε p en) i x y := by
    intro en i x y h0 h1
    refine alternate_fits_done (Fits.bind hrs (fun hn => post_fits (h0 fun r j hq => ?_)) fun r j hq hv => ?_) ?_
    · refine hn (r.map Option.some) j ?_
      show Out.bind _ _ = _
      rw [hq]; rfl
    · obtain ⟨y', h2, rfl⟩ := qMap_ok hq
      refine ⟨x, y, 0, 0, post_fits (h1 _ _ h2), ?_, by omega⟩
      cases y' with
      | success a => exact .ret
      | recovered a es => exact .panic
      | failed z es => exact .ret
    · intro c fs c' hw hp hrun
      obtain ⟨⟨r, c2⟩, h2, h3⟩ := Out.bind_eq_ok.1 ((Prog.run_bind _ _ _ _).symm.trans hrun)
      cases r with
      | success b => cases h3
      | recovered b es => cases h3
      | failed i es => cases h3
  have hj : ∀ en i x j, qAlternate ε [qMap Option.some q, qNone] en i = .ok (x, j) → ∃ y, q false i = .ok (y, j) := by
    intro en i x j hq
    obtain ⟨⟨y, k⟩, h1, h2⟩ := Out.bind_eq_ok.1 hq
    obtain ⟨⟨z, l⟩, h3, h4⟩ := Out.bind_eq_ok.1 h1
    obtain ⟨w, h5, rfl⟩ := qMap_ok h3
    cases w with
    | success a => cases h4; cases h2; exact ⟨_, h5⟩
    | recovered a es => cases h4
    | failed a es => cases h4; cases h2; exact ⟨_, h5⟩
  refine ⟨hr, fun en i x j hq => ?_, fun i => ?_, fun i x j hq hd => ?_⟩
  · obtain ⟨y, h1⟩ := hj _ _ _ _ hq
    exact h.le _ _ _ _ h1
  · exact hcost false i _ _ (fun _ => (h.any _).le (by omega)) fun _ _ _ => (h.any _).le (by omega)
  · obtain ⟨y, h1⟩ := hj _ _ _ _ hq
    refine hcost false i _ _ (fun hn => (hn _ _ h1).elim) fun r j' h2 => ?_
    rw [h1] at h2; cases h2
    by_cases hy : y.Done
    · exact (h.ok _ _ _ h1 hy).le (by omega)
    · cases y with
      | success a => exact (hy .success).elim
      | recovered a es => exact (hy .recovered).elim
      | failed z es =>
        refine (hf _ _ _ _ h1).fits ?_
        have := mul_mono (A := A) (h.le _ _ _ _ h1)
        omega

theorem altCombineSem_ok {ε : ErrTy S} {fs : List (Nat × List ε.E)} {i j : Nat} {x : Res α ε.E}
    (h : altCombineSem ε fs i = .ok (x, j)) : ¬ x.Done ∧ j = i := by
  have h2 : ∀ rest : List (Nat × List ε.E), (match rest with
      | (x, es) :: _ => .ok (.failed x es, i)
      | [] => .panic "called `Option::unwrap()` on a `None` value" : Out (Res α ε.E × Nat)) = .ok (x, j) →
      ¬ x.Done ∧ j = i := by
    intro rest h
    split at h
    · cases h; exact ⟨fun h => h _ _ rfl, rfl⟩
    · cases h
  unfold altCombineSem at h
  dsimp only at h
  split at h
  · cases h
  · split at h
    · split at h
      · cases h; exact ⟨fun h => h _ _ rfl, rfl⟩
      · exact h2 _ h
    · exact h2 _ h

theorem qAlternate_off {ε : ErrTy S} {qs : List (PSem ε.E α)} {i j : Nat} {x : Res α ε.E}
    (h : qAlternate ε qs false i = .ok (x, j)) :
    (x.Done ∧ ∃ o, altFirstSem qs [] i = .ok (.inl o, j)) ∨ (¬ x.Done ∧ ∃ fs, altFirstSem qs [] i = .ok (.inr fs, j)) := by
  obtain ⟨⟨y, l⟩, h1, h2⟩ := Out.bind_eq_ok.1 h
  cases y with
  | inl o => cases h2; exact .inl ⟨.success, _, h1⟩
  | inr fs =>
    replace h2 : (if fs.isEmpty then _ else _) = _ := h2
    split at h2
    · cases h2
    · obtain ⟨h3, rfl⟩ := altCombineSem_ok h2
      exact .inr ⟨h3, _, h1⟩

/-- `or` of a parser that makes at most `K` calls, and another one. -/
theorem Lin.or {ε : ErrTy S} {p p' : Parser S ε.E α} {q q' : PSem ε.E α} (hL : Length e L) (hp : PRef e p q)
    (hle : ∀ en i x j, q en i = .ok (x, j) → i ≤ j) (hup : Up e (p false) K) (h' : Lin e L p' q' A s)
    (hr : PRef e (pOr ε p p') (qAlternate ε [q, q'])) (hle' : ∀ en i x j, qAlternate ε [q, q'] en i = .ok (x, j) → i ≤ j) :
    Lin e L (pOr ε p p') (qAlternate ε [q, q']) A (K + s) := by
  have hlast : ∀ i fs x y, Fits e (p' false) i x y → Fits e (altFirst [p'] fs) i x y := by
    intro i fs x y h
    refine Fits.bind h'.ref (fun _ => h) fun r j hq hv => ⟨x, y, 0, 0, h, ?_, by omega⟩
    cases r with
    | success a => exact .ret
    | recovered a es => exact .panic
    | failed z es => exact .ret
  have hcost : ∀ i x y, K + x ≤ y → (∀ z es j, q false i = .ok (.failed z es, j) → Fits e (p' false) j (K + x) y) →
      Fits e (pOr ε p p' false) i x y := by
    intro i x y hK h
    refine alternate_fits_off (Fits.bind hp (fun _ => hup.cost.fits hK) fun r j hq hv => ?_)
    cases r with
    | success a => exact ⟨0, K, 0, 0, hup.cost.fits (Nat.le_refl _), .ret, by omega⟩
    | recovered a es => exact ⟨0, K, 0, 0, hup.cost.fits (Nat.le_refl _), .panic, by omega⟩
    | failed z es => exact ⟨0, K, K + x, y, hup.cost.fits (Nat.le_refl _), hlast _ _ _ _ (h _ _ _ hq), by omega⟩
  refine ⟨hr, hle', fun i => Fits.of_valid fun hv => ?_, fun i x j hq hd => ?_⟩
  · have := mul_mono (A := A) (hL.le.1 hv)
    refine hcost i _ _ (by omega) fun z es j hj => (h'.any j).le ?_
    have := mul_mono (A := A) (hle _ _ _ _ hj)
    omega
  · have := mul_mono (A := A) (hle' _ _ _ _ hq)
    refine hcost i _ _ (by omega) fun z es k hk => ?_
    have := mul_mono (A := A) (hle _ _ _ _ hk)
    rcases qAlternate_off hq with ⟨-, o, h1⟩ | ⟨h1, -⟩
    · simp only [altFirstSem, hk, Out.ok_bind] at h1
      obtain ⟨⟨w, l'⟩, h3, h4⟩ := Out.bind_eq_ok.1 h1
      cases w with
      | success a => cases h4; exact (h'.ok _ _ _ h3 .success).le (by omega)
      | recovered a es => cases h4
      | failed a es => cases h4
    · exact (h1 hd).elim

theorem altFirstSem_stays : ∀ (qs : List (PSem E α)) (fs : List (FailSem E α)) (i : Nat),
    (∀ q ∈ qs, ∀ z es j, q false i = .ok (.failed z es, j) → j = i) →
    ∀ fs' j, altFirstSem qs fs i = .ok (.inr fs', j) → j = i
  | [], fs, i, _, fs', j, h => by cases h; rfl
  | q :: qs, fs, i, hq, fs', j, h => by
    obtain ⟨⟨y, k⟩, h1, h2⟩ := Out.bind_eq_ok.1 h
    cases y with
    | success o => cases h2
    | recovered o es => cases h2
    | failed z es =>
      obtain rfl := hq q (.head _) _ _ _ h1
      exact altFirstSem_stays qs _ k (fun q hm => hq q (.tail _ hm)) _ _ h2

theorem qAlternate_stays {ε : ErrTy S} {qs : List (PSem ε.E α)} {i : Nat}
    (hq : ∀ q ∈ qs, ∀ z es j, q false i = .ok (.failed z es, j) → j = i) :
    ∀ z es j, qAlternate ε qs false i = .ok (.failed z es, j) → j = i := by
  intro z es j h
  rcases qAlternate_off h with ⟨h1, -⟩ | ⟨-, fs, h1⟩
  · exact (h1 _ _ rfl).elim
  · exact altFirstSem_stays qs _ i hq _ _ h1

/-- The repetition of a parser that makes at most `K` calls and consumes something. -/
theorem Lin.repeated {n m : Nat} (hL : Length e L) (hr : PRef e p q) (hup : UpP e p K)
    (hlt : ∀ en i x j, q en i = .ok (x, j) → x.Done → i < j) (hst : ∀ i z es j, q false i = .ok (.failed z es, j) → j = i)
    (hrr : PRef e (pRepeated n (atLeastCfg m) p) (qRepeat n (atLeastCfg m) q (none : Option (PSem E α))))
    (hle : ∀ en i x j, qRepeat n (atLeastCfg m) q (none : Option (PSem E α)) en i = .ok (x, j) → i ≤ j) :
    Lin e L (pRepeated n (atLeastCfg m) p) (qRepeat n (atLeastCfg m) q (none : Option (PSem E α))) (K + 2) (K + 5) := by
  have h := fun m0 start => repeatLoop_fits (m := m) (A := K + 2) (t := 2) (f := K) (W := K) (Ks := 0) (P := fun _ => True)
    (F := fun b => b = false) hL hr (sep := (none : Option (Parser S E α))) (qs := none) (fun _ h => by cases h) (fun _ => rfl)
    (fun b _ i x j hq hd => (hup b).cost.fits (by
      have := mul_mono (A := K + 2) (hlt _ _ _ _ hq hd)
      rw [Nat.mul_succ] at this; omega))
    (fun b _ i => Fits.of_valid fun hv => (hup b).cost.fits (by have := mul_mono (A := K + 2) (hL.le.1 hv); omega))
    (fun b hb i x es j hq => hst _ _ _ _ (hb ▸ hq)) (fun b _ i x es j hq _ => (hup b).cost) (Nat.le_refl _) (en := false)
    (fun _ => rfl) (m0 := m0) (start := start) n [] none
  refine ⟨hrr, hle, fun i => Fits.withSave fun m0 => ((h m0 i i).1).le (by omega), fun i x j hq hd => ?_⟩
  refine Fits.withSave fun m0 => ?_
  obtain ⟨k, -, h1⟩ := (h m0 i i).2 x j hq hd
  exact (h1 trivial).le (by omega)

/-- If `at_least(1)` fails, then it has made no more calls than its first item. -/
theorem repeated_failed {n : Nat} (hr : PRef e p q) {i j z : Nat} {es : List E}
    (hq : qRepeat n (atLeastCfg 1) q (none : Option (PSem E α)) false i = .ok (.failed z es, j)) (hup : Up e (p false) K) :
    Cost e (pRepeated n (atLeastCfg 1) p false) i (K + 4) := by
  cases n with
  | zero => cases hq
  | succ n =>
    refine Cost.withSave (K := K + 2) fun m0 => ?_
    unfold qRepeat repLoopSem at hq
    rw [if_neg (by simp [RepCfg.atMax])] at hq
    replace hq : repItemSem _ _ _ _ _ _ _ _ _ = _ := hq
    unfold repItemSem at hq
    rw [if_neg (by simp)] at hq
    obtain ⟨⟨y, k⟩, h1, h2⟩ := Out.bind_eq_ok.1 hq
    unfold repeatLoop
    rw [if_neg (by simp [RepCfg.atMax])]
    show Cost e (repeatItem _ _ _ _ _ _ _ _) i (K + 2)
    unfold repeatItem
    simp only [if_neg (show ¬ ((atLeastCfg 1).allowTrailing && (atLeastCfg 1).atMax ([] : List α).length) = true by simp)]
    refine Cost.pbind hr hup.cost fun y' k' hq' => ?_
    replace h1 : q false i = _ := h1
    replace hq' : q false i = _ := hq'
    rw [h1] at hq'; cases hq'
    cases y with
    | success o => exact (repLoop_done n _ _ _ (by simp) h2 _ _ rfl).elim
    | recovered o es => exact (repLoop_done n _ _ _ (by simp) h2 _ _ rfl).elim
    | failed z es =>
      refine Up.cost ?_
      show Up e (if 1 ≤ 0 then _ else _) 2
      rw [if_neg (by omega)]
      exact Up.op (K := 1) (fun _ => dropOpt_up.bind' (K' := 0) (fun _ => .ret) (by omega))

/-! ## Choices of which at most one alternative goes further than the first token -/

/-- The alternatives fail at `i` where they start, with at most `R` calls. -/
inductive Rejs (e : Env S) (i : Nat) {E α : Type} : List (Parser S E α) → List (PSem E α) → Nat → Prop
  | nil : Rejs e i [] [] 0
  | cons {p : Parser S E α} {q : PSem E α} {ps : List (Parser S E α)} {qs : List (PSem E α)} {K R : Nat} : PRef e p q →
      Cost e (p false) i K → (∀ x j, q false i = .ok (x, j) → ¬ x.Done ∧ j = i) → Rejs e i ps qs R →
      Rejs e i (p :: ps) (q :: qs) (K + R)

theorem Rejs.cost {ps : List (Parser S E α)} {qs : List (PSem E α)} {R : Nat} (h : Rejs e i ps qs R) :
    ∀ fs, Cost e (altFirst ps fs) i R := by
  induction h with
  | nil => exact fun fs => Up.cost .ret
  | cons hr hk hq _ ih =>
    refine fun fs => altFirst_cost hr hk fun z es j h => ?_
    obtain ⟨-, rfl⟩ := hq _ _ h
    exact ih

theorem Rejs.sem {ps : List (Parser S E α)} {qs : List (PSem E α)} {R : Nat} (h : Rejs e i ps qs R) :
    ∀ fs o j, altFirstSem qs fs i ≠ .ok (.inl o, j) := by
  induction h with
  | nil => intro fs o j h; cases h
  | cons hr hk hq _ ih =>
    intro fs o j h
    obtain ⟨⟨y, k⟩, h1, h2⟩ := Out.bind_eq_ok.1 h
    obtain ⟨h3, rfl⟩ := hq _ _ h1
    cases y with
    | success o => exact h3 .success
    | recovered o es => exact h3 .recovered
    | failed z es => exact ih _ _ _ h2

theorem Rejs.one {ps : List (Parser S E α)} {qs : List (PSem E α)} {R R' : Nat} (h : Rejs e i ps qs R) (hr : PRef e p q)
    {ps' : List (Parser S E α)} {qs' : List (PSem E α)} (h' : Rejs e i ps' qs' R')
    (hst : ∀ z es j, q false i = .ok (.failed z es, j) → ps' = [] ∨ j = i) :
    (∀ x y fs, Fits e (p false) i x y → Fits e (altFirst (ps ++ p :: ps') fs) i x (y + R + R')) ∧
      ∀ fs o j, altFirstSem (qs ++ q :: qs') fs i = .ok (.inl o, j) → q false i = .ok (.success o, j) := by
  induction h with
  | nil =>
    refine ⟨fun x y fs hf => Fits.bind hr (fun _ => hf.le (by omega)) fun r j hq hv => ?_, fun fs o j h => ?_⟩
    · cases r with
      | success a => exact ⟨_, _, 0, 0, hf, .ret, by omega⟩
      | recovered a es => exact ⟨_, _, 0, 0, hf, .panic, by omega⟩
      | failed z es =>
        refine ⟨_, _, 0, R', hf, ?_, by omega⟩
        rcases hst _ _ _ hq with h1 | rfl
        · subst h1
          exact Cost.fits (K := 0) (Up.cost .ret) (by omega)
        · exact (h'.cost _).fits (Nat.le_refl _)
    · obtain ⟨⟨y, k⟩, h1, h2⟩ := Out.bind_eq_ok.1 h
      cases y with
      | success o => cases h2; exact h1
      | recovered o es => cases h2
      | failed z es =>
        rcases hst _ _ _ h1 with h3 | rfl
        · subst h3; cases h'; cases h2
        · exact (h'.sem _ _ _ h2).elim
  | @cons p0 q0 ps0 qs0 K R0 hr0 hk hq _ ih =>
    refine ⟨fun x y fs hf => ?_, fun fs o j h => ?_⟩
    · refine Fits.of_valid fun hv => Fits.bind hr0 (fun _ => ?_) fun r j hq0 _ => ?_
      · refine hk.fits ?_
        have := hf (Cursor.atPos i) (Cursor.atPos_wf hv) rfl
        omega
      · obtain ⟨h3, rfl⟩ := hq _ _ hq0
        cases r with
        | success a => exact (h3 .success).elim
        | recovered a es => exact (h3 .recovered).elim
        | failed z es => exact ⟨0, K, _, _, hk.fits (Nat.le_refl _), ih.1 _ _ _ hf, by omega⟩
    · obtain ⟨⟨y, k⟩, h1, h2⟩ := Out.bind_eq_ok.1 h
      obtain ⟨h3, rfl⟩ := hq _ _ h1
      cases y with
      | success a => exact (h3 .success).elim
      | recovered a es => exact (h3 .recovered).elim
      | failed z es => exact ih.2 _ _ _ h2

end

end PPC
