import Verif.SemCost6

/-!
# The number of calls of the JSON parser: lists in brackets
-/

namespace PPC.Json

open PPC

variable {F : Type} {e : Env charSig} {L n : Nat} {ρ : REnv charSig (names F)} {σ : QEnv charSig (names F)}

section

variable {α β : Type}

/-- The items of a list: they are paid for by the distance that they move, with `t` calls left over, and do not cost
much where the list is closed. -/
structure Item (e : Env charSig) (L : Nat) (ρ : REnv charSig (names F)) (σ : QEnv charSig (names F)) (n : Nat) (g : P F α)
    (A f t W : Nat) (c : Char) : Prop where
  any : ∀ i, Fits e (g.denote ρ n false) i (A * i) (A * L + f)
  ok : ∀ i x j, g.den e σ n false i = .ok (x, j) → x.Done → Fits e (g.denote ρ n false) i (A * i + t) (A * j)
  stay : ∀ i z es j, g.den e σ n false i = .ok (.failed z es, j) → j = i
  last : ∀ i, e.source i = some c → Cost e (g.denote ρ n false) i W

/-- A list, with commas. -/
def items (g : P F α) : P F (List α) := .separatedBy (atLeastCfg 0) g (.just ',')

/-- A list, or white space. -/
def itemsOr (g : P F α) : P F (List α) := .or (items g) (.to (whitespace F) [])

/-- A list in brackets. -/
def bracket (o c : Char) (g : P F α) : P F (List α) := .delimitedBy (.just o) (itemsOr g) (.just c)

variable {g : P F α} {A f t W : Nat} {o c : Char}

theorem items_done {en : Bool} {i j : Nat} {x : Res (List α) Unit} (h : (items g).den e σ n en i = .ok (x, j)) : x.Done :=
  repLoop_done (m := 0) n [] none i (Nat.zero_le _) h

theorem Item.items (h : Item e L ρ σ n g A f t W c) (hx : Ctx e L ρ σ) (ht : 8 ≤ t) (hc : c ≠ ',') (en : Bool) (i : Nat) :
    Fits e ((items g).denote ρ n en) i (A * i) (A * L + f + 11) ∧
      ∀ x j, (Json.items g).den e σ n en i = .ok (x, j) → e.source j = some c →
        Fits e ((Json.items g).denote ρ n en) i (A * i) (A * j + 11 + W) := by
  have hj : UpP e ((G.just ',' : P F Char).denote ρ n) 6 :=
    hx.up _ (by simp [G.All, directL, G.Direct]) (by simp [G.All, progressL, G.Progresses]) (by simp [G.cost])
  have hr := fun m0 => repeatLoop_fits (m := 0) (A := A) (t := t) (f := f) (W := W) (Ks := 6) (P := fun k => e.source k = some c)
    (F := fun b => b = false) hx.len (hx.g n g) (sep := some ((G.just ',' : P F Char).denote ρ n))
    (qs := some ((G.just ',' : P F Char).den e σ n))
    (fun s hs => by cases hs; exact ⟨_, rfl, hx.g n (.just ','), hj, fun b i x j hq => hx.le _ _ _ _ _ hq⟩)
    (fun hs => by cases hs) (fun b hb => hb ▸ h.ok) (fun b hb => hb ▸ h.any) (fun b hb => hb ▸ h.stay)
    (fun b hb i x es j _ hp => hb ▸ h.last i hp) (by omega) (en := en) (fun l => by simp) (m0 := m0) (start := i) n [] none i
  refine ⟨Fits.withSave fun m0 => (hr m0).1.le (by omega), fun x j hq hs => Fits.withSave fun m0 => ?_⟩
  obtain ⟨k, h1, h2⟩ := (hr m0).2 x j hq (items_done hq)
  refine (h2 ?_).le (by omega)
  rcases h1 with rfl | ⟨s, b, y, h3, h4, h5⟩
  · exact hs
  · cases h3
    rcases just_ok h4 with ⟨-, h6, -⟩ | ⟨h6, -⟩
    · rw [hs] at h6; cases h6; exact (hc rfl).elim
    · exact (h6 h5).elim

/-- The second alternative is never tried. -/
theorem itemsOr_ok {en : Bool} {i j : Nat} {x : Res (List α) Unit} (h : (itemsOr g).den e σ n en i = .ok (x, j)) :
    x.Done ∧ ∃ y, (items g).den e σ n false i = .ok (y, j) := by
  obtain ⟨⟨y, k⟩, h1, h2⟩ := Out.bind_eq_ok.1 h
  obtain ⟨⟨z, l⟩, h3, h4⟩ := Out.bind_eq_ok.1 h1
  cases z with
  | success a => cases h4; cases h2; exact ⟨.success, _, h3⟩
  | recovered a es => cases h4
  | failed a es => exact (items_done h3 _ _ rfl).elim

theorem Item.itemsOr (h : Item e L ρ σ n g A f t W c) (hx : Ctx e L ρ σ) (ht : 8 ≤ t) (hc : c ≠ ',') (en : Bool) (i : Nat) :
    Fits e ((itemsOr g).denote ρ n en) i (A * i) (A * L + f + 11) ∧
      ∀ x j, (Json.itemsOr g).den e σ n en i = .ok (x, j) → e.source j = some c →
        Fits e ((Json.itemsOr g).denote ρ n en) i (A * i) (A * j + 11 + W) := by
  have hf : ∀ x y, Fits e ((Json.items g).denote ρ n false) i x y → Fits e ((Json.itemsOr g).denote ρ n en) i x y := by
    intro x y hxy
    refine alternate_fits_done (Fits.bind (hx.g n (Json.items g)) (fun _ => hxy) fun r j hq hv => ?_) ?_
    · refine ⟨x, y, 0, 0, hxy, ?_, by omega⟩
      cases r with
      | success a => exact .ret
      | recovered a es => exact .panic
      | failed z es => exact (items_done hq _ _ rfl).elim
    · intro c fs c' hw hp hrun
      obtain ⟨⟨r, c2⟩, h2, h3⟩ := Out.bind_eq_ok.1 ((Prog.run_bind _ _ _ _).symm.trans hrun)
      cases r with
      | success b => cases h3
      | recovered b es => cases h3
      | failed z es =>
        have := PRef.sem_of (hx.g n (Json.items g)) hw h2
        exact (items_done this _ _ rfl).elim
  refine ⟨hf _ _ (h.items hx ht hc false i).1, fun x j hq hs => ?_⟩
  obtain ⟨-, y, h1⟩ := itemsOr_ok hq
  exact hf _ _ ((h.items hx ht hc false i).2 _ _ h1 hs)

theorem Item.bracket (h : Item e L ρ σ n g A f t W c) (hx : Ctx e L ρ σ) (ht : 8 ≤ t) (hc : c ≠ ',') (hA : f + 26 ≤ A)
    (en : Bool) (i : Nat) :
    Fits e ((bracket o c g).denote ρ n en) i (A * i) (A * L + 9) ∧
      ∀ x j, (Json.bracket o c g).den e σ n en i = .ok (x, j) → x.Done →
        Fits e ((Json.bracket o c g).denote ρ n en) i (A * i + 2 * A) (A * j + 26 + W) := by
  have hj : ∀ (c : Char), UpP e ((G.just c : P F Char).denote ρ n) 6 := fun c =>
    hx.up _ (by simp [G.All, directL, G.Direct]) (by simp [G.All, progressL, G.Progresses]) (by simp [G.cost])
  have h1 : ∀ r j, (G.just o : P F Char).den e σ n en i = .ok (r, j) → r.Done → A * j = A * i + A := by
    intro r j hq hd
    rcases just_ok hq with ⟨-, -, rfl⟩ | ⟨h6, -⟩
    · exact Nat.mul_succ A i
    · exact (h6 hd).elim
  refine ⟨?_, fun x j hq hd => ?_⟩
  · refine concat3_fits (f := fun x : Char × List α × Char => x.2.1) (hx.g n (.just o)) (hx.g n (Json.itemsOr g)) (fun _ => ?_) (fun r j hq hd _ => ?_)
      fun r j r' k hq hd hq' hd' => ?_
    · exact Fits.of_valid fun hv => (hj o en).cost.fits (by have := mul_mono (A := A) (hx.len.le.1 hv); omega)
    · have := h1 _ _ hq hd
      exact ⟨_, _, _, _, (hj o en).cost.fits (x := 0) (Nat.le_refl _), (h.itemsOr hx ht hc en j).1, by omega⟩
    · have := h1 _ _ hq hd
      exact ⟨_, _, _, _, _, _, (hj o en).cost.fits (x := 0) (Nat.le_refl _), (h.itemsOr hx ht hc en j).1,
        (hj c en).cost.fits (x := 0) (Nat.le_refl _), by omega⟩
  · obtain ⟨a, k, b, l, c', h2, h3, h4, h5, h6, h7⟩ := qConcat3_done (f := fun x : Char × List α × Char => x.2.1) hq hd
    refine concat3_fits (f := fun x : Char × List α × Char => x.2.1) (hx.g n (.just o)) (hx.g n (Json.itemsOr g)) (fun hn => (hn _ _ h2 h3).elim)
      (fun r j' hq hd' hn => ?_) fun r j' r' k' hq hd' hq' hd'' => ?_
    · rw [h2] at hq; cases hq
      exact (hn _ _ h4 h5).elim
    · rw [h2] at hq; cases hq
      rw [h4] at hq'; cases hq'
      have := h1 _ _ h2 h3
      rcases just_ok h6 with ⟨-, h8, rfl⟩ | ⟨h8, -⟩
      · have h9 : A * (l + 1) = A * l + A := Nat.mul_succ A l
        exact ⟨_, _, _, _, _, _, (hj o en).cost.fits (x := 0) (Nat.le_refl _), (h.itemsOr hx ht hc en _).2 _ _ h4 h8,
          (hj c en).cost.fits (x := 0) (Nat.le_refl _), by omega⟩
      · exact (h8 h7).elim

/-! ## Parts that fail on the first token -/

/-- The parser fails at `i` where it starts, with at most `K` calls. -/
structure Rej (e : Env charSig) (i : Nat) (p : Parser charSig Unit α) (q : PSem Unit α) (K : Nat) : Prop where
  cost : Cost e (p false) i K
  sem : ∀ x j, q false i = .ok (x, j) → ¬ x.Done ∧ j = i

section

variable {i K K' : Nat} {γ δ : Type} {p : Parser charSig Unit α} {q : PSem Unit α} {p' : Parser charSig Unit β} {q' : PSem Unit β}
  {p'' : Parser charSig Unit γ} {q'' : PSem Unit γ}

theorem not_done {α : Type} {x : Nat} {es : List Unit} : ¬ (.failed x es : Res α Unit).Done := fun h => h _ _ rfl

theorem Rej.map (h : Rej e i p q K) {f : α → β} : Rej e i (fun en => (p en).bind fun r => .ret (r.map f)) (qMap f q) K where
  cost := post_cost h.cost
  sem x j hq := by
    obtain ⟨y, h1, rfl⟩ := qMap_ok hq
    obtain ⟨h2, rfl⟩ := h.sem _ _ h1
    exact ⟨fun h => h2 (Res.Done.map.1 h), rfl⟩

theorem Rej.concat2 (hr : PRef e p q) (h : Rej e i p q K) {f : α × β → γ} : Rej e i (concat2 f p p') (qConcat2 f q q') (K + 3) where
  cost := concat2_cost (K' := 0) hr h.cost fun x j hq hd => ((h.sem _ _ hq).1 hd).elim
  sem x j hq := by
    obtain ⟨⟨y, k⟩, h1, h2⟩ := Out.bind_eq_ok.1 hq
    obtain ⟨h3, rfl⟩ := h.sem _ _ h1
    cases y with
    | success o => exact (h3 .success).elim
    | recovered o es => exact (h3 .recovered).elim
    | failed z es => cases h2; exact ⟨not_done, rfl⟩

theorem Rej.concat3 (hr : PRef e p q) (hr' : PRef e p' q') (h : Rej e i p q K) {f : α × β × γ → δ} :
    Rej e i (concat3 f p p' p'') (qConcat3 f q q' q'') (K + 3) where
  cost := concat3_cost (K' := 0) (K'' := 0) hr hr' h.cost (fun x j hq hd => ((h.sem _ _ hq).1 hd).elim)
    fun x j y k hq hd _ _ => ((h.sem _ _ hq).1 hd).elim
  sem x j hq := by
    obtain ⟨⟨y, k⟩, h1, h2⟩ := Out.bind_eq_ok.1 hq
    obtain ⟨h3, rfl⟩ := h.sem _ _ h1
    cases y with
    | success o => exact (h3 .success).elim
    | recovered o es => exact (h3 .recovered).elim
    | failed z es => cases h2; exact ⟨not_done, rfl⟩

/-- The first part consumes nothing, and the second one fails. -/
theorem Rej.second (hr : PRef e p q) (hc : Cost e (p false) i K) (hs : ∀ x j, q false i = .ok (x, j) → j = i)
    (h : Rej e i p' q' K') {f : α × β → γ} : Rej e i (PPC.concat2 f p p') (qConcat2 f q q') (K + K' + 3) where
  cost := concat2_cost hr hc fun x j hq _ => hs _ _ hq ▸ h.cost
  sem x j hq := by
    obtain ⟨⟨y, k⟩, h1, h2⟩ := Out.bind_eq_ok.1 hq
    obtain rfl := hs _ _ h1
    have hl : ∀ {g : β → γ} {r}, concatLastSem false k g q' r k = .ok (x, j) → ¬ x.Done ∧ j = k := by
      intro g r h3
      obtain ⟨⟨y, l⟩, h4, h5⟩ := Out.bind_eq_ok.1 h3
      have h6 := h.sem _ _ h4
      cases y with
      | success o => exact (h6.1 .success).elim
      | recovered o es => exact (h6.1 .recovered).elim
      | failed z es => cases h5; exact ⟨not_done, rfl⟩
    cases y with
    | success o => exact hl h2
    | recovered o es => exact hl h2
    | failed z es => cases h2; exact ⟨not_done, rfl⟩

theorem Rej.alternate {ε : ErrTy charSig} {ps : List (Parser charSig ε.E α)} {qs : List (PSem ε.E α)} {R : Nat}
    (h : Rejs e i ps qs R) : Cost e (PPC.alternate ε ps false) i R ∧ ∀ x j, qAlternate ε qs false i = .ok (x, j) → ¬ x.Done ∧ j = i := by
  refine ⟨alternate_cost_off (h.cost []), fun x j hq => ?_⟩
  rcases qAlternate_off hq with ⟨-, o, h1⟩ | ⟨h1, fs, h2⟩
  · exact (h.sem _ _ _ h1).elim
  · refine ⟨h1, altFirstSem_stays qs [] i ?_ _ _ h2⟩
    clear h2 hq
    induction h with
    | nil => intro q hm; cases hm
    | cons _ _ h3 _ ih =>
      intro q hm
      rcases List.mem_cons.1 hm with rfl | hm
      · exact fun z es j h => (h3 _ _ h).2
      · exact ih q hm

theorem Rej.tryMap (h : Rej e i p q K) {f : α → charSig.Span → TryMapResult β Unit} :
    Rej e i (pTryMap f p) (qTryMap e f q) (K + 4) where
  cost := tryMap_cost h.cost
  sem x j hq := by
    obtain ⟨⟨y, k⟩, h1, h2⟩ := Out.bind_eq_ok.1 hq
    obtain ⟨h3, rfl⟩ := h.sem _ _ h1
    cases y with
    | success o => exact (h3 .success).elim
    | recovered o es => exact (h3 .recovered).elim
    | failed z es => cases h2; exact ⟨not_done, rfl⟩

/-- The parser fails at `i`. -/
abbrev RejG (e : Env charSig) (i : Nat) (ρ : REnv charSig (names F)) (σ : QEnv charSig (names F)) (n : Nat) (g : P F α) (K : Nat) :
    Prop := Rej e i (g.denote ρ n) (g.den e σ n) K

variable {c : Char}

theorem Ctx.rejJust (h : Ctx e L ρ σ) (hs : e.source i ≠ some c) : RejG e i ρ σ n (.just c) 6 where
  cost := (h.up _ (by simp [G.All, directL, G.Direct]) (by simp [G.All, progressL, G.Progresses]) (by simp [G.cost]) false).cost
  sem x j hq := by
    rcases just_ok hq with ⟨-, h1, -⟩ | ⟨h1, h2, -⟩
    · exact (hs h1).elim
    · exact ⟨h1, h2⟩

theorem Ctx.rejOneOf (h : Ctx e L ρ σ) {cs : List Char} (hs : e.source i = some c) (hc : c ∉ cs) : RejG e i ρ σ n (.oneOf cs) 6 where
  cost := (h.up _ (by simp [G.All, directL, G.Direct]) (by simp [G.All, progressL, G.Progresses]) (by simp [G.cost]) false).cost
  sem x j hq := by
    simp only [G.den, qOneOf, hs] at hq
    split at hq
    · rename_i h1
      exact (hc (by simpa using h1)).elim
    · cases hq; exact ⟨not_done, rfl⟩

theorem rejSeq {v : α} {cs : List Char} (hs : e.source i ≠ some c) {K : Nat} (hK : 2 * (cs.length + 1) + 4 ≤ K) :
    RejG e i ρ σ n (.seq v (c :: cs)) K where
  cost := pSeq_up.cost.le hK
  sem x j hq := by
    simp only [G.den, qSeq, matchSeq] at hq
    rw [if_neg] at hq
    · cases hq; exact ⟨not_done, rfl⟩
    · intro ht
      unfold isTok at ht
      split at ht
      · rename_i t ht'
        exact hs (ht'.trans (congrArg some (by simpa using ht)))
      · cases ht

theorem Ctx.rejString (h : Ctx e L ρ σ) (hs : e.source i ≠ some '"') : RejG e i ρ σ n (Json.string F) 9 :=
  Rej.map (Rej.map (Rej.concat3 (f := fun x : Char × List Char × Char => x.2.1) (h.g n (.just '"'))
    (h.g n (.repeated (atLeastCfg 0) (charP F))) (h.rejJust hs)))

theorem Ctx.rejKey (h : Ctx e L ρ σ) (hs : e.source i ≠ some '"') : RejG e i ρ σ n (Json.key F) 9 :=
  Rej.map (Rej.concat3 (f := fun x : Char × List Char × Char => x.2.1) (h.g n (.just '"'))
    (h.g n (.repeated (atLeastCfg 0) (charP F))) (h.rejJust hs))

theorem Ctx.rejBracket (h : Ctx e L ρ σ) {o : Char} (hs : e.source i ≠ some o) : RejG e i ρ σ n (Json.bracket o c g) 9 :=
  Rej.concat3 (f := fun x : Char × List α × Char => x.2.1) (h.g n (.just o)) (h.g n (Json.itemsOr g)) (h.rejJust hs)

theorem sign_stays {c : Char} (hs : e.source i = some c) (hc : c ≠ '-') {x : Res Bool Unit} {j : Nat}
    (hq : (Json.sign F).den e σ n false i = .ok (x, j)) : j = i := by
  obtain ⟨y, h1, -⟩ := qMap_ok hq
  obtain ⟨⟨z, l⟩, h2, h3⟩ := Out.bind_eq_ok.1 h1
  obtain ⟨⟨w, m⟩, h4, h5⟩ := Out.bind_eq_ok.1 h2
  obtain ⟨u, h6, rfl⟩ := qMap_ok h4
  rcases just_ok h6 with ⟨-, h7, -⟩ | ⟨h7, rfl, -⟩
  · rw [hs] at h7; cases h7; exact (hc rfl).elim
  · cases u with
    | success a => exact (h7 .success).elim
    | recovered a es => exact (h7 .recovered).elim
    | failed a es => cases h5; cases h3; rfl

theorem Ctx.rejInteger (h : Ctx e L ρ σ) (hs : e.source i = some c) (hc : c ∉ digits) : RejG e i ρ σ n (Json.integerNlz F) 15 := by
  have h0 : RejG e i ρ σ n (.to (.just '0') "0" : P F String) 6 := Rej.map (h.rejJust (by rw [hs]; rintro ⟨⟩; exact hc (by decide)))
  have h1 : RejG e i ρ σ n (.map (fun p => String.ofList (p.1 :: p.2)) (.then_ (Build.oneOf "123456789")
      (Build.oneOf "0123456789").repeatedWith.parser) : P F String) 9 :=
    Rej.map (Rej.concat2 (h.g n _) (h.rejOneOf hs (fun hm => hc (by exact List.mem_of_mem_tail hm))))
  have h2 := Rej.alternate (ε := voidErr charSig) (.cons (h.g n _) h0.cost h0.sem (.cons (h.g n _) h1.cost h1.sem .nil))
  exact ⟨h2.1, h2.2⟩

theorem Ctx.rejNumber (h : Ctx e L ρ σ) {parseF : String → Option F} (hs : e.source i = some c) (hc : c ∉ digits) (hc' : c ≠ '-') :
    RejG e i ρ σ n (Json.number parseF) 40 :=
  Rej.tryMap (Rej.concat2 (h.g n (.then_ (.then_ (Json.sign F) (Json.integerNlz F)) (.orNot (Json.fraction F))))
    (Rej.concat2 (h.g n (.then_ (Json.sign F) (Json.integerNlz F)))
      (Rej.second (h.g n (Json.sign F)) (K := 12) (h.up (Json.sign F) (by simp [Json.sign, G.All, directL, G.Direct])
        (by simp [Json.sign, G.All, progressL, G.Progresses]) (by simp [Json.sign, G.cost]) false).cost
        (fun _ _ => sign_stays hs hc') (h.rejInteger hs hc))))

end

end

end PPC.Json
