import Verif.SemCost7

/-!
# The number of calls of the JSON parser: values
-/

namespace PPC.Json

open PPC

variable {F : Type} {e : Env charSig} {L n : Nat} {ρ : REnv charSig (names F)} {σ : QEnv charSig (names F)} {i : Nat} {c : Char}

/-- The characters of white space. -/
abbrev blanks : List Char := [' ', '\n', '\r', '\t']

theorem Ctx.ws_stays (h : Ctx e L ρ σ) (hs : e.source i = some c) (hc : c ∉ blanks) {x : Res (List Char) Unit} {j : Nat}
    (hq : (whitespace F).den e σ n false i = .ok (x, j)) : j = i := by
  have hr : RejG e i ρ σ n (.oneOf blanks) 6 := h.rejOneOf hs hc
  replace hq : qRepeat n (atLeastCfg 0) ((G.oneOf blanks : P F Char).den e σ n) (none : Option (PSem Unit Char)) false i = .ok (x, j) := hq
  cases n with
  | zero => cases hq
  | succ n =>
    unfold qRepeat repLoopSem at hq
    rw [if_neg (by simp [RepCfg.atMax])] at hq
    replace hq : repItemSem _ _ _ _ _ _ _ _ _ = _ := hq
    unfold repItemSem at hq
    rw [if_neg (by simp)] at hq
    obtain ⟨⟨y, k⟩, h1, h2⟩ := Out.bind_eq_ok.1 hq
    obtain ⟨h3, rfl⟩ := hr.sem _ _ h1
    cases y with
    | success o => exact (h3 .success).elim
    | recovered o es => exact (h3 .recovered).elim
    | failed z es =>
      replace h2 : (if _ then _ else _) = _ := h2
      rw [if_pos (Nat.zero_le _)] at h2
      cases h2; rfl

theorem Ctx.ws_cost (h : Ctx e L ρ σ) (hs : e.source i = some c) (hc : c ∉ blanks) :
    Cost e ((whitespace F).denote ρ n false) i 11 := by
  have hr : RejG e i ρ σ n (.oneOf blanks) 6 := h.rejOneOf hs hc
  show Cost e (pRepeated n (atLeastCfg 0) ((G.oneOf blanks : P F Char).denote ρ n) false) i 11
  cases n with
  | zero => exact Cost.withSave (K := 9) fun m0 => Up.cost .oof
  | succ n =>
    refine Cost.withSave (K := 9) fun m0 => ?_
    unfold repeatLoop
    rw [if_neg (by simp [RepCfg.atMax])]
    show Cost e (repeatItem _ _ _ _ _ _ _ _) i 9
    unfold repeatItem
    simp only [if_neg (show ¬ ((atLeastCfg 0).allowTrailing && (atLeastCfg 0).atMax ([] : List Char).length) = true by simp)]
    refine Cost.pbind (K := 6) (K' := 3) (h.g (n + 1) (.oneOf blanks)) hr.cost fun y' k' hq' => ?_
    have h3 := hr.sem _ _ hq'
    cases y' with
    | success o => exact (h3.1 .success).elim
    | recovered o es => exact (h3.1 .recovered).elim
    | failed z es =>
      refine Up.cost ?_
      show Up e (if 0 ≤ 0 then _ else _) 3
      rw [if_pos (Nat.le_refl _)]
      exact .ret

/-! ## Members -/

theorem memberHead_stays (i z : Nat) (es : List Unit) (j : Nat)
    (h : (memberHead F).den e σ n false i = .ok (.failed z es, j)) : j = i :=
  qConcat2_stays (qConcat2_stays (qConcat2_stays fun _ _ _ h => (ws_done h _ _ rfl).elim)) z es j h

theorem Ctx.memberHead' (h : Ctx e L ρ σ) : LinG e L ρ σ n (Json.memberHead F) 2000 463 :=
  h.memberHead.mono h.len (by omega) (Nat.le_refl _)

theorem Item.member (h : Item e L ρ σ n (value (F := F)) 2000 540 1045 120 ']') (hx : Ctx e L ρ σ) :
    Item e L ρ σ n (keyValuePair (F := F)) 2000 1006 579 32 '}' where
  any i := concat2_fits (hx.g n (memberHead F)) (fun _ => (hx.memberHead'.any i).le (by omega))
    fun r j hq hd hv => ⟨_, _, _, _, hx.memberHead'.ok _ _ _ hq hd, h.any j, by omega⟩
  ok i x j hx' hd := by
    obtain ⟨a, k, b, h1, h2, h3, h4⟩ := qConcat2_done (f := id) hx' hd
    refine concat2_fits (hx.g n (memberHead F)) (fun hn => (hn _ _ h1 h2).elim) fun r j' hq hd hv => ?_
    replace h1 : (memberHead F).den e σ n false i = _ := h1
    rw [h1] at hq; cases hq
    exact ⟨_, _, _, _, hx.memberHead'.ok _ _ _ h1 h2, h.ok _ _ _ h3 h4, by omega⟩
  stay i := qConcat2_stays (memberHead_stays i)
  last i hs := by
    have hw := fun {x j} => hx.ws_stays (n := n) hs (by decide) (x := x) (j := j)
    have h1 : RejG e i ρ σ n (.ignoreThen (whitespace F) (key F)) 23 :=
      Rej.second (h := hx.rejKey (by rw [hs]; decide)) (hx.g n (whitespace F)) (hx.ws_cost hs (by decide)) fun _ _ => hw
    have h2 : RejG e i ρ σ n (.thenIgnore (.ignoreThen (whitespace F) (key F)) (whitespace F)) 26 := Rej.concat2 (hx.g n _) h1
    have h3 : RejG e i ρ σ n (memberHead F) 29 := Rej.concat2 (hx.g n _) h2
    exact concat2_cost (K := 29) (K' := 0) (hx.g n (memberHead F)) h3.cost fun x j hq hd => ((h3.sem _ _ hq).1 hd).elim

/-! ## Choices -/

/-- One of the kinds of values: it is paid for by the distance that it moves. -/
structure Kind (e : Env charSig) (L i : Nat) {α : Type} (p : Parser charSig Unit α) (q : PSem Unit α) : Prop where
  ref : PRef e p q
  any : Fits e (p false) i (2000 * i) (2000 * L + 426)
  ok : ∀ x j, q false i = .ok (x, j) → x.Done → Fits e (p false) i (2000 * i + 1166) (2000 * j)

theorem Kind.alternate {α : Type} {ps ps' : List (Parser charSig Unit α)} {qs qs' : List (PSem Unit α)} {p : Parser charSig Unit α}
    {q : PSem Unit α} {R R' : Nat} (h : Kind e L i p q) (hp : Rejs e i ps qs R) (hp' : Rejs e i ps' qs' R')
    (hst : ∀ z es j, q false i = .ok (.failed z es, j) → ps' = [] ∨ j = i) (hR : R + R' ≤ 96) :
    Fits e (alternate (voidErr charSig) (ps ++ p :: ps') false) i (2000 * i) (2000 * L + 522) ∧
      ∀ x j, qAlternate (voidErr charSig) (qs ++ q :: qs') false i = .ok (x, j) → x.Done →
        Fits e (PPC.alternate (voidErr charSig) (ps ++ p :: ps') false) i (2000 * i + 1070) (2000 * j) := by
  have h1 := Rejs.one hp h.ref hp' hst
  refine ⟨alternate_fits_off ((h1.1 _ _ [] h.any).le (by omega)), fun x j hq hd => alternate_fits_off ?_⟩
  rcases qAlternate_off hq with ⟨-, o, h2⟩ | ⟨h2, -⟩
  · exact (h1.1 _ _ [] (h.ok _ _ (h1.2 _ _ _ h2) .success)).le (by omega)
  · exact (h2 hd).elim

/-- A parser that costs little. -/
theorem Kind.lin {α : Type} {g : P F α} {A s : Nat} (hx : Ctx e L ρ σ) (h : LinG e L ρ σ n g A s) (hA : A ≤ 408) (hs : s ≤ 426)
    (hm : ∀ en, g.mayEmpty (fun _ _ => false) en = false) : Kind e L i (g.denote ρ n) (g.den e σ n) where
  ref := hx.g n g
  any := ((h.mono hx.len (by omega) hs).any i)
  ok x j hq hd := by
    have h1 := hx.lt g hm _ _ _ _ hq hd
    exact ((h.mono hx.len hA hs).ok _ _ _ hq hd).le (by omega)

theorem Kind.bracket {α β : Type} {g : P F α} {o c : Char} {f : List α → β} {F' t W : Nat}
    (h : Item e L ρ σ n g 2000 F' t W c) (hx : Ctx e L ρ σ) (ht : 8 ≤ t) (hc : c ≠ ',') (hA : F' ≤ 1974) (hW : W ≤ 120) :
    Kind e L i ((G.map f (Json.bracket o c g)).denote ρ n) ((G.map f (Json.bracket o c g)).den e σ n) where
  ref := hx.g n _
  any := post_fits ((h.bracket hx ht hc (by omega) false i).1.le (by omega))
  ok x j hq hd := by
    obtain ⟨y, h1, rfl⟩ := qMap_ok hq
    exact post_fits (((h.bracket hx ht hc (by omega) false i).2 _ _ h1 (Res.Done.map.1 hd)).le (by omega))

variable {parseF : String → Option F}

theorem Ctx.constant (hx : Ctx e L ρ σ) {α β : Type} {v : α} {w : β} {cs : List Char} (h1 : 1 ≤ cs.length) (h2 : cs.length ≤ 100) :
    Kind e L i ((G.to (.seq v cs) w : P F β).denote ρ n) ((G.to (.seq v cs) w : P F β).den e σ n) :=
  Kind.lin (A := 0) (s := 426) hx (h := hx.to (Lin.of_up hx.len (hx.g n (.seq v cs)) (hx.le (.seq v cs)) (pSeq_up.le (by omega))))
    (by omega) (Nat.le_refl _) (fun en => by cases cs <;> simp_all [G.mayEmpty])

theorem seq_stays {α : Type} {v : α} {cs : List Char} (i z : Nat) (es : List Unit) (j : Nat)
    (h : (G.seq v cs : P F α).den e σ n false i = .ok (.failed z es, j)) : j = i := by
  simp only [G.den, qSeq] at h
  split at h
  · cases h
  · cases h; rfl

theorem Ctx.cons (hx : Ctx e L ρ σ) {α : Type} {g : P F α} {K R : Nat} {ps : List (Parser charSig Unit α)}
    {qs : List (PSem Unit α)} (hr : RejG e i ρ σ n g K) (h : Rejs e i ps qs R) :
    Rejs e i (g.denote ρ n :: ps) (g.den e σ n :: qs) (K + R) := .cons (hx.g n g) hr.cost hr.sem h

theorem Ctx.rejObject (hx : Ctx e L ρ σ) (h : e.source i ≠ some '{') : RejG e i ρ σ n (object (F := F)) 9 :=
  Rej.map (hx.rejBracket h)

theorem Ctx.rejArray (hx : Ctx e L ρ σ) (h : e.source i ≠ some '[') : RejG e i ρ σ n (array (F := F)) 9 :=
  Rej.map (hx.rejBracket h)

theorem rejTrue (h : e.source i ≠ some 't') : RejG e i ρ σ n (boolTrue F) 12 := Rej.map (rejSeq h (by decide))
theorem rejFalse (h : e.source i ≠ some 'f') : RejG e i ρ σ n (boolFalse F) 14 := Rej.map (rejSeq h (by decide))
theorem rejNull (h : e.source i ≠ some 'n') : RejG e i ρ σ n (null F) 12 := Rej.map (rejSeq h (by decide))

/-- The alternatives. -/
theorem choice_denote : (choice parseF).denote ρ n = alternate (voidErr charSig) [object.denote ρ n, array.denote ρ n,
    (string F).denote ρ n, (boolTrue F).denote ρ n, (boolFalse F).denote ρ n, (null F).denote ρ n, (number parseF).denote ρ n] := rfl

theorem choice_den : (choice parseF).den e σ n = qAlternate (voidErr charSig) [object.den e σ n, array.den e σ n,
    (string F).den e σ n, (boolTrue F).den e σ n, (boolFalse F).den e σ n, (null F).den e σ n, (number parseF).den e σ n] := rfl

theorem string_mayEmpty (en : Bool) : (string F).mayEmpty (fun _ _ => false) en = false := by
  unfold string; rw [key_eq]; simp [G.mayEmpty]

theorem number_mayEmpty (en : Bool) : (number parseF).mayEmpty (fun _ _ => false) en = false := by
  unfold number; rw [integerNlz_eq]; simp [G.mayEmpty]

set_option maxHeartbeats 2000000 in
theorem Ctx.choice (hx : Ctx e L ρ σ) (h : Item e L ρ σ n (value (F := F)) 2000 540 1045 120 ']') :
    Fits e ((choice parseF).denote ρ n false) i (2000 * i) (2000 * L + 522) ∧
      ∀ x j, (Json.choice parseF).den e σ n false i = .ok (x, j) → x.Done →
        Fits e ((Json.choice parseF).denote ρ n false) i (2000 * i + 1070) (2000 * j) := by
  rw [choice_denote, choice_den]
  have hb : ∀ {α β : Type} {o c : Char} {g : P F α} {f : List α → β} z es j,
      (G.map f (Json.bracket o c g)).den e σ n false i = .ok (.failed z es, j) → j = i :=
    fun z es j h => qMap_stays (qConcat3_stays (just_stays false i)) z es j h
  by_cases h1 : e.source i = some '{'
  · have h2 : ∀ {c : Char}, '{' ≠ c → e.source i ≠ some c := fun hc => by rw [h1]; simpa using hc
    exact Kind.alternate (p := object.denote ρ n) (Kind.bracket (h.member hx) hx (by omega) (by decide) (by omega) (by omega)) .nil
      (hx.cons (hx.rejArray (h2 (by decide))) <| hx.cons (hx.rejString (h2 (by decide))) <| hx.cons (rejTrue (h2 (by decide))) <|
        hx.cons (rejFalse (h2 (by decide))) <| hx.cons (rejNull (h2 (by decide))) <|
        hx.cons (hx.rejNumber h1 (by decide) (by decide)) .nil) (fun z es j h => .inr (hb z es j h)) (by omega)
  by_cases h1 : e.source i = some '['
  · have h2 : ∀ {c : Char}, '[' ≠ c → e.source i ≠ some c := fun hc => by rw [h1]; simpa using hc
    exact Kind.alternate (p := array.denote ρ n) (Kind.bracket h hx (by omega) (by decide) (by omega) (by omega))
      (hx.cons (hx.rejObject (h2 (by decide))) .nil)
      (hx.cons (hx.rejString (h2 (by decide))) <| hx.cons (rejTrue (h2 (by decide))) <|
        hx.cons (rejFalse (h2 (by decide))) <| hx.cons (rejNull (h2 (by decide))) <|
        hx.cons (hx.rejNumber h1 (by decide) (by decide)) .nil) (fun z es j h => .inr (hb z es j h)) (by omega)
  by_cases h1 : e.source i = some '"'
  · have h2 : ∀ {c : Char}, '"' ≠ c → e.source i ≠ some c := fun hc => by rw [h1]; simpa using hc
    exact Kind.alternate (p := (Json.string F).denote ρ n) (Kind.lin hx hx.string (by omega) (by omega) string_mayEmpty)
      (hx.cons (hx.rejObject (h2 (by decide))) <| hx.cons (hx.rejArray (h2 (by decide))) .nil)
      (hx.cons (rejTrue (h2 (by decide))) <|
        hx.cons (rejFalse (h2 (by decide))) <| hx.cons (rejNull (h2 (by decide))) <|
        hx.cons (hx.rejNumber h1 (by decide) (by decide)) .nil)
      (fun z es j h => .inr (qMap_stays (qMap_stays (qConcat3_stays (just_stays false i))) z es j h)) (by omega)
  by_cases h1 : e.source i = some 't'
  · have h2 : ∀ {c : Char}, 't' ≠ c → e.source i ≠ some c := fun hc => by rw [h1]; simpa using hc
    exact Kind.alternate (p := (boolTrue F).denote ρ n) (hx.constant (by decide) (by decide))
      (hx.cons (hx.rejObject (h2 (by decide))) <| hx.cons (hx.rejArray (h2 (by decide))) <| hx.cons (hx.rejString (h2 (by decide))) .nil)
      (hx.cons (rejFalse (h2 (by decide))) <| hx.cons (rejNull (h2 (by decide))) <|
        hx.cons (hx.rejNumber h1 (by decide) (by decide)) .nil)
      (fun z es j h => .inr (qMap_stays (seq_stays i) z es j h)) (by omega)
  by_cases h1 : e.source i = some 'f'
  · have h2 : ∀ {c : Char}, 'f' ≠ c → e.source i ≠ some c := fun hc => by rw [h1]; simpa using hc
    exact Kind.alternate (p := (boolFalse F).denote ρ n) (hx.constant (by decide) (by decide))
      (hx.cons (hx.rejObject (h2 (by decide))) <| hx.cons (hx.rejArray (h2 (by decide))) <| hx.cons (hx.rejString (h2 (by decide))) <|
        hx.cons (rejTrue (h2 (by decide))) .nil)
      (hx.cons (rejNull (h2 (by decide))) <|
        hx.cons (hx.rejNumber h1 (by decide) (by decide)) .nil)
      (fun z es j h => .inr (qMap_stays (seq_stays i) z es j h)) (by omega)
  by_cases h1 : e.source i = some 'n'
  · have h2 : ∀ {c : Char}, 'n' ≠ c → e.source i ≠ some c := fun hc => by rw [h1]; simpa using hc
    exact Kind.alternate (p := (null F).denote ρ n) (hx.constant (by decide) (by decide))
      (hx.cons (hx.rejObject (h2 (by decide))) <| hx.cons (hx.rejArray (h2 (by decide))) <| hx.cons (hx.rejString (h2 (by decide))) <|
        hx.cons (rejTrue (h2 (by decide))) <| hx.cons (rejFalse (h2 (by decide))) .nil)
      (hx.cons (hx.rejNumber h1 (by decide) (by decide)) .nil)
      (fun z es j h => .inr (qMap_stays (seq_stays i) z es j h)) (by omega)
  exact Kind.alternate (p := (Json.number parseF).denote ρ n) (Kind.lin hx hx.number (by omega) (by omega) number_mayEmpty)
    (hx.cons (hx.rejObject ‹_›) <| hx.cons (hx.rejArray ‹_›) <| hx.cons (hx.rejString ‹_›) <|
      hx.cons (rejTrue ‹_›) <| hx.cons (rejFalse ‹_›) <| hx.cons (rejNull ‹_›) .nil) .nil
    (fun z es j h => .inl rfl) (by omega)

theorem Ctx.choice_last (hx : Ctx e L ρ σ) (h1 : e.source i = some ']') : RejG e i ρ σ n (Json.choice parseF) 105 := by
  have h2 : ∀ {c : Char}, ']' ≠ c → e.source i ≠ some c := fun hc => by rw [h1]; simpa using hc
  have h3 := (Rej.alternate (ε := voidErr charSig) (hx.cons (n := n) (hx.rejObject (h2 (by decide))) <| hx.cons (n := n) (hx.rejArray (h2 (by decide))) <|
    hx.cons (n := n) (hx.rejString (h2 (by decide))) <| hx.cons (n := n) (rejTrue (h2 (by decide))) <| hx.cons (n := n) (rejFalse (h2 (by decide))) <|
    hx.cons (n := n) (rejNull (h2 (by decide))) <| hx.cons (n := n) (hx.rejNumber (parseF := parseF) h1 (by decide) (by decide)) .nil))
  exact ⟨h3.1, h3.2⟩

/-! ## Values -/

/-- What a value is. -/
def valueBody (parseF : String → Option F) : P F (Value F) := .withError (.paddedBy (whitespace F) (choice parseF))

theorem Ctx.ws' (hx : Ctx e L ρ σ) : LinG e L ρ σ n (whitespace F) 2000 11 := hx.ws.mono hx.len (by omega) (Nat.le_refl _)

theorem Item.step (h : Item e L ρ σ n (value (F := F)) 2000 540 1045 120 ']') (hx : Ctx e L ρ σ) :
    Item e L ρ σ n (valueBody parseF) 2000 540 1045 120 ']' where
  any i := concat3_fits (f := fun x : List Char × Value F × List Char => x.2.1) (hx.g n (whitespace F)) (hx.g n (choice parseF))
    (fun _ => (hx.ws'.any i).le (by omega))
    (fun r j hq hd _ => ⟨_, _, _, _, hx.ws'.ok _ _ _ hq hd, (hx.choice h (i := j)).1, by omega⟩)
    fun r j r' k hq hd hq' hd' => ⟨_, _, _, _, _, _, hx.ws'.ok _ _ _ hq hd, (hx.choice h (i := j)).2 _ _ hq' hd', hx.ws'.any k, by omega⟩
  ok i x j hq hd := by
    obtain ⟨a, k, b, l, c', h2, h3, h4, h5, h6, h7⟩ := qConcat3_done (f := fun x : List Char × Value F × List Char => x.2.1) hq hd
    refine concat3_fits (f := fun x : List Char × Value F × List Char => x.2.1) (hx.g n (whitespace F)) (hx.g n (choice parseF))
      (fun hn => (hn _ _ h2 h3).elim) (fun r j' hq hd' hn => ?_) fun r j' r' k' hq hd' hq' hd'' => ?_
    · rw [h2] at hq; cases hq
      exact (hn _ _ h4 h5).elim
    · rw [h2] at hq; cases hq
      rw [h4] at hq'; cases hq'
      exact ⟨_, _, _, _, _, _, hx.ws'.ok _ _ _ h2 h3, (hx.choice h).2 _ _ h4 h5, hx.ws'.ok _ _ _ h6 h7, by omega⟩
  stay i := qConcat3_stays (f := fun x : List Char × Value F × List Char => x.2.1) (q := (whitespace F).den e σ n)
    (q' := (choice parseF).den e σ n) (q'' := (whitespace F).den e σ n) fun z es j h => (ws_done h _ _ rfl).elim
  last i hs := by
    refine (concat3_cost (K := 11) (K' := 105) (K'' := 0) (f := fun x : List Char × Value F × List Char => x.2.1) (hx.g n (whitespace F)) (hx.g n (choice parseF))
      (hx.ws_cost hs (by decide)) (fun x j hq _ => ?_) fun x j y k hq _ hq' hd => ?_).le (by omega)
    · obtain rfl := hx.ws_stays hs (by decide) hq
      exact (hx.choice_last hs).cost
    · obtain rfl := hx.ws_stays hs (by decide) hq
      exact (((hx.choice_last hs).sem _ _ hq').1 hd).elim

theorem Ctx.of_fuel (hL : Length e L) (n : Nat) : Ctx e L (callRec (defs parseF) n) (callSem e (defs parseF) n) :=
  ⟨hL, callRec_ref _ n, callSem_mq defs_nullable n⟩

theorem value_item (hL : Length e L) : ∀ n m, Item e L (callRec (defs parseF) n) (callSem e (defs parseF) n) m
    (value (F := F)) 2000 540 1045 120 ']'
  | 0, m => by
    have h0 : ∀ i x y, x ≤ y → Fits e ((value (F := F)).denote (callRec (defs parseF) 0) m false) i x y :=
      fun i x y h => Cost.fits (K := 0) (Up.cost .oof) (by omega)
    exact ⟨fun i => Fits.of_valid fun hv => h0 _ _ _ (by have := hL.le.1 hv; omega), (fun i x j hq => by cases hq),
      (fun i z es j hq => by cases hq), fun i hs => Up.cost .oof⟩
  | n + 1, m => by
    have h := Item.step (parseF := parseF) (value_item hL n n) (Ctx.of_fuel hL n)
    exact ⟨h.any, h.ok, h.stay, h.last⟩

/-! ## With recovery enabled -/

theorem string_direct : (string F).All (directL _ _) := by
  unfold string; rw [key_eq]
  have := charP_direct (F := F)
  simp_all [G.All, directL, G.Direct]

theorem string_progress : (string F).All (progressL _ _ fun _ _ => false) := by
  unfold string; rw [key_eq]
  have := charP_progress (F := F)
  simp_all [G.All, progressL, G.Progresses, charP_mayEmpty]

theorem string_cost : (string F).cost L ≤ 1000 * (L + 1) := by
  unfold string; rw [key_eq]
  have := charP_cost (F := F) (L := L)
  simp only [G.cost, RepCfg.bound]
  have := Nat.mul_le_mul_left (0 - 0 + (L - 0) + (if 0 = 0 then 1 else 0) + 1) (show (charP F).cost L + 0 + 4 ≤ 410 by omega)
  simp only [reduceIte] at this ⊢
  omega

theorem number_direct : (number parseF).All (directL _ _) := by
  unfold number sign fraction; rw [integerNlz_eq, integerLz_eq, exponent_eq, exponentSign_eq, integerLz_eq]
  simp [G.All, directL, G.Direct]

theorem number_progress : (number parseF).All (progressL _ _ fun _ _ => false) := by
  unfold number sign fraction; rw [integerNlz_eq, integerLz_eq, exponent_eq, exponentSign_eq, integerLz_eq]
  simp [G.All, progressL, G.Progresses, G.mayEmpty]

theorem number_cost : (number parseF).cost L ≤ 1000 * (L + 1) := by
  unfold number sign fraction; rw [integerNlz_eq, integerLz_eq, exponent_eq, exponentSign_eq, integerLz_eq]
  simp [G.cost, RepCfg.bound]
  omega

theorem Ctx.ws_up (hx : Ctx e L ρ σ) : UpP e ((whitespace F).denote ρ n) (30 * (L + 1)) :=
  hx.up _ (by rw [whitespace_eq]; simp [G.All, directL, G.Direct])
    (by rw [whitespace_eq]; simp [G.All, progressL, G.Progresses, G.mayEmpty])
    (by rw [whitespace_eq]; simp [G.cost, RepCfg.bound]; omega)

theorem Ctx.bracket_up (hx : Ctx e L ρ σ) {α β : Type} {g : P F α} {o c : Char} {f : List α → β} {F' t W : Nat}
    (h : Item e L ρ σ n g 2000 F' t W c) (ht : 8 ≤ t) (hc : c ≠ ',') (hA : F' ≤ 1974) :
    UpP e ((G.map f (Json.bracket o c g)).denote ρ n) (2000 * L + 9) := fun en =>
  Cost.up fun i _ => (post_fits (h.bracket hx ht hc (by omega) en i).1).cost.le (by omega)

theorem Ctx.choice_up (hx : Ctx e L ρ σ) (h : Item e L ρ σ n (value (F := F)) 2000 540 1045 120 ']') :
    UpP e ((Json.choice parseF).denote ρ n) (12000 * (L + 1)) := by
  rw [choice_denote]
  refine fun en => (alternate_up (.cons (hx.bracket_up (h.member hx) (by omega) (by decide) (by omega)) <|
    .cons (hx.bracket_up h (by omega) (by decide) (by omega)) <|
    .cons (hx.up _ string_direct string_progress string_cost) <| .cons (K := 12) (fun en => (pSeq_up (en := en).bind' (K' := 0) (fun _ => .ret) (Nat.le_refl _))) <|
    .cons (K := 14) (fun en => (pSeq_up (en := en).bind' (K' := 0) (fun _ => .ret) (Nat.le_refl _))) <|
    .cons (K := 12) (fun en => (pSeq_up (en := en).bind' (K' := 0) (fun _ => .ret) (Nat.le_refl _))) <|
    .cons (hx.up _ number_direct number_progress number_cost) .nil) en).le (by omega)

theorem json_up (hL : Length e L) (n : Nat) : UpP e (json.prog (defs parseF) n) (12100 * (L + 1)) := by
  cases n with
  | zero => exact fun en => .oof
  | succ n =>
    have hx : Ctx e L (callRec (defs parseF) n) (callSem e (defs parseF) n) := Ctx.of_fuel hL n
    exact fun en => (concat3_up (f := fun x : List Char × Value F × List Char => x.2.1) (hx.ws_up (n := n)) (hx.choice_up (value_item hL n n))
      (hx.ws_up (n := n)) en).le (by omega)

theorem document_up (hL : Length e L) (n : Nat) : UpP e (document.prog (defs parseF) n) (12200 * (L + 1)) := by
  have hx : Ctx e L (callRec (defs parseF) n) (callSem e (defs parseF) n) := Ctx.of_fuel hL n
  have h : UpP e ((G.eof : P F Unit).denote (callRec (defs parseF) n) n) 6 :=
    hx.up _ (by simp [G.All, directL, G.Direct]) (by simp [G.All, progressL, G.Progresses]) (by simp [G.cost])
  exact fun en => (concat2_up (f := fun x : Value F × Unit => x.1) (json_up hL n) h en).le (by omega)

end PPC.Json
