import Verif.SemCost5
import Verif.SemJson4

/-!
# The number of calls of the JSON parser: its parts
-/

namespace PPC.Json

open PPC

variable {F : Type} {e : Env charSig} {L n : Nat} {ρ : REnv charSig (names F)} {σ : QEnv charSig (names F)}

/-- What is known about the inner parsers. -/
structure Ctx (e : Env charSig) (L : Nat) (ρ : REnv charSig (names F)) (σ : QEnv charSig (names F)) : Prop where
  len : Length e L
  ref : EnvRef e ρ σ
  mq : ∀ k, MQ (fun _ => false) (σ k)

section

variable {α β : Type}

theorem Ctx.g (h : Ctx e L ρ σ) (n : Nat) (g : P F α) : PRef e (g.denote ρ n) (g.den e σ n) := G.ref h.ref n g

theorem Ctx.le (h : Ctx e L ρ σ) (g : P F α) (en : Bool) (i : Nat) (x : Res α Unit) (j : Nat)
    (hq : g.den e σ n en i = .ok (x, j)) : i ≤ j :=
  (G.mq (ν := fun _ _ => false) h.mq n g en i x j hq).1

theorem Ctx.lt (h : Ctx e L ρ σ) (g : P F α) (hm : ∀ en, g.mayEmpty (fun _ _ => false) en = false) (en : Bool) (i : Nat)
    (x : Res α Unit) (j : Nat) (hq : g.den e σ n en i = .ok (x, j)) (hd : x.Done) : i < j :=
  (G.mq (ν := fun _ _ => false) h.mq n g).lt hq hd (hm en)

/-- The calls of a parser are paid for by the distance. -/
abbrev LinG (e : Env charSig) (L : Nat) (ρ : REnv charSig (names F)) (σ : QEnv charSig (names F)) (n : Nat) (g : P F α)
    (A s : Nat) : Prop := Lin e L (g.denote ρ n) (g.den e σ n) A s

theorem Ctx.up (h : Ctx e L ρ σ) (g : P F α) (hd : g.All (directL _ _)) (hp : g.All (progressL _ _ fun _ _ => false)) {K : Nat}
    (hK : g.cost L ≤ K) : UpP e (g.denote ρ n) K := fun en => (G.up_direct h.len h.ref h.mq g hd hp en).le hK

theorem Ctx.const (h : Ctx e L ρ σ) (g : P F α) (hd : g.All (directL _ _)) (hp : g.All (progressL _ _ fun _ _ => false))
    {A K : Nat} (hK : g.cost L ≤ K) : LinG e L ρ σ n g A K :=
  Lin.of_up h.len (h.g n g) (h.le g) (h.up g hd hp hK false)

theorem Ctx.just (h : Ctx e L ρ σ) (c : Char) {A : Nat} : LinG e L ρ σ n (.just c) A 6 :=
  h.const _ (by simp [G.All, directL, G.Direct]) (by simp [G.All, progressL, G.Progresses]) (by simp [G.cost])

theorem Ctx.oneOf (h : Ctx e L ρ σ) (cs : List Char) {A : Nat} : LinG e L ρ σ n (.oneOf cs) A 6 :=
  h.const _ (by simp [G.All, directL, G.Direct]) (by simp [G.All, progressL, G.Progresses]) (by simp [G.cost])

theorem Ctx.then_ (h : Ctx e L ρ σ) {g : P F α} {g' : P F β} {A s s' : Nat} (h1 : LinG e L ρ σ n g A s)
    (h2 : LinG e L ρ σ n g' A s') : LinG e L ρ σ n (.then_ g g') A (s + s' + 3) :=
  h1.concat2 h2 (h.g n (.then_ g g')) (h.le (.then_ g g'))

theorem Ctx.thenIgnore (h : Ctx e L ρ σ) {g : P F α} {g' : P F β} {A s s' : Nat} (h1 : LinG e L ρ σ n g A s)
    (h2 : LinG e L ρ σ n g' A s') : LinG e L ρ σ n (.thenIgnore g g') A (s + s' + 3) :=
  h1.concat2 h2 (h.g n (.thenIgnore g g')) (h.le (.thenIgnore g g'))

theorem Ctx.ignoreThen (h : Ctx e L ρ σ) {g : P F α} {g' : P F β} {A s s' : Nat} (h1 : LinG e L ρ σ n g A s)
    (h2 : LinG e L ρ σ n g' A s') : LinG e L ρ σ n (.ignoreThen g g') A (s + s' + 3) :=
  h1.concat2 h2 (h.g n (.ignoreThen g g')) (h.le (.ignoreThen g g'))

theorem Ctx.delimitedBy (h : Ctx e L ρ σ) {γ : Type} {g : P F α} {g' : P F β} {g'' : P F γ} {A s s' s'' : Nat}
    (h1 : LinG e L ρ σ n g A s) (h2 : LinG e L ρ σ n g' A s') (h3 : LinG e L ρ σ n g'' A s'') :
    LinG e L ρ σ n (.delimitedBy g g' g'') A (s + s' + s'' + 3) :=
  Lin.concat3 (f := fun x : α × β × γ => x.2.1) h1 h2 h3 (h.g n (.delimitedBy g g' g'')) (h.le (.delimitedBy g g' g''))

theorem Ctx.map (h : Ctx e L ρ σ) {g : P F α} {f : α → β} {A s : Nat} (h1 : LinG e L ρ σ n g A s) :
    LinG e L ρ σ n (.map f g) A s := h1.map (h.g n (.map f g))

theorem Ctx.to (h : Ctx e L ρ σ) {g : P F α} {v : β} {A s : Nat} (h1 : LinG e L ρ σ n g A s) :
    LinG e L ρ σ n (.to g v) A s := h1.map (h.g n (.to g v))

theorem Ctx.boxed {g : P F α} {A s : Nat} (h1 : LinG e L ρ σ n g A s) : LinG e L ρ σ n (.boxed g) A s := h1

theorem Ctx.tryMap (h : Ctx e L ρ σ) {g : P F α} {f : α → charSig.Span → TryMapResult β Unit} {A s : Nat}
    (h1 : LinG e L ρ σ n g A s) : LinG e L ρ σ n (.tryMap f g) A (s + 4) := h1.tryMap (h.g n (.tryMap f g))

theorem Ctx.orNot (h : Ctx e L ρ σ) {g : P F α} {A s U : Nat} (h1 : LinG e L ρ σ n g A s)
    (hf : ∀ i z es j, g.den e σ n false i = .ok (.failed z es, j) → Cost e (g.denote ρ n false) i U) :
    LinG e L ρ σ n (.orNot g) A (s + U) := h1.orNot hf (h.g n (.orNot g)) (h.g n (.some g))

theorem Ctx.or (h : Ctx e L ρ σ) {g g' : P F α} {A s K : Nat} (h1 : Up e (g.denote ρ n false) K)
    (h2 : LinG e L ρ σ n g' A s) : LinG e L ρ σ n (.or g g') A (K + s) :=
  Lin.or h.len (h.g n g) (h.le g) h1 h2 (h.g n (.or g g')) (h.le (.or g g'))

theorem oneOf_stays {cs : List Char} (en : Bool) (i z : Nat) (es : List Unit) (j : Nat)
    (h : (G.oneOf cs : P F Char).den e σ n en i = .ok (.failed z es, j)) : j = i := by
  simp only [G.den, qOneOf] at h
  split at h
  · split at h
    · cases h
    · cases h; rfl
  · cases h; rfl

theorem noneOf_stays {cs : List Char} (en : Bool) (i z : Nat) (es : List Unit) (j : Nat)
    (h : (G.noneOf cs : P F Char).den e σ n en i = .ok (.failed z es, j)) : j = i := by
  simp only [G.den, qNoneOf] at h
  split at h
  · split at h
    · cases h; rfl
    · cases h
  · cases h; rfl

theorem just_ok {c : Char} {en : Bool} {i j : Nat} {x : Res Char Unit}
    (h : (G.just c : P F Char).den e σ n en i = .ok (x, j)) :
    (x.Done ∧ e.source i = some c ∧ j = i + 1) ∨ (¬ x.Done ∧ j = i ∧ e.source i ≠ some c) := by
  simp only [G.den, qJust] at h
  split at h
  · rename_i ht
    cases h
    refine .inl ⟨.success, ?_, rfl⟩
    unfold isTok at ht
    split at ht
    · rename_i t hs
      rw [hs]
      exact congrArg some (by simpa using ht)
    · cases ht
  · rename_i ht
    cases h
    refine .inr ⟨fun h => h _ _ rfl, rfl, fun hs => ht ?_⟩
    simp [isTok, hs]

theorem Ctx.repOneOf (h : Ctx e L ρ σ) (cs : List Char) (m : Nat) : LinG e L ρ σ n (.repeated (atLeastCfg m) (.oneOf cs)) 8 11 :=
  Lin.repeated (K := 6) h.len (h.g n (.oneOf cs))
    (h.up _ (by simp [G.All, directL, G.Direct]) (by simp [G.All, progressL, G.Progresses]) (by simp [G.cost]))
    (h.lt _ (by simp [G.mayEmpty])) (oneOf_stays false) (h.g n (.repeated (atLeastCfg m) (.oneOf cs)))
    (h.le (.repeated (atLeastCfg m) (.oneOf cs)))

theorem Ctx.ws (h : Ctx e L ρ σ) : LinG e L ρ σ n (whitespace F) 8 11 := h.repOneOf _ 0

theorem ws_done {en : Bool} {i j : Nat} {x : Res (List Char) Unit} (h : (whitespace F).den e σ n en i = .ok (x, j)) :
    x.Done := repLoop_done (m := 0) n [] none i (Nat.zero_le _) h

theorem just_stays {c : Char} (en : Bool) (i z : Nat) (es : List Unit) (j : Nat)
    (h : (G.just c : P F Char).den e σ n en i = .ok (.failed z es, j)) : j = i := by
  rcases just_ok h with ⟨h, -⟩ | ⟨-, h, -⟩
  · exact (h _ _ rfl).elim
  · exact h

theorem charP_stays (i z : Nat) (es : List Unit) (j : Nat)
    (hq : (charP F).den e σ n false i = .ok (.failed z es, j)) : j = i := by
  refine qAlternate_stays (ε := voidErr charSig) (qs := [_, _]) (fun q hm => ?_) z es j hq
  rcases List.mem_cons.1 hm with rfl | hm
  · exact noneOf_stays false i
  · cases List.mem_singleton.1 hm
    exact qConcat2_stays (just_stays false i)

theorem charP_cost : (charP F).cost L ≤ 406 := by
  unfold charP; rw [escape_eq]; unfold hexEscape
  simp [G.cost, GL.cost]

theorem charP_direct : (charP F).All (directL _ _) := by
  unfold charP; rw [escape_eq]; unfold hexEscape
  simp [G.All, GL.All, directL, G.Direct]

theorem charP_progress : (charP F).All (progressL _ _ fun _ _ => false) := by
  unfold charP; rw [escape_eq]; unfold hexEscape
  simp [G.All, GL.All, progressL, G.Progresses]

theorem charP_mayEmpty (en : Bool) : (charP F).mayEmpty (fun _ _ => false) en = false := by
  unfold charP; rw [escape_eq]; unfold hexEscape
  simp [G.mayEmpty, GL.anyEmpty]

theorem Ctx.chars (h : Ctx e L ρ σ) : LinG e L ρ σ n (.repeated (atLeastCfg 0) (charP F)) 408 411 :=
  Lin.repeated (K := 406) h.len (h.g n (charP F)) (h.up _ charP_direct charP_progress charP_cost)
    (h.lt _ charP_mayEmpty) charP_stays (h.g n (.repeated (atLeastCfg 0) (charP F)))
    (h.le (.repeated (atLeastCfg 0) (charP F)))

theorem Ctx.key (h : Ctx e L ρ σ) : LinG e L ρ σ n (key F) 408 426 :=
  Ctx.boxed (h.map (h.delimitedBy (h.just '"') h.chars (h.just '"')))

theorem Ctx.string (h : Ctx e L ρ σ) : LinG e L ρ σ n (string F) 408 426 := Ctx.boxed (h.map h.key)

theorem Ctx.sign (h : Ctx e L ρ σ) {A : Nat} : LinG e L ρ σ n (sign F) A 12 :=
  h.const _ (by simp [Json.sign, G.All, directL, G.Direct]) (by simp [Json.sign, G.All, progressL, G.Progresses])
    (by simp [Json.sign, G.cost])

theorem Ctx.exponentHead (h : Ctx e L ρ σ) : UpP e ((G.ignoreThen (.oneOf ['e', 'E']) (exponentSign F) : P F Bool).denote ρ n) 21 :=
  h.up _ (by simp [exponentSign_eq, G.All, directL, G.Direct]) (by simp [exponentSign_eq, G.All, progressL, G.Progresses])
    (by simp [exponentSign_eq, G.cost])

theorem Ctx.integerNlz (h : Ctx e L ρ σ) : LinG e L ρ σ n (integerNlz F) 8 26 :=
  Ctx.boxed (h.or (K := 6) (h.up _ (by simp [G.All, directL, G.Direct]) (by simp [G.All, progressL, G.Progresses])
    (by simp [G.cost]) false) (h.map (h.then_ (h.oneOf _) (h.repOneOf _ 0))))

theorem Ctx.integerLz (h : Ctx e L ρ σ) : LinG e L ρ σ n (integerLz F) 8 11 := Ctx.boxed (h.map (h.repOneOf _ 1))

theorem map_failed {α β : Type} {f : α → β} {q : PSem Unit α} {en : Bool} {i j z : Nat} {es : List Unit}
    (h : qMap f q en i = .ok (.failed z es, j)) : q en i = .ok (.failed z es, j) := by
  obtain ⟨y, h1, h2⟩ := qMap_ok h
  cases y <;> cases h2
  exact h1

theorem Ctx.integerLz_failed (h : Ctx e L ρ σ) {i j z : Nat} {es : List Unit}
    (hq : (Json.integerLz F).den e σ n false i = .ok (.failed z es, j)) : Cost e ((Json.integerLz F).denote ρ n false) i 10 :=
  post_cost (repeated_failed (K := 6) (h.g n (.oneOf digits)) (map_failed hq)
    (h.up _ (by simp [G.All, directL, G.Direct]) (by simp [G.All, progressL, G.Progresses]) (by simp [G.cost]) false))

theorem Ctx.fraction (h : Ctx e L ρ σ) : LinG e L ρ σ n (fraction F) 8 20 := Ctx.boxed (h.ignoreThen (h.just '.') h.integerLz)

/-- A failing pair whose first part makes few calls. -/
theorem pair_failed {α β γ : Type} {p : Parser charSig Unit α} {q : PSem Unit α} {p' : Parser charSig Unit β} {q' : PSem Unit β}
    (hr : PRef e p q) {f : α × β → γ} {i j z : Nat} {es : List Unit} (hq : qConcat2 f q q' false i = .ok (.failed z es, j))
    {K K' : Nat} (h : Cost e (p false) i K)
    (h' : ∀ k z es j, q' false k = .ok (.failed z es, j) → Cost e (p' false) k K') : Cost e (concat2 f p p' false) i (K + K' + 3) := by
  refine concat2_cost hr h fun x k hx hd => ?_
  obtain ⟨⟨y, l⟩, h1, h2⟩ := Out.bind_eq_ok.1 hq
  rw [hx] at h1; cases h1
  have hl : ∀ {g : β → γ} {r}, concatLastSem false i g q' r k = .ok (.failed z es, j) → Cost e (p' false) k K' := by
    intro g r h3
    obtain ⟨⟨y, l⟩, h4, h5⟩ := Out.bind_eq_ok.1 h3
    cases y with
    | success o => exact absurd h5 (by cases r <;> simp [finishSem])
    | recovered o es => exact absurd h5 (by cases r <;> simp [finishSem, extendRec])
    | failed z es => exact h' _ _ _ _ h4
  cases x with
  | success o => exact hl h2
  | recovered o es => exact hl h2
  | failed z es => exact (hd _ _ rfl).elim

theorem Ctx.fraction_failed (h : Ctx e L ρ σ) {i j z : Nat} {es : List Unit}
    (hq : (Json.fraction F).den e σ n false i = .ok (.failed z es, j)) : Cost e ((Json.fraction F).denote ρ n false) i 19 :=
  pair_failed (K := 6) (K' := 10) (h.g n (.just '.')) hq
    (h.up _ (by simp [G.All, directL, G.Direct]) (by simp [G.All, progressL, G.Progresses]) (by simp [G.cost]) false).cost
    fun _ _ _ _ => h.integerLz_failed

theorem Ctx.exponent (h : Ctx e L ρ σ) : LinG e L ρ σ n (exponent F) 8 35 :=
  Ctx.boxed (h.then_ (g := .ignoreThen (.oneOf ['e', 'E']) (exponentSign F))
    (Lin.of_up h.len (h.g n _) (h.le _) (h.exponentHead false)) h.integerLz)

theorem Ctx.exponent_failed (h : Ctx e L ρ σ) {i j z : Nat} {es : List Unit}
    (hq : (Json.exponent F).den e σ n false i = .ok (.failed z es, j)) : Cost e ((Json.exponent F).denote ρ n false) i 34 :=
  pair_failed (K := 21) (K' := 10) (h.g n (.ignoreThen (.oneOf ['e', 'E']) (exponentSign F))) hq (h.exponentHead false).cost
    fun _ _ _ _ => h.integerLz_failed

theorem Ctx.number (h : Ctx e L ρ σ) {parseF : String → Option F} : LinG e L ρ σ n (number parseF) 8 159 :=
  Ctx.boxed (h.tryMap (h.then_ (h.then_ (h.then_ h.sign h.integerNlz)
    (h.orNot (U := 19) h.fraction fun _ _ _ _ => h.fraction_failed)) (h.orNot (U := 34) h.exponent fun _ _ _ _ => h.exponent_failed)))

/-- What comes before the value of a member. -/
def memberHead (F : Type) : P F String :=
  .thenIgnore (.thenIgnore (.ignoreThen (whitespace F) (key F)) (whitespace F)) (.just ':')

theorem Ctx.memberHead (h : Ctx e L ρ σ) : LinG e L ρ σ n (memberHead F) 408 463 :=
  have hw := h.ws.mono h.len (by omega) (Nat.le_refl _)
  h.thenIgnore (h.thenIgnore (h.ignoreThen hw h.key) hw) (h.just ':')

end

end PPC.Json
