import Verif.SemErr

/-!
# Recovery does not hide errors

* A grammar without recovery behaves the same in both modes (`RF`).
* In a coherent grammar a parser that fails without recovery does not succeed with it (`FN`).
-/

namespace PPC

variable {S : Sig} {N : Names S}

/-- The flag makes no difference. -/
structure RF {E α : Type} (q : PSem E α) : Prop where
  eq : ∀ i, q true i = q false i
  fr : FR q
  nr : NR q

/-- Failure without recovery is not success with recovery. -/
def FN {E α : Type} (q : PSem E α) : Prop :=
  ∀ i x es j, q false i = .ok (.failed x es, j) → ∀ a k, q true i ≠ .ok (.success a, k)

theorem RF.fn {E α : Type} {q : PSem E α} (h : RF q) : FN q := by
  intro i x es j h1 a k h2
  rw [h.eq i, h1] at h2
  cases h2

theorem FN.of_eq {E α : Type} {q : PSem E α} (h : ∀ i, q true i = q false i) : FN q := by
  intro i x es j h1 a k h2
  rw [h i, h1] at h2
  cases h2

/-! ## Without recovery the modes agree -/

theorem rf_concatRest {E α : Type} {start : Nat} : ∀ (qs : List (PSem E α)) (out : List α) (i : Nat),
    (∀ q ∈ qs, RF q) →
      concatRestSem true start qs out none i = concatRestSem false start qs out none i
  | [], out, i, _ => rfl
  | q :: qs, out, i, hq => by
    have h1 := hq q (by simp)
    simp only [concatRestSem]
    rw [h1.eq i]
    cases hr : q false i with
    | ok y =>
      obtain ⟨r, k⟩ := y
      cases r with
      | success b =>
        simp only [Out.ok_bind]; exact rf_concatRest qs _ _ (fun q' h' => hq q' (by simp [h']))
      | recovered b es => exact (h1.nr _ _ _ _ hr).elim
      | failed x es => rfl
    | panic m => rfl
    | oof => rfl
    | stuck => rfl

theorem rf_concat {E α : Type} {qs : List (PSem E α)} (hq : ∀ q ∈ qs, RF q) : RF (qConcat qs) where
  fr := fr_concat fun q h => (hq q h).fr
  nr := nr_concat fun q h => (hq q h).nr
  eq i := by
    cases qs with
    | nil => rfl
    | cons q qs =>
      have h1 := hq q (by simp)
      simp only [qConcat]
      rw [h1.eq i]
      cases hr : q false i with
      | ok y =>
        obtain ⟨r, k⟩ := y
        cases r with
        | success b =>
          simp only [Out.ok_bind]; exact rf_concatRest qs _ _ (fun q' h' => hq q' (by simp [h']))
        | recovered b es => exact (h1.nr _ _ _ _ hr).elim
        | failed x es => rfl
      | panic m => rfl
      | oof => rfl
      | stuck => rfl

theorem rf_concatLast {E β γ : Type} {start : Nat} {f : β → γ} {qb : PSem E β} (hb : RF qb)
    (i : Nat) : concatLastSem true start f qb none i = concatLastSem false start f qb none i := by
  simp only [concatLastSem]
  rw [hb.eq i]
  cases hr : qb false i with
  | ok y =>
    obtain ⟨r, k⟩ := y
    cases r with
    | success b => rfl
    | recovered b es => exact (hb.nr _ _ _ _ hr).elim
    | failed x es => rfl
  | panic m => rfl
  | oof => rfl
  | stuck => rfl

theorem rf_concat2 {E α β γ : Type} {f : α × β → γ} {qa : PSem E α} {qb : PSem E β} (ha : RF qa)
    (hb : RF qb) : RF (qConcat2 f qa qb) where
  fr := fr_concat2 ha.fr hb.fr
  nr := nr_concat2 ha.nr hb.nr
  eq i := by
    simp only [qConcat2]
    rw [ha.eq i]
    cases hr : qa false i with
    | ok y =>
      obtain ⟨r, k⟩ := y
      cases r with
      | success b => simp only [Out.ok_bind]; exact rf_concatLast hb k
      | recovered b es => exact (ha.nr _ _ _ _ hr).elim
      | failed x es => rfl
    | panic m => rfl
    | oof => rfl
    | stuck => rfl

theorem rf_concatMid {E β γ δ : Type} {start : Nat} {f : β × γ → δ} {qb : PSem E β}
    {qc : PSem E γ} (hb : RF qb) (hc : RF qc) (i : Nat) :
    concatMidSem true start f qb qc none i = concatMidSem false start f qb qc none i := by
  simp only [concatMidSem]
  rw [hb.eq i]
  cases hr : qb false i with
  | ok y =>
    obtain ⟨r, k⟩ := y
    cases r with
    | success b => simp only [Out.ok_bind]; exact rf_concatLast hc k
    | recovered b es => exact (hb.nr _ _ _ _ hr).elim
    | failed x es => rfl
  | panic m => rfl
  | oof => rfl
  | stuck => rfl

theorem rf_concat3 {E α β γ δ : Type} {f : α × β × γ → δ} {qa : PSem E α} {qb : PSem E β}
    {qc : PSem E γ} (ha : RF qa) (hb : RF qb) (hc : RF qc) : RF (qConcat3 f qa qb qc) where
  fr := fr_concat3 ha.fr hb.fr hc.fr
  nr := nr_concat3 ha.nr hb.nr hc.nr
  eq i := by
    simp only [qConcat3]
    rw [ha.eq i]
    cases hr : qa false i with
    | ok y =>
      obtain ⟨r, k⟩ := y
      cases r with
      | success b => simp only [Out.ok_bind]; exact rf_concatMid hb hc k
      | recovered b es => exact (ha.nr _ _ _ _ hr).elim
      | failed x es => rfl
    | panic m => rfl
    | oof => rfl
    | stuck => rfl

theorem RF.flag {E α : Type} {q : PSem E α} (h : RF q) (b : Bool) (i : Nat) : q b i = q false i := by
  cases b
  · rfl
  · exact h.eq i

theorem rf_repItem {E α : Type} {cfg : RepCfg} {item : PSem E α} (hi : RF item)
    {start : Nat} {again again' : List α → Option (List E) → Nat → Out (Res (List α) E × Nat)}
    (ha : ∀ out i, again out none i = again' out none i)
    {out : List α} {before : Option Nat} {i : Nat} :
    repItemSem cfg item true start again out none before i =
      repItemSem cfg item false start again' out none before i := by
  unfold repItemSem
  split
  · rfl
  · rw [hi.flag (true && _), hi.flag (false && _)]
    cases hr : item false i with
    | ok y =>
      obtain ⟨r, k⟩ := y
      cases r with
      | success b => simp only [Out.ok_bind]; exact ha _ _
      | recovered b es => exact (hi.nr _ _ _ _ hr).elim
      | failed x es => rfl
    | panic m => rfl
    | oof => rfl
    | stuck => rfl

theorem rf_repLoop {E α β : Type} {cfg : RepCfg} {item : PSem E α} {sep : Option (PSem E β)}
    (hi : RF item) (hs : ∀ q, sep = some q → RF q) {start : Nat} :
    ∀ (fuel : Nat) (out : List α) (i : Nat),
      repLoopSem cfg item sep true start fuel out none i =
      repLoopSem cfg item sep false start fuel out none i
  | 0, _, _ => rfl
  | fuel + 1, out, i => by
    have ih := rf_repLoop (cfg := cfg) hi hs (start := start) fuel
    unfold repLoopSem
    split
    · rfl
    · simp only
      split
      · rename_i q _
        have hq := hs q rfl
        rw [hq.flag (true && _ && _), hq.flag (false && _ && _)]
        cases hr : q false i with
        | ok y =>
          obtain ⟨r, k⟩ := y
          cases r with
          | success b => simp only [Out.ok_bind]; exact rf_repItem hi ih
          | recovered b es => exact (hq.nr _ _ _ _ hr).elim
          | failed x es => simp only [Out.ok_bind]; rw [rf_repItem hi ih]
        | panic m => rfl
        | oof => rfl
        | stuck => rfl
      · exact rf_repItem hi ih

theorem rf_repeat {E α β : Type} {fuel : Nat} {cfg : RepCfg} {item : PSem E α}
    {sep : Option (PSem E β)} (hi : RF item) (hs : ∀ q, sep = some q → RF q) :
    RF (qRepeat fuel cfg item sep) where
  fr := fr_repeat hi.fr fun q h => (hs q h).fr
  nr := nr_repeat hi.nr fun q h => (hs q h).nr
  eq i := rf_repLoop hi hs fuel [] i

/-- The failures recorded by the first pass are failures at the start position. -/
theorem altFirst_failed {E α : Type} {i : Nat} : ∀ (qs : List (PSem E α)) (fails : List (FailSem E α)),
    (∀ q ∈ qs, FR q) →
    (∀ f ∈ fails, f.2.2 false i = .ok (.failed f.1 f.2.1, i)) → ∀ fs j,
      altFirstSem qs fails i = .ok (.inr fs, j) →
      ∀ f ∈ fs, f.2.2 false i = .ok (.failed f.1 f.2.1, i)
  | [], fails, hq, hf, fs, j, h => by cases h; exact hf
  | q :: qs, fails, hq, hf, fs, j, h => by
    simp only [altFirstSem, Out.bind_eq_ok] at h
    obtain ⟨⟨r, k⟩, h1, h2⟩ := h
    have h3 := hq q (by simp) _ _ _ _ h1
    cases r with
    | success o => cases h2
    | recovered o es => cases h2
    | failed y es =>
      obtain ⟨rfl, h4⟩ := h3.1 _ _ rfl
      refine altFirst_failed qs _ (fun q' h' => hq q' (by simp [h'])) ?_ _ _ h2
      intro f hf'
      rcases List.mem_append.1 hf' with h' | h'
      · exact hf f h'
      · rw [List.mem_singleton.1 h']; exact h1

/-- The recorded parsers are the alternatives. -/
theorem altFirst_mem {E α : Type} {P : PSem E α → Prop} : ∀ (qs : List (PSem E α))
    (fails : List (FailSem E α)) (i : Nat),
    (∀ q ∈ qs, P q) → (∀ f ∈ fails, P f.2.2) → ∀ fs j,
      altFirstSem qs fails i = .ok (.inr fs, j) → ∀ f ∈ fs, P f.2.2
  | [], fails, i, hq, hf, fs, j, h => by cases h; exact hf
  | q :: qs, fails, i, hq, hf, fs, j, h => by
    simp only [altFirstSem, Out.bind_eq_ok] at h
    obtain ⟨⟨r, k⟩, h1, h2⟩ := h
    cases r with
    | success o => cases h2
    | recovered o es => cases h2
    | failed y es =>
      refine altFirst_mem qs _ _ (fun q' h' => hq q' (by simp [h'])) ?_ _ _ h2
      intro f hf'
      rcases List.mem_append.1 hf' with h' | h'
      · exact hf f h'
      · rw [List.mem_singleton.1 h']; exact hq q (by simp)

theorem rf_altRecover {E α : Type} {i : Nat} : ∀ (fails : List (FailSem E α)),
    (∀ f ∈ fails, RF f.2.2) → (∀ f ∈ fails, f.2.2 false i = .ok (.failed f.1 f.2.1, i)) →
    altRecoverSem fails i = .ok (none, i)
  | [], _, _ => rfl
  | (y, es, q) :: rest, hq, hf => by
    have h1 := hq _ List.mem_cons_self
    have h2 := hf _ List.mem_cons_self
    simp only at h1 h2
    simp only [altRecoverSem]
    rw [h1.eq, h2]
    simp only [Out.ok_bind]
    exact rf_altRecover rest (fun f h => hq f (by simp [h])) (fun f h => hf f (by simp [h]))

theorem rf_alternate {α : Type} {ε : ErrTy S} {qs : List (PSem ε.E α)} (hq : ∀ q ∈ qs, RF q) :
    RF (qAlternate ε qs) where
  fr := fr_alternate fun q h => (hq q h).fr
  nr := nr_alternate
  eq i := by
    simp only [qAlternate]
    cases hr : altFirstSem qs [] i with
    | ok y =>
      obtain ⟨r, k⟩ := y
      cases r with
      | inl o => rfl
      | inr fails =>
        simp only [Out.ok_bind]
        split
        · rfl
        · have h0 := (fr_altFirst qs [] (fun q h => (hq q h).fr) (by simp) _ _ hr).2 _ rfl
          obtain ⟨rfl, -⟩ := h0
          have h1 := altFirst_failed qs [] (fun q h => (hq q h).fr) (by simp) _ _ hr
          have h2 := altFirst_mem (P := RF) qs [] k hq (by simp) _ _ hr
          rw [rf_altRecover (sortDesc fails) (fun f h => h2 f (mem_sortDesc.1 h))
            (fun f h => h1 f (mem_sortDesc.1 h))]
          rfl
    | panic m => rfl
    | oof => rfl
    | stuck => rfl

section

variable {e : Env S} {ρ : QEnv S N} {F : N.K → Prop}

mutual

/-- A grammar without recovery behaves the same in both modes. -/
theorem G.rf (hρ : ∀ k, F k → RF (ρ k)) (n : Nat) : ∀ {ε : ErrTy S} {α : Type} (g : G S N ε α),
    g.All (noRecL F) → RF (g.den e ρ n)
  | _, _, .empty, h => by rw [G.den]; exact ⟨fun _ => rfl, fr_empty, nr_empty⟩
  | _, _, .none _, h => by rw [G.den]; exact ⟨fun _ => rfl, fr_none, nr_none⟩
  | _, _, .eof, h => by rw [G.den]; exact ⟨fun _ => rfl, fr_end, nr_end⟩
  | _, _, .just t, h => by rw [G.den]; exact ⟨fun _ => rfl, fr_just, nr_just⟩
  | _, _, .filter p, h => by rw [G.den]; exact ⟨fun _ => rfl, fr_filter, nr_filter⟩
  | _, _, .filterMap f, h => by rw [G.den]; exact ⟨fun _ => rfl, fr_filterMap, nr_filterMap⟩
  | _, _, .seq v items, h => by rw [G.den]; exact ⟨fun _ => rfl, fr_seq, nr_seq⟩
  | _, _, .oneOf items, h => by rw [G.den]; exact ⟨fun _ => rfl, fr_oneOf, nr_oneOf⟩
  | _, _, .noneOf items, h => by rw [G.den]; exact ⟨fun _ => rfl, fr_noneOf, nr_noneOf⟩
  | _, _, .boxed g, h => by rw [G.All] at h; rw [G.den]; exact G.rf hρ n g h.2
  | _, _, .withError g, h => by rw [G.All] at h; rw [G.den]; exact G.rf hρ n g h.2
  | _, _, .to g v, h => by
    rw [G.All] at h; rw [G.den]
    have hg := G.rf hρ n g h.2
    exact ⟨fun i => by simp only [qMap, hg.eq i], fr_map hg.fr, nr_map hg.nr⟩
  | _, _, .some g, h => by
    rw [G.All] at h; rw [G.den]
    have hg := G.rf hρ n g h.2
    exact ⟨fun i => by simp only [qMap, hg.eq i], fr_map hg.fr, nr_map hg.nr⟩
  | _, _, .map f g, h => by
    rw [G.All] at h; rw [G.den]
    have hg := G.rf hρ n g h.2
    exact ⟨fun i => by simp only [qMap, hg.eq i], fr_map hg.fr, nr_map hg.nr⟩
  | _, _, .mapWithSpan f g, h => by
    rw [G.All] at h; rw [G.den]
    have hg := G.rf hρ n g h.2
    exact ⟨fun i => by simp only [qMapWithSpan, hg.eq i], fr_mapWithSpan hg.fr, nr_mapWithSpan hg.nr⟩
  | _, _, .mapErr f g, h => by
    rw [G.All] at h; rw [G.den]
    have hg := G.rf hρ n g h.2
    exact ⟨fun i => by simp only [qMapErr, hg.eq i], fr_mapErr hg.fr, nr_mapErr hg.nr⟩
  | _, _, .mapErrWithSpan f g, h => by
    rw [G.All] at h; rw [G.den]
    have hg := G.rf hρ n g h.2
    exact ⟨fun i => by simp only [qMapErrWithSpan, hg.eq i], fr_mapErrWithSpan hg.fr, nr_mapErrWithSpan hg.nr⟩
  | _, _, .tryMap f g, h => by
    rw [G.All] at h; rw [G.den]
    have hg := G.rf hρ n g h.2
    refine ⟨fun i => ?_, fr_tryMap h.1 hg.fr, nr_tryMap hg.nr⟩
    have ht : ∀ i j a, tryMapStep e f true i j a = tryMapStep e f false i j a := by
      intro i j a
      unfold tryMapStep
      split
      · rfl
      · rfl
      · rename_i hr; exact (h.1 _ _ _ _ hr).elim
    simp only [qTryMap, hg.eq i, ht]
  | _, _, .then_ a b, h => by
    rw [G.All] at h; rw [G.den]; exact rf_concat2 (G.rf hρ n a h.2.1) (G.rf hρ n b h.2.2)
  | _, _, .thenIgnore a b, h => by
    rw [G.All] at h; rw [G.den]; exact rf_concat2 (G.rf hρ n a h.2.1) (G.rf hρ n b h.2.2)
  | _, _, .ignoreThen a b, h => by
    rw [G.All] at h; rw [G.den]; exact rf_concat2 (G.rf hρ n a h.2.1) (G.rf hρ n b h.2.2)
  | _, _, .delimitedBy l m r, h => by
    rw [G.All] at h; rw [G.den]
    exact rf_concat3 (G.rf hρ n l h.2.1) (G.rf hρ n m h.2.2.1) (G.rf hρ n r h.2.2.2)
  | _, _, .paddedBy p m, h => by
    rw [G.All] at h; rw [G.den]
    exact rf_concat3 (G.rf hρ n p h.2.1) (G.rf hρ n m h.2.2) (G.rf hρ n p h.2.1)
  | _, _, .chain gs, h => by rw [G.All] at h; rw [G.den]; exact rf_concat (GL.rf hρ n gs h.2)
  | _, _, .or a b, h => by
    rw [G.All] at h; rw [G.den]
    refine rf_alternate fun q hq => ?_
    simp only [List.mem_cons, List.not_mem_nil, or_false] at hq
    rcases hq with rfl | rfl
    · exact G.rf hρ n a h.2.1
    · exact G.rf hρ n b h.2.2
  | _, _, .orNot g, h => by
    rw [G.All] at h; rw [G.den]
    refine rf_alternate fun q hq => ?_
    simp only [List.mem_cons, List.not_mem_nil, or_false] at hq
    have hg := G.rf hρ n g h.2
    rcases hq with rfl | rfl
    · exact ⟨fun i => by simp only [qMap, hg.eq i], fr_map hg.fr, nr_map hg.nr⟩
    · exact ⟨fun _ => rfl, fr_none, nr_none⟩
  | _, _, .alters gs, h => by
    rw [G.All] at h; rw [G.den]; exact rf_alternate (GL.rf hρ n gs h.2)
  | _, _, .repeated cfg item, h => by
    rw [G.All] at h; rw [G.den]; exact rf_repeat (G.rf hρ n item h.2) (fun q h => by cases h)
  | _, _, .separatedBy cfg item sep, h => by
    rw [G.All] at h; rw [G.den]
    refine rf_repeat (G.rf hρ n item h.2.1) (fun q hq => ?_)
    cases hq
    exact G.rf hρ n sep h.2.2
  | _, _, .toRecover g st, h => by rw [G.All] at h; exact h.1.elim
  | _, _, .call k, h => by rw [G.All] at h; rw [G.den]; exact hρ k h

theorem GL.rf (hρ : ∀ k, F k → RF (ρ k)) (n : Nat) : ∀ {ε : ErrTy S} {α : Type}
    (gs : GL S N ε α), gs.All (noRecL F) → ∀ q ∈ gs.den e ρ n, RF q
  | _, _, .nil, _, q, h => by rw [GL.den] at h; cases h
  | _, _, .cons g gs, hc, q, h => by
    rw [GL.All] at hc
    rw [GL.den] at h
    rcases List.mem_cons.1 h with h | h
    · rw [h]; exact G.rf hρ n g hc.1
    · exact GL.rf hρ n gs hc.2 q h

end

theorem callSem_rf {D : Defs S N} (hD : RecFreeNames F D) : ∀ (n : Nat) (k : N.K), F k →
    RF (callSem e D n k)
  | 0, k, _ => ⟨fun _ => rfl, fun en i r j h => (by cases h), fun i a es j h => (by cases h)⟩
  | n + 1, k, hk => by
    have ih : ∀ k, F k → RF (callSem e D n k) := callSem_rf hD n
    have he : ∀ en i, callSem e D (n + 1) k en i = match D k with
      | some g => g.den e (callSem e D n) n en i
      | none => .panic "recursive parser is not defined" := fun _ _ => rfl
    cases hg : D k with
    | none =>
      simp only [hg] at he
      refine ⟨fun i => by rw [he, he], fun en i r j h => ?_, fun i a es j h => ?_⟩
      · rw [he] at h; cases h
      · rw [he] at h; cases h
    | some g =>
      simp only [hg] at he
      have h1 := G.rf (e := e) ih n g (hD k g hk hg)
      refine ⟨fun i => by rw [he, he, h1.eq], fun en i r j h => ?_, fun i a es j h => ?_⟩
      · rw [he] at h; exact h1.fr _ _ _ _ h
      · rw [he] at h; exact h1.nr _ _ _ _ h

end

/-! ## Failure is not turned into success -/

theorem fn_map {E α β : Type} {f : α → β} {q : PSem E α} (hq : FN q) : FN (qMap f q) := by
  intro i x es j h a k h'
  simp only [qMap, Out.bind_eq_ok] at h h'
  obtain ⟨⟨r, l⟩, h1, h2⟩ := h
  obtain ⟨⟨r', l'⟩, h3, h4⟩ := h'
  cases r <;> cases h2
  cases r' <;> cases h4
  exact hq _ _ _ _ h1 _ _ h3

theorem fn_mapWithSpan {E α β : Type} {e : Env S} {f : α → S.Span → β} {q : PSem E α} (hq : FN q) :
    FN (qMapWithSpan e f q) := by
  intro i x es j h a k h'
  simp only [qMapWithSpan, Out.bind_eq_ok] at h h'
  obtain ⟨⟨r, l⟩, h1, h2⟩ := h
  obtain ⟨⟨r', l'⟩, h3, h4⟩ := h'
  cases r <;> cases h2
  cases r' <;> cases h4
  exact hq _ _ _ _ h1 _ _ h3

theorem fn_mapErr {E X α : Type} {f : X → E} {q : PSem X α} (hq : FN q) : FN (qMapErr f q) := by
  intro i x es j h a k h'
  simp only [qMapErr, Out.bind_eq_ok] at h h'
  obtain ⟨⟨r, l⟩, h1, h2⟩ := h
  obtain ⟨⟨r', l'⟩, h3, h4⟩ := h'
  cases r <;> cases h2
  cases r' <;> cases h4
  exact hq _ _ _ _ h1 _ _ h3

theorem fn_mapErrWithSpan {E X α : Type} {e : Env S} {f : X → S.Span → E} {q : PSem X α} (hq : FN q) :
    FN (qMapErrWithSpan e f q) := by
  intro i x es j h a k h'
  simp only [qMapErrWithSpan, Out.bind_eq_ok] at h h'
  obtain ⟨⟨r, l⟩, h1, h2⟩ := h
  obtain ⟨⟨r', l'⟩, h3, h4⟩ := h'
  cases r <;> cases h2
  cases r' <;> cases h4
  exact hq _ _ _ _ h1 _ _ h3

theorem fn_tryMap {E α β : Type} {e : Env S} {f : α → S.Span → TryMapResult β E} {q : PSem E α}
    (hq : RF q) : FN (qTryMap e f q) := by
  intro i x es j h a k h'
  simp only [qTryMap, hq.eq i, Out.bind_eq_ok] at h h'
  obtain ⟨⟨r, l⟩, h1, h2⟩ := h
  obtain ⟨⟨r', l'⟩, h3, h4⟩ := h'
  rw [h1] at h3
  cases h3
  cases r with
  | success b =>
    have := (tryMapStep_success (en := false)).2 (tryMapStep_success.1 h4)
    simp only at h2
    rw [this] at h2
    cases h2
  | recovered b es' => exact hq.nr _ _ _ _ h1
  | failed b es' => cases h4

/-- Once something has been recovered a sequence does not succeed. -/
theorem concatRest_some {E α : Type} {start : Nat} : ∀ (qs : List (PSem E α)) (out : List α)
    (es : List E) (i : Nat) (a : List α) (j : Nat),
    concatRestSem true start qs out (some es) i ≠ .ok (.success a, j)
  | [], out, es, i, a, j, h => by simp [concatRestSem, finishSem] at h
  | q :: qs, out, es, i, a, j, h => by
    simp only [concatRestSem, Out.bind_eq_ok] at h
    obtain ⟨⟨r, l⟩, h1, h2⟩ := h
    cases r with
    | success b => exact concatRest_some qs _ _ _ _ _ h2
    | recovered b es' => exact concatRest_some qs _ _ _ _ _ h2
    | failed b es' => cases h2

theorem fn_concatRest {E α : Type} {start : Nat} : ∀ (qs : List (PSem E α)) (out : List α) (i : Nat),
    (∀ q ∈ qs, NR q ∧ SM q ∧ FN q) → ∀ x es j,
    concatRestSem false start qs out none i = .ok (.failed x es, j) → ∀ a k,
    concatRestSem true start qs out none i ≠ .ok (.success a, k)
  | [], out, i, hq, x, es, j, h => by simp [concatRestSem, finishSem] at h
  | q :: qs, out, i, hq, x, es, j, h => by
    intro a k h'
    obtain ⟨nq, sq, fq⟩ := hq q (by simp)
    simp only [concatRestSem, Out.bind_eq_ok] at h h'
    obtain ⟨⟨r, l⟩, h1, h2⟩ := h
    obtain ⟨⟨r', l'⟩, h3, h4⟩ := h'
    cases r with
    | success b =>
      rw [sq _ _ _ h1] at h3
      cases h3
      exact fn_concatRest qs _ _ (fun q' h' => hq q' (by simp [h'])) _ _ _ h2 _ _ h4
    | recovered b es' => exact nq _ _ _ _ h1
    | failed b es' =>
      cases r' with
      | success b' => exact fq _ _ _ _ h1 _ _ h3
      | recovered b' es2 => exact concatRest_some qs _ _ _ _ _ h4
      | failed b' es2 => cases h4

theorem fn_concat {E α : Type} {qs : List (PSem E α)} (hq : ∀ q ∈ qs, NR q ∧ SM q ∧ FN q) :
    FN (qConcat qs) := by
  intro i x es j h a k h'
  cases qs with
  | nil => cases h
  | cons q qs =>
    obtain ⟨nq, sq, fq⟩ := hq q (by simp)
    simp only [qConcat, Out.bind_eq_ok] at h h'
    obtain ⟨⟨r, l⟩, h1, h2⟩ := h
    obtain ⟨⟨r', l'⟩, h3, h4⟩ := h'
    cases r with
    | success b =>
      rw [sq _ _ _ h1] at h3
      cases h3
      exact fn_concatRest qs _ _ (fun q' h' => hq q' (by simp [h'])) _ _ _ h2 _ _ h4
    | recovered b es' => exact nq _ _ _ _ h1
    | failed b es' =>
      cases r' with
      | success b' => exact fq _ _ _ _ h1 _ _ h3
      | recovered b' es2 => exact concatRest_some qs _ _ _ _ _ h4
      | failed b' es2 => cases h4

theorem concatLast_some {E β γ : Type} {start : Nat} {f : β → γ} {qb : PSem E β} {es : List E}
    {i : Nat} {a : γ} {j : Nat} : concatLastSem true start f qb (some es) i ≠ .ok (.success a, j) := by
  intro h
  simp only [concatLastSem, Out.bind_eq_ok] at h
  obtain ⟨⟨r, l⟩, h1, h2⟩ := h
  cases r <;> simp [finishSem, extendRec] at h2

theorem fn_concatLast {E β γ : Type} {start : Nat} {f : β → γ} {qb : PSem E β}
    (hb : NR qb ∧ SM qb ∧ FN qb) {i x : Nat} {es : List E} {j : Nat}
    (h : concatLastSem false start f qb none i = .ok (.failed x es, j)) {a : γ} {k : Nat} :
    concatLastSem true start f qb none i ≠ .ok (.success a, k) := by
  intro h'
  simp only [concatLastSem, Out.bind_eq_ok] at h h'
  obtain ⟨⟨r, l⟩, h1, h2⟩ := h
  obtain ⟨⟨r', l'⟩, h3, h4⟩ := h'
  cases r with
  | success b => cases h2
  | recovered b es' => exact hb.1 _ _ _ _ h1
  | failed b es' =>
    cases r' with
    | success b' => exact hb.2.2 _ _ _ _ h1 _ _ h3
    | recovered b' es2 => simp [finishSem, extendRec] at h4
    | failed b' es2 => cases h4

theorem fn_concat2 {E α β γ : Type} {f : α × β → γ} {qa : PSem E α} {qb : PSem E β}
    (ha : NR qa ∧ SM qa ∧ FN qa) (hb : NR qb ∧ SM qb ∧ FN qb) : FN (qConcat2 f qa qb) := by
  intro i x es j h a k h'
  simp only [qConcat2, Out.bind_eq_ok] at h h'
  obtain ⟨⟨r, l⟩, h1, h2⟩ := h
  obtain ⟨⟨r', l'⟩, h3, h4⟩ := h'
  cases r with
  | success b =>
    rw [ha.2.1 _ _ _ h1] at h3
    cases h3
    exact fn_concatLast hb h2 h4
  | recovered b es' => exact ha.1 _ _ _ _ h1
  | failed b es' =>
    cases r' with
    | success b' => exact ha.2.2 _ _ _ _ h1 _ _ h3
    | recovered b' es2 => exact concatLast_some h4
    | failed b' es2 => cases h4

theorem concatMid_some {E β γ δ : Type} {start : Nat} {f : β × γ → δ} {qb : PSem E β}
    {qc : PSem E γ} {es : List E} {i : Nat} {a : δ} {j : Nat} :
    concatMidSem true start f qb qc (some es) i ≠ .ok (.success a, j) := by
  intro h
  simp only [concatMidSem, Out.bind_eq_ok] at h
  obtain ⟨⟨r, l⟩, h1, h2⟩ := h
  cases r with
  | success b => exact concatLast_some h2
  | recovered b es' => exact concatLast_some h2
  | failed b es' => cases h2

theorem fn_concatMid {E β γ δ : Type} {start : Nat} {f : β × γ → δ} {qb : PSem E β}
    {qc : PSem E γ} (hb : NR qb ∧ SM qb ∧ FN qb) (hc : NR qc ∧ SM qc ∧ FN qc) {i x : Nat}
    {es : List E} {j : Nat} (h : concatMidSem false start f qb qc none i = .ok (.failed x es, j))
    {a : δ} {k : Nat} : concatMidSem true start f qb qc none i ≠ .ok (.success a, k) := by
  intro h'
  simp only [concatMidSem, Out.bind_eq_ok] at h h'
  obtain ⟨⟨r, l⟩, h1, h2⟩ := h
  obtain ⟨⟨r', l'⟩, h3, h4⟩ := h'
  cases r with
  | success b =>
    rw [hb.2.1 _ _ _ h1] at h3
    cases h3
    exact fn_concatLast hc h2 h4
  | recovered b es' => exact hb.1 _ _ _ _ h1
  | failed b es' =>
    cases r' with
    | success b' => exact hb.2.2 _ _ _ _ h1 _ _ h3
    | recovered b' es2 => exact concatLast_some h4
    | failed b' es2 => cases h4

theorem fn_concat3 {E α β γ δ : Type} {f : α × β × γ → δ} {qa : PSem E α} {qb : PSem E β}
    {qc : PSem E γ} (ha : NR qa ∧ SM qa ∧ FN qa) (hb : NR qb ∧ SM qb ∧ FN qb)
    (hc : NR qc ∧ SM qc ∧ FN qc) : FN (qConcat3 f qa qb qc) := by
  intro i x es j h a k h'
  simp only [qConcat3, Out.bind_eq_ok] at h h'
  obtain ⟨⟨r, l⟩, h1, h2⟩ := h
  obtain ⟨⟨r', l'⟩, h3, h4⟩ := h'
  cases r with
  | success b =>
    rw [ha.2.1 _ _ _ h1] at h3
    cases h3
    exact fn_concatMid hb hc h2 h4
  | recovered b es' => exact ha.1 _ _ _ _ h1
  | failed b es' =>
    cases r' with
    | success b' => exact ha.2.2 _ _ _ _ h1 _ _ h3
    | recovered b' es2 => exact concatMid_some h4
    | failed b' es2 => cases h4

/-! ### Repetition -/

/-- Without a minimum a repetition does not fail. -/
theorem repItem_zero {E α : Type} {cfg : RepCfg} (h0 : cfg.minimum = 0) {item : PSem E α} {en : Bool}
    {start : Nat} {again : List α → Option (List E) → Nat → Out (Res (List α) E × Nat)}
    (ha : ∀ out r i x es j, again out r i ≠ .ok (.failed x es, j))
    {out : List α} {r : Option (List E)} {before : Option Nat} {i x : Nat} {es : List E} {j : Nat} :
    repItemSem cfg item en start again out r before i ≠ .ok (.failed x es, j) := by
  intro h
  unfold repItemSem at h
  split at h
  · unfold finishSem at h
    split at h
    · split at h <;> cases h
    · cases h
  · simp only [Out.bind_eq_ok] at h
    obtain ⟨⟨r, l⟩, h1, h2⟩ := h
    cases r with
    | success b => exact ha _ _ _ _ _ _ h2
    | recovered b es' => exact ha _ _ _ _ _ _ h2
    | failed b es' =>
      simp only [h0, Nat.zero_le, if_true] at h2
      cases h2

theorem repLoop_zero {E α β : Type} {cfg : RepCfg} (h0 : cfg.minimum = 0) {item : PSem E α}
    {sep : Option (PSem E β)} {en : Bool} {start : Nat} : ∀ (fuel : Nat) (out : List α)
    (r : Option (List E)) (i x : Nat) (es : List E) (j : Nat),
    repLoopSem cfg item sep en start fuel out r i ≠ .ok (.failed x es, j)
  | 0, _, _, _, _, _, _, h => by cases h
  | fuel + 1, out, r, i, x, es, j, h => by
    have ih := repLoop_zero h0 (item := item) (sep := sep) (en := en) (start := start) fuel
    unfold repLoopSem at h
    split at h
    · unfold finishSem at h
      split at h
      · split at h <;> cases h
      · cases h
    · simp only at h
      split at h
      · simp only [Out.bind_eq_ok] at h
        obtain ⟨⟨r, l⟩, h1, h2⟩ := h
        cases r with
        | success b => exact repItem_zero h0 ih h2
        | recovered b es' => exact repItem_zero h0 ih h2
        | failed b es' =>
          simp only [h0, Nat.zero_le, if_true] at h2
          split at h2
          · exact repItem_zero h0 ih h2
          · cases h2
      · exact repItem_zero h0 ih h

theorem RepCfg.Exact.lt {c : RepCfg} (h : c.Exact) {n : Nat}
    (hn : ¬(!c.allowTrailing && c.atMax n) = true) : n < c.minimum := by
  obtain ⟨m, h1, h2, h3⟩ := h
  simp only [h3, RepCfg.atMax, h1, Bool.not_false, Bool.true_and, decide_eq_true_eq] at hn
  omega

theorem repItem_exact_some {E α : Type} {cfg : RepCfg} {item : PSem E α}
    {start : Nat} {again : List α → Option (List E) → Nat → Out (Res (List α) E × Nat)}
    (ha : ∀ out es i a j, again out (some es) i ≠ .ok (.success a, j))
    {out : List α} (hl : out.length < cfg.minimum) {es : List E} {before : Option Nat} {i : Nat}
    {a : List α} {j : Nat} :
    repItemSem cfg item true start again out (some es) before i ≠ .ok (.success a, j) := by
  intro h
  unfold repItemSem at h
  split at h
  · simp [finishSem] at h
  · simp only [Out.bind_eq_ok] at h
    obtain ⟨⟨r, l⟩, h1, h2⟩ := h
    cases r with
    | success b => exact ha _ _ _ _ _ h2
    | recovered b es' => exact ha _ _ _ _ _ h2
    | failed b es' =>
      simp only [if_neg (Nat.not_le.2 hl)] at h2
      cases h2

theorem repLoop_exact_some {E α β : Type} {cfg : RepCfg} (hc : cfg.Exact) {item : PSem E α}
    {sep : Option (PSem E β)} {start : Nat} : ∀ (fuel : Nat) (out : List α)
    (es : List E) (i : Nat) (a : List α) (j : Nat),
    repLoopSem cfg item sep true start fuel out (some es) i ≠ .ok (.success a, j)
  | 0, _, _, _, _, _, h => by cases h
  | fuel + 1, out, es, i, a, j, h => by
    have ih := repLoop_exact_some hc (item := item) (sep := sep) (start := start) fuel
    unfold repLoopSem at h
    split at h
    · simp [finishSem] at h
    · rename_i hm
      have hl := hc.lt hm
      simp only at h
      split at h
      · simp only [Out.bind_eq_ok] at h
        obtain ⟨⟨r, l⟩, h1, h2⟩ := h
        cases r with
        | success b => exact repItem_exact_some ih hl h2
        | recovered b es' => exact repItem_exact_some ih hl h2
        | failed b es' =>
          simp only [if_neg (Nat.not_le.2 hl)] at h2
          split at h2
          · exact repItem_exact_some ih hl h2
          · cases h2
      · exact repItem_exact_some ih hl h

theorem repItem_exact {E α : Type} {cfg : RepCfg} (hc : cfg.Exact) {item : PSem E α}
    (hi : NR item ∧ SM item ∧ FN item)
    {start : Nat} {again again' : List α → Option (List E) → Nat → Out (Res (List α) E × Nat)}
    (ha : ∀ out i x es j, again out none i = .ok (.failed x es, j) → ∀ a k,
      again' out none i ≠ .ok (.success a, k))
    (hs : ∀ out es i a j, again' out (some es) i ≠ .ok (.success a, j))
    {out : List α} (hl : out.length < cfg.minimum) {before : Option Nat} {i x : Nat} {es : List E}
    {j : Nat} (h : repItemSem cfg item false start again out none before i = .ok (.failed x es, j))
    {a : List α} {k : Nat} :
    repItemSem cfg item true start again' out none before i ≠ .ok (.success a, k) := by
  intro h'
  unfold repItemSem at h h'
  have ht : ¬(cfg.allowTrailing && cfg.atMax out.length) = true := by
    obtain ⟨m, _, _, h3⟩ := hc
    simp [h3]
  rw [if_neg ht] at h h'
  simp only [decide_eq_true hl, Bool.and_true, Out.bind_eq_ok] at h h'
  obtain ⟨⟨r, l⟩, h1, h2⟩ := h
  obtain ⟨⟨r', l'⟩, h3, h4⟩ := h'
  cases r with
  | success b =>
    rw [hi.2.1 _ _ _ h1] at h3
    cases h3
    exact ha _ _ _ _ _ h2 _ _ h4
  | recovered b es' => exact hi.1 _ _ _ _ h1
  | failed b es' =>
    cases r' with
    | success b' => exact hi.2.2 _ _ _ _ h1 _ _ h3
    | recovered b' es2 => exact hs _ _ _ _ _ h4
    | failed b' es2 =>
      simp only [if_neg (Nat.not_le.2 hl)] at h4
      cases h4

theorem repLoop_exact {E α β : Type} {cfg : RepCfg} (hc : cfg.Exact) {item : PSem E α}
    {sep : Option (PSem E β)} (hi : NR item ∧ SM item ∧ FN item)
    (hs : ∀ q, sep = some q → NR q ∧ SM q ∧ FN q) {start : Nat} :
    ∀ (fuel : Nat) (out : List α) (i x : Nat) (es : List E) (j : Nat),
    repLoopSem cfg item sep false start fuel out none i = .ok (.failed x es, j) → ∀ a k,
    repLoopSem cfg item sep true start fuel out none i ≠ .ok (.success a, k)
  | 0, _, _, _, _, _, h => by cases h
  | fuel + 1, out, i, x, es, j, h => by
    intro a k h'
    have ih := repLoop_exact hc hi hs (start := start) fuel
    have is := repLoop_exact_some hc (item := item) (sep := sep) (start := start) fuel
    unfold repLoopSem at h h'
    split at h
    · cases h
    · rename_i hm
      rw [if_neg hm] at h'
      have hl := hc.lt hm
      cases sep with
      | none => exact repItem_exact hc hi ih is hl h h'
      | some q =>
        obtain ⟨nq, sq, fq⟩ := hs q rfl
        cases ho : (!out.isEmpty || cfg.allowLeading) with
        | false => rw [ho] at h h'; exact repItem_exact hc hi ih is hl h h'
        | true =>
          rw [ho] at h h'
          simp only [Bool.false_and, Bool.true_and, decide_eq_true hl, Out.bind_eq_ok] at h h'
          obtain ⟨⟨r, l⟩, h1, h2⟩ := h
          obtain ⟨⟨r', l'⟩, h3, h4⟩ := h'
          cases r with
          | success b =>
            have h5 : q (!out.isEmpty) i = .ok (.success b, l) := by
              cases !out.isEmpty
              · exact h1
              · exact sq _ _ _ h1
            rw [h5] at h3
            cases h3
            exact repItem_exact hc hi ih is hl h2 h4
          | recovered b es' => exact nq _ _ _ _ h1
          | failed b es' =>
            simp only [if_neg (Nat.not_le.2 hl)] at h2 h4
            split at h2
            · rename_i he
              rw [he] at h3
              simp only [Bool.not_true] at h3
              rw [h1] at h3
              cases h3
              simp only [if_pos he] at h4
              exact repItem_exact hc hi ih is hl h2 h4
            · rename_i he
              have he' : (!out.isEmpty) = true := by simpa using he
              rw [he'] at h3
              cases r' with
              | success b' => exact fq _ _ _ _ h1 _ _ h3
              | recovered b' es2 => exact repItem_exact_some is hl h4
              | failed b' es2 =>
                simp only [if_neg he] at h4
                cases h4

theorem fn_alternate {α : Type} {ε : ErrTy S} {qs : List (PSem ε.E α)} : FN (qAlternate ε qs) := by
  intro i x es j h a k h'
  simp only [qAlternate, Out.bind_eq_ok] at h h'
  obtain ⟨⟨r, l⟩, h1, h2⟩ := h
  obtain ⟨⟨r', l'⟩, h3, h4⟩ := h'
  rw [h1] at h3
  cases h3
  cases r with
  | inl o => cases h2
  | inr fails =>
    simp only at h4
    split at h4
    · cases h4
    · simp only [if_true, Out.bind_eq_ok] at h4
      obtain ⟨⟨r', l'⟩, h5, h6⟩ := h4
      cases r' with
      | none =>
        obtain ⟨_, _, _, h7, _⟩ := altCombine_failed h6
        cases h7
      | some r' =>
        cases h6
        have : ∀ (fs : List (FailSem ε.E α)) (i : Nat) (r : Res α ε.E) (j : Nat),
            altRecoverSem fs i = .ok (some r, j) → ∃ a es, r = .recovered a es := by
          intro fs
          induction fs with
          | nil => intro i r j h; cases h
          | cons f fs ih =>
            obtain ⟨y, es, q⟩ := f
            intro i r j h
            simp only [altRecoverSem, Out.bind_eq_ok] at h
            obtain ⟨⟨r, k⟩, h1, h2⟩ := h
            cases r with
            | success o => cases h2
            | recovered o es' => cases h2; exact ⟨_, _, rfl⟩
            | failed y' es' => exact ih _ _ _ h2
        obtain ⟨_, _, h7⟩ := this _ _ _ _ h5
        cases h7

theorem fn_toRecover {E α : Type} {q : PSem E α} {s : SSem E α} (hn : NR q) (hq : FN q) :
    FN (qToRecover q s) := by
  intro i x es j h a k h'
  simp only [qToRecover, Out.bind_eq_ok] at h h'
  obtain ⟨⟨r, l⟩, h1, h2⟩ := h
  obtain ⟨⟨r', l'⟩, h3, h4⟩ := h'
  cases r with
  | success b => cases h2
  | recovered b es' => exact hn _ _ _ _ h1
  | failed b es' =>
    cases r' with
    | success b' => exact hq _ _ _ _ h1 _ _ h3
    | recovered b' es2 => cases h4
    | failed b' es2 =>
      simp only [Bool.not_true, Bool.false_eq_true, if_false, Out.bind_eq_ok] at h4
      obtain ⟨fa, _, ⟨⟨o, fa', es''⟩, m⟩, _, h7⟩ := h4
      cases o <;> cases h7

section

variable {e : Env S} {ρ : QEnv S N} {F : N.K → Prop}

mutual

/-- In a coherent grammar failure without recovery is not success with recovery. -/
theorem G.fn (nρ : ∀ k, NR (ρ k)) (sρ : ∀ k, SM (ρ k)) (rρ : ∀ k, F k → RF (ρ k))
    (hρ : ∀ k, FN (ρ k)) (n : Nat) : ∀ {ε : ErrTy S} {α : Type} (g : G S N ε α),
    g.All (coherentL F) → FN (g.den e ρ n)
  | _, _, .empty, h => by rw [G.den]; exact .of_eq fun _ => rfl
  | _, _, .none _, h => by rw [G.den]; exact .of_eq fun _ => rfl
  | _, _, .eof, h => by rw [G.den]; exact .of_eq fun _ => rfl
  | _, _, .just t, h => by rw [G.den]; exact .of_eq fun _ => rfl
  | _, _, .filter p, h => by rw [G.den]; exact .of_eq fun _ => rfl
  | _, _, .filterMap f, h => by rw [G.den]; exact .of_eq fun _ => rfl
  | _, _, .seq v items, h => by rw [G.den]; exact .of_eq fun _ => rfl
  | _, _, .oneOf items, h => by rw [G.den]; exact .of_eq fun _ => rfl
  | _, _, .noneOf items, h => by rw [G.den]; exact .of_eq fun _ => rfl
  | _, _, .boxed g, h => by rw [G.All] at h; rw [G.den]; exact G.fn nρ sρ rρ hρ n g h.2
  | _, _, .withError g, h => by rw [G.All] at h; rw [G.den]; exact G.fn nρ sρ rρ hρ n g h.2
  | _, _, .to g v, h => by
    rw [G.All] at h; rw [G.den]; exact fn_map (G.fn nρ sρ rρ hρ n g h.2)
  | _, _, .some g, h => by
    rw [G.All] at h; rw [G.den]; exact fn_map (G.fn nρ sρ rρ hρ n g h.2)
  | _, _, .map f g, h => by
    rw [G.All] at h; rw [G.den]; exact fn_map (G.fn nρ sρ rρ hρ n g h.2)
  | _, _, .mapWithSpan f g, h => by
    rw [G.All] at h; rw [G.den]; exact fn_mapWithSpan (G.fn nρ sρ rρ hρ n g h.2)
  | _, _, .mapErr f g, h => by
    rw [G.All] at h; rw [G.den]; exact fn_mapErr (G.fn nρ sρ rρ hρ n g h.2)
  | _, _, .mapErrWithSpan f g, h => by
    rw [G.All] at h; rw [G.den]; exact fn_mapErrWithSpan (G.fn nρ sρ rρ hρ n g h.2)
  | _, _, .tryMap f g, h => by
    rw [G.All] at h; rw [G.den]; exact fn_tryMap (G.rf rρ n g h.1)
  | _, _, .then_ a b, h => by
    rw [G.All] at h; rw [G.den]
    exact fn_concat2 ⟨G.nr nρ n a, G.sm nρ sρ n a, G.fn nρ sρ rρ hρ n a h.2.1⟩
      ⟨G.nr nρ n b, G.sm nρ sρ n b, G.fn nρ sρ rρ hρ n b h.2.2⟩
  | _, _, .thenIgnore a b, h => by
    rw [G.All] at h; rw [G.den]
    exact fn_concat2 ⟨G.nr nρ n a, G.sm nρ sρ n a, G.fn nρ sρ rρ hρ n a h.2.1⟩
      ⟨G.nr nρ n b, G.sm nρ sρ n b, G.fn nρ sρ rρ hρ n b h.2.2⟩
  | _, _, .ignoreThen a b, h => by
    rw [G.All] at h; rw [G.den]
    exact fn_concat2 ⟨G.nr nρ n a, G.sm nρ sρ n a, G.fn nρ sρ rρ hρ n a h.2.1⟩
      ⟨G.nr nρ n b, G.sm nρ sρ n b, G.fn nρ sρ rρ hρ n b h.2.2⟩
  | _, _, .delimitedBy l m r, h => by
    rw [G.All] at h; rw [G.den]
    exact fn_concat3 ⟨G.nr nρ n l, G.sm nρ sρ n l, G.fn nρ sρ rρ hρ n l h.2.1⟩
      ⟨G.nr nρ n m, G.sm nρ sρ n m, G.fn nρ sρ rρ hρ n m h.2.2.1⟩
      ⟨G.nr nρ n r, G.sm nρ sρ n r, G.fn nρ sρ rρ hρ n r h.2.2.2⟩
  | _, _, .paddedBy p m, h => by
    rw [G.All] at h; rw [G.den]
    exact fn_concat3 ⟨G.nr nρ n p, G.sm nρ sρ n p, G.fn nρ sρ rρ hρ n p h.2.1⟩
      ⟨G.nr nρ n m, G.sm nρ sρ n m, G.fn nρ sρ rρ hρ n m h.2.2⟩
      ⟨G.nr nρ n p, G.sm nρ sρ n p, G.fn nρ sρ rρ hρ n p h.2.1⟩
  | _, _, .chain gs, h => by rw [G.All] at h; rw [G.den]; exact fn_concat (GL.fn nρ sρ rρ hρ n gs h.2)
  | _, _, .or a b, h => by rw [G.den]; exact fn_alternate
  | _, _, .orNot g, h => by rw [G.den]; exact fn_alternate
  | _, _, .alters gs, h => by rw [G.den]; exact fn_alternate
  | _, _, .repeated cfg item, h => by
    rw [G.All] at h; rw [G.den]
    rcases h.1 with h0 | h0 | h0
    · exact fun i x es j h => (repLoop_zero h0 _ _ _ _ _ _ _ h).elim
    · exact fun i x es j h' => repLoop_exact h0 ⟨G.nr nρ n item, G.sm nρ sρ n item, G.fn nρ sρ rρ hρ n item h.2⟩
        (fun q h => by cases h) n [] i x es j h'
    · exact (rf_repeat (G.rf rρ n item h0) (fun q h => by cases h)).fn
  | _, _, .separatedBy cfg item sep, h => by
    rw [G.All] at h; rw [G.den]
    rcases h.1 with h0 | h0 | ⟨h0, h0'⟩
    · exact fun i x es j h => (repLoop_zero h0 _ _ _ _ _ _ _ h).elim
    · refine fun i x es j h' => repLoop_exact h0
        ⟨G.nr nρ n item, G.sm nρ sρ n item, G.fn nρ sρ rρ hρ n item h.2.1⟩
        (fun q hq => ?_) n [] i x es j h'
      cases hq
      exact ⟨G.nr nρ n sep, G.sm nρ sρ n sep, G.fn nρ sρ rρ hρ n sep h.2.2⟩
    · refine (rf_repeat (G.rf rρ n item h0) (fun q hq => ?_)).fn
      cases hq
      exact G.rf rρ n sep h0'
  | _, _, .toRecover g st, h => by
    rw [G.All] at h; rw [G.den]; exact fn_toRecover (G.nr nρ n g) (G.fn nρ sρ rρ hρ n g h.2.1)
  | _, _, .call k, h => by rw [G.den]; exact hρ k

theorem GL.fn (nρ : ∀ k, NR (ρ k)) (sρ : ∀ k, SM (ρ k)) (rρ : ∀ k, F k → RF (ρ k))
    (hρ : ∀ k, FN (ρ k)) (n : Nat) : ∀ {ε : ErrTy S} {α : Type} (gs : GL S N ε α),
    gs.All (coherentL F) → ∀ q ∈ gs.den e ρ n, NR q ∧ SM q ∧ FN q
  | _, _, .nil, _, q, h => by rw [GL.den] at h; cases h
  | _, _, .cons g gs, hc, q, h => by
    rw [GL.All] at hc
    rw [GL.den] at h
    rcases List.mem_cons.1 h with h | h
    · rw [h]; exact ⟨G.nr nρ n g, G.sm nρ sρ n g, G.fn nρ sρ rρ hρ n g hc.1⟩
    · exact GL.fn nρ sρ rρ hρ n gs hc.2 q h

end

theorem callSem_fn {D : Defs S N} (hF : RecFreeNames F D) (hD : D.All (coherentL F)) :
    ∀ (n : Nat) (k : N.K), FN (callSem e D n k)
  | 0, k, i, x, es, j, h => by cases h
  | n + 1, k, i, x, es, j, h => by
    rw [callSem] at h ⊢
    cases hk : D k with
    | none => rw [hk] at h; cases h
    | some g =>
      rw [hk] at h
      exact G.fn (callSem_nr D n) (callSem_sm D n) (callSem_rf hF n) (callSem_fn hF hD n) n g
        (hD k g hk) _ _ _ _ h

theorem G.sem_fn {D : Defs S N} (hF : RecFreeNames F D) (hD : D.All (coherentL F)) (n : Nat)
    {ε : ErrTy S} {α : Type} (g : G S N ε α) (hg : g.All (coherentL F)) : FN (g.sem e D n) :=
  G.fn (callSem_nr D n) (callSem_sm D n) (callSem_rf hF n) (callSem_fn hF hD n) n g hg

end

end PPC
