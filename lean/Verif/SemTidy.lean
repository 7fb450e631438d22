import Verif.SpecPeg
import Verif.SemChoice
import Verif.SemRecovery

/-!
# Tidy parsers go back to where they started when they fail without recovery
-/

namespace PPC

variable {S : Sig} {N : Names S} {E α β γ δ : Type}

/-- When it fails without recovery, `q` leaves the position unchanged. -/
def RW (q : PSem E α) : Prop := ∀ i x es j, q false i = .ok (.failed x es, j) → j = i

theorem rw_map {f : α → β} {q : PSem E α} (h : RW q) : RW (qMap f q) := by
  intro i x es j hr
  simp only [qMap, Out.bind_eq_ok] at hr
  obtain ⟨⟨r', j'⟩, h1, h2⟩ := hr
  cases r' <;> cases h2
  exact h _ _ _ _ h1

theorem rw_mapWithSpan {e : Env S} {f : α → S.Span → β} {q : PSem E α} (h : RW q) :
    RW (qMapWithSpan e f q) := by
  intro i x es j hr
  simp only [qMapWithSpan, Out.bind_eq_ok] at hr
  obtain ⟨⟨r', j'⟩, h1, h2⟩ := hr
  cases r' <;> cases h2
  exact h _ _ _ _ h1

theorem rw_mapErr {X : Type} {f : X → E} {q : PSem X α} (h : RW q) : RW (qMapErr f q) := by
  intro i x es j hr
  simp only [qMapErr, Out.bind_eq_ok] at hr
  obtain ⟨⟨r', j'⟩, h1, h2⟩ := hr
  cases r' <;> cases h2
  exact h _ _ _ _ h1

theorem rw_mapErrWithSpan {e : Env S} {X : Type} {f : X → S.Span → E} {q : PSem X α} (h : RW q) :
    RW (qMapErrWithSpan e f q) := by
  intro i x es j hr
  simp only [qMapErrWithSpan, Out.bind_eq_ok] at hr
  obtain ⟨⟨r', j'⟩, h1, h2⟩ := hr
  cases r' <;> cases h2
  exact h _ _ _ _ h1

theorem rw_tryMap {e : Env S} {f : α → S.Span → TryMapResult β E} {q : PSem E α}
    (hf : ∀ a sp o es, f a sp ≠ .recovered o es) (hn : NR q) (h : RW q) : RW (qTryMap e f q) := by
  intro i x es j hr
  simp only [qTryMap, Out.bind_eq_ok] at hr
  obtain ⟨⟨r', j'⟩, h1, h2⟩ := hr
  cases r' with
  | success a =>
    simp only [tryMapStep] at h2
    split at h2
    · cases h2
    · split at h2 <;> cases h2
      rfl
    · rename_i o es he
      exact (hf _ _ _ _ he).elim
  | recovered a es => exact (hn _ _ _ _ h1).elim
  | failed y es => cases h2; exact h _ _ _ _ h1

theorem rw_concatLast {start : Nat} {f : β → γ} {q : PSem E β} (hn : NR q) {i x : Nat} {es : List E} {j : Nat}
    (hr : concatLastSem false start f q none i = .ok (.failed x es, j)) : j = start := by
  simp only [concatLastSem, Out.bind_eq_ok] at hr
  obtain ⟨⟨r', j'⟩, h1, h2⟩ := hr
  cases r' with
  | success a => cases h2
  | recovered a es => exact (hn _ _ _ _ h1).elim
  | failed x es => cases h2; rfl

theorem rw_concat2 {f : α × β → γ} {qa : PSem E α} {qb : PSem E β} (hna : NR qa) (hnb : NR qb) (h : RW qa) :
    RW (qConcat2 f qa qb) := by
  intro i x es j hr
  simp only [qConcat2, Out.bind_eq_ok] at hr
  obtain ⟨⟨r', j'⟩, h1, h2⟩ := hr
  cases r' with
  | success a => exact rw_concatLast hnb h2
  | recovered a es => exact (hna _ _ _ _ h1).elim
  | failed x es => cases h2; exact h _ _ _ _ h1

theorem rw_concat3 {f : α × β × γ → δ} {qa : PSem E α} {qb : PSem E β} {qc : PSem E γ} (hna : NR qa)
    (hnb : NR qb) (hnc : NR qc) (h : RW qa) : RW (qConcat3 f qa qb qc) := by
  intro i x es j hr
  simp only [qConcat3, Out.bind_eq_ok] at hr
  obtain ⟨⟨r', j'⟩, h1, h2⟩ := hr
  cases r' with
  | success a =>
    simp only [concatMidSem, Out.bind_eq_ok] at h2
    obtain ⟨⟨r2, j2⟩, h3, h4⟩ := h2
    cases r2 with
    | success b => exact rw_concatLast hnc h4
    | recovered b es => exact (hnb _ _ _ _ h3).elim
    | failed x es => cases h4; rfl
  | recovered a es => exact (hna _ _ _ _ h1).elim
  | failed x es => cases h2; exact h _ _ _ _ h1

theorem rw_concatRest {start : Nat} : ∀ (qs : List (PSem E α)), (∀ q ∈ qs, NR q) → ∀ (out : List α) (i : Nat)
      {x : Nat} {es : List E} {j : Nat},
      concatRestSem false start qs out none i = .ok (.failed x es, j) → j = start
  | [], _, out, i, x, es, j, h => by cases h
  | q :: qs, hn, out, i, x, es, j, h => by
    simp only [concatRestSem, Out.bind_eq_ok] at h
    obtain ⟨⟨r', j'⟩, h1, h2⟩ := h
    cases r' with
    | success a => exact rw_concatRest qs (fun q hq => hn q (List.mem_cons_of_mem _ hq)) _ _ h2
    | recovered a es => exact (hn q List.mem_cons_self _ _ _ _ h1).elim
    | failed x es => cases h2; rfl

theorem rw_concat {qs : List (PSem E α)} (hn : ∀ q ∈ qs, NR q) (h : ∀ q, qs.head? = some q → RW q) :
    RW (qConcat qs) := by
  intro i x es j hr
  cases qs with
  | nil => cases hr
  | cons q qs =>
    simp only [qConcat, Out.bind_eq_ok] at hr
    obtain ⟨⟨r', j'⟩, h1, h2⟩ := hr
    cases r' with
    | success a => exact rw_concatRest qs (fun q hq => hn q (List.mem_cons_of_mem _ hq)) _ _ h2
    | recovered a es => exact (hn q List.mem_cons_self _ _ _ _ h1).elim
    | failed x es => cases h2; exact h q rfl _ _ _ _ h1

theorem rw_altFirst : ∀ (qs : List (PSem E α)), (∀ q ∈ qs, RW q) → ∀ (fails fs : List (FailSem E α)) (i j : Nat),
    altFirstSem qs fails i = .ok (.inr fs, j) → j = i
  | [], _, fails, fs, i, j, h => by cases h; rfl
  | q :: qs, hq, fails, fs, i, j, h => by
    simp only [altFirstSem, Out.bind_eq_ok] at h
    obtain ⟨⟨r', j'⟩, h1, h2⟩ := h
    cases r' with
    | success a => cases h2
    | recovered a es => cases h2
    | failed x es =>
      rw [rw_altFirst qs (fun q hq' => hq q (List.mem_cons_of_mem _ hq')) _ _ _ _ h2]
      exact hq q List.mem_cons_self _ _ _ _ h1

theorem rw_alternate {ε : ErrTy S} {qs : List (PSem ε.E α)} (h : ∀ q ∈ qs, RW q) : RW (qAlternate ε qs) := by
  intro i x es j hr
  simp only [qAlternate, Out.bind_eq_ok] at hr
  obtain ⟨⟨y, k⟩, h1, h2⟩ := hr
  cases y with
  | inl o => cases h2
  | inr fs =>
    have := rw_altFirst qs h _ _ _ _ h1
    subst this
    simp only at h2
    split at h2
    · cases h2
    · simp only [Bool.false_eq_true, if_false] at h2
      exact (altCombine_failed h2).1

theorem rw_repItem {c : RepCfg} {item : PSem E α} (hn : NR item) {start : Nat}
    {again : List α → Option (List E) → Nat → Out (Res (List α) E × Nat)}
    (ha : ∀ out i x es j, again out none i = .ok (.failed x es, j) → j = start) {out : List α}
    {before : Option Nat} {i : Nat} {x : Nat} {es : List E} {j : Nat}
    (h : repItemSem c item false start again out none before i = .ok (.failed x es, j)) : j = start := by
  unfold repItemSem at h
  split at h
  · cases h
  · simp only [Out.bind_eq_ok, Bool.false_and] at h
    obtain ⟨⟨r', j'⟩, h1, h2⟩ := h
    cases r' with
    | success a => exact ha _ _ _ _ _ h2
    | recovered a es => exact (hn _ _ _ _ h1).elim
    | failed x es =>
      simp only at h2
      split at h2
      · cases h2
      · cases h2; rfl

theorem rw_repLoop {c : RepCfg} {item : PSem E α} {sep : Option (PSem E β)} (hn : NR item)
    (hs : ∀ q, sep = some q → NR q) {start : Nat} : ∀ (fuel : Nat) (out : List α) (i : Nat) (x : Nat)
      (es : List E) (j : Nat), repLoopSem c item sep false start fuel out none i = .ok (.failed x es, j) → j = start
  | 0, _, _, _, _, _, h => by cases h
  | fuel + 1, out, i, x, es, j, h => by
    have ih := rw_repLoop hn hs (start := start) (c := c) fuel
    unfold repLoopSem at h
    split at h
    · cases h
    · simp only at h
      split at h
      · rename_i _ _ q hb
        simp only [Out.bind_eq_ok, Bool.false_and] at h
        obtain ⟨⟨r', j'⟩, h1, h2⟩ := h
        cases r' with
        | success a => exact rw_repItem hn ih h2
        | recovered a es => exact (hs q rfl _ _ _ _ h1).elim
        | failed x es =>
          simp only at h2
          split at h2
          · exact rw_repItem hn ih h2
          · split at h2 <;> cases h2
            rfl
      · exact rw_repItem hn ih h

theorem rw_repeat {c : RepCfg} {item : PSem E α} {sep : Option (PSem E β)} (hn : NR item)
    (hs : ∀ q, sep = some q → NR q) {fuel : Nat} : RW (qRepeat fuel c item sep) := by
  intro i x es j h
  exact rw_repLoop hn hs fuel [] i x es j h

theorem rw_toRecover {q : PSem E α} {st : SSem E α} (hn : NR q) (h : RW q) : RW (qToRecover q st) := by
  intro i x es j hr
  simp only [qToRecover, Out.bind_eq_ok] at hr
  obtain ⟨⟨r', j'⟩, h1, h2⟩ := hr
  cases r' with
  | success a => cases h2
  | recovered a es => exact (hn _ _ _ _ h1).elim
  | failed x es => cases h2; exact h _ _ _ _ h1

section

variable {e : Env S} {D : Defs S N} {ρ : QEnv S N}

mutual

/-- Tidy parsers go back. -/
theorem G.rw (hn : ∀ k, NR (ρ k)) (hρ : ∀ k, RW (ρ k)) (n : Nat) :
    ∀ {ε : ErrTy S} {α : Type} (g : G S N ε α), g.All (plainL S N) → g.Tidy → RW (g.den e ρ n)
  | _, _, .empty, _, _ => by rw [G.den]; intro i x es j h; cases h
  | _, _, .none _, _, _ => by rw [G.den]; intro i x es j h; cases h
  | _, _, .eof, _, _ => by
    rw [G.den]; intro i x es j h
    unfold qEnd at h
    split at h <;> cases h
    rfl
  | _, _, .just t, _, _ => by
    rw [G.den]; intro i x es j h
    unfold qJust at h
    split at h <;> cases h
    rfl
  | _, _, .filter p, _, _ => by
    rw [G.den]; intro i x es j h
    unfold qFilter at h
    split at h
    · split at h <;> cases h
      rfl
    · cases h; rfl
  | _, _, .filterMap f, _, _ => by
    rw [G.den]; intro i x es j h
    unfold qFilterMap at h
    split at h <;> cases h
    rfl
  | _, _, .seq v items, _, _ => by
    rw [G.den]; intro i x es j h
    unfold qSeq at h
    split at h <;> cases h
    rfl
  | _, _, .oneOf items, _, _ => by
    rw [G.den]; intro i x es j h
    unfold qOneOf at h
    split at h
    · split at h <;> cases h
      rfl
    · cases h; rfl
  | _, _, .noneOf items, _, _ => by
    rw [G.den]; intro i x es j h
    unfold qNoneOf at h
    split at h
    · split at h <;> cases h
      rfl
    · cases h; rfl
  | _, _, .boxed g, h, ht => by
    rw [G.All] at h; rw [G.Tidy] at ht; rw [G.den]; exact G.rw hn hρ n g h.2 ht
  | _, _, .withError g, h, ht => by
    rw [G.All] at h; rw [G.Tidy] at ht; rw [G.den]; exact G.rw hn hρ n g h.2 ht
  | _, _, .to g v, h, ht => by
    rw [G.All] at h; rw [G.Tidy] at ht; rw [G.den]; exact rw_map (G.rw hn hρ n g h.2 ht)
  | _, _, .some g, h, ht => by
    rw [G.All] at h; rw [G.Tidy] at ht; rw [G.den]; exact rw_map (G.rw hn hρ n g h.2 ht)
  | _, _, .map f g, h, ht => by
    rw [G.All] at h; rw [G.Tidy] at ht; rw [G.den]; exact rw_map (G.rw hn hρ n g h.2 ht)
  | _, _, .mapWithSpan f g, h, ht => by
    rw [G.All] at h; rw [G.Tidy] at ht; rw [G.den]; exact rw_mapWithSpan (G.rw hn hρ n g h.2 ht)
  | _, _, .mapErr f g, h, ht => by
    rw [G.All] at h; rw [G.Tidy] at ht; rw [G.den]; exact rw_mapErr (G.rw hn hρ n g h.2 ht)
  | _, _, .mapErrWithSpan f g, h, ht => by
    rw [G.All] at h; rw [G.Tidy] at ht; rw [G.den]; exact rw_mapErrWithSpan (G.rw hn hρ n g h.2 ht)
  | _, _, .tryMap f g, h, ht => by
    rw [G.All] at h; rw [G.Tidy] at ht; rw [G.den]
    exact rw_tryMap ht.1 (G.nr hn n g) (G.rw hn hρ n g h.2 ht.2)
  | _, _, .then_ a b, h, ht => by
    rw [G.All] at h; rw [G.Tidy] at ht; rw [G.den]
    exact rw_concat2 (G.nr hn n a) (G.nr hn n b) (G.rw hn hρ n a h.2.1 ht)
  | _, _, .thenIgnore a b, h, ht => by
    rw [G.All] at h; rw [G.Tidy] at ht; rw [G.den]
    exact rw_concat2 (G.nr hn n a) (G.nr hn n b) (G.rw hn hρ n a h.2.1 ht)
  | _, _, .ignoreThen a b, h, ht => by
    rw [G.All] at h; rw [G.Tidy] at ht; rw [G.den]
    exact rw_concat2 (G.nr hn n a) (G.nr hn n b) (G.rw hn hρ n a h.2.1 ht)
  | _, _, .delimitedBy l m r, h, ht => by
    rw [G.All] at h; rw [G.Tidy] at ht; rw [G.den]
    exact rw_concat3 (G.nr hn n l) (G.nr hn n m) (G.nr hn n r) (G.rw hn hρ n l h.2.1 ht)
  | _, _, .paddedBy p m, h, ht => by
    rw [G.All] at h; rw [G.Tidy] at ht; rw [G.den]
    exact rw_concat3 (G.nr hn n p) (G.nr hn n m) (G.nr hn n p) (G.rw hn hρ n p h.2.1 ht)
  | _, _, .chain gs, h, ht => by
    rw [G.All] at h; rw [G.Tidy] at ht; rw [G.den]
    exact rw_concat (GL.nr hn n gs) ((GL.rw hn hρ n gs h.2).1 ht)
  | _, _, .or a b, h, ht => by
    rw [G.All] at h; rw [G.Tidy] at ht; rw [G.den]
    refine rw_alternate fun q hq => ?_
    simp only [List.mem_cons, List.not_mem_nil, or_false] at hq
    rcases hq with rfl | rfl
    · exact G.rw hn hρ n a h.2.1 h.1
    · exact G.rw hn hρ n b h.2.2 ht
  | _, _, .orNot g, h, ht => by
    rw [G.All] at h; rw [G.den]
    refine rw_alternate fun q hq => ?_
    simp only [List.mem_cons, List.not_mem_nil, or_false] at hq
    rcases hq with rfl | rfl
    · exact rw_map (G.rw hn hρ n g h.2 h.1)
    · intro i x es j h; cases h
  | _, _, .alters gs, h, ht => by
    rw [G.All] at h; rw [G.Tidy] at ht; rw [G.den]
    exact rw_alternate ((GL.rw hn hρ n gs h.2).2.1 h.1.2 ht)
  | _, _, .repeated c g, h, ht => by
    rw [G.den]
    exact rw_repeat (G.nr hn n g) (fun q h => by cases h)
  | _, _, .separatedBy c g sep, h, ht => by
    rw [G.den]
    refine rw_repeat (G.nr hn n g) (fun q h => ?_)
    cases h
    exact G.nr hn n sep
  | _, _, .toRecover g st, h, ht => by
    rw [G.All] at h; rw [G.Tidy] at ht; rw [G.den]
    exact rw_toRecover (G.nr hn n g) (G.rw hn hρ n g h.2.1 ht)
  | _, _, .call k, _, _ => by rw [G.den]; exact hρ k

theorem GL.rw (hn : ∀ k, NR (ρ k)) (hρ : ∀ k, RW (ρ k)) (n : Nat) :
    ∀ {ε : ErrTy S} {α : Type} (gs : GL S N ε α), gs.All (plainL S N) →
      (gs.HeadTidy → ∀ q, (gs.den e ρ n).head? = Option.some q → RW q) ∧
      (gs.InitTidy → gs.LastTidy → ∀ q ∈ gs.den e ρ n, RW q) ∧
      (gs.InitTidy → ∀ q ∈ (gs.den e ρ n).dropLast, RW q)
  | _, _, .nil, _ => by
    rw [GL.den]
    refine ⟨fun _ q h => ?_, fun _ _ q h => ?_, fun _ q h => ?_⟩
    all_goals cases h
  | _, _, .cons g .nil, h => by
    rw [GL.All] at h; rw [GL.den, GL.den]
    refine ⟨fun ht q hq => ?_, fun _ ht q hq => ?_, fun _ q hq => nomatch hq⟩
    · cases hq; rw [GL.HeadTidy] at ht; exact G.rw hn hρ n g h.1 ht
    · rw [GL.LastTidy] at ht
      rw [List.mem_singleton.1 hq]; exact G.rw hn hρ n g h.1 ht
  | _, _, .cons g (.cons g' gs), h => by
    rw [GL.All] at h
    have ih := GL.rw hn hρ n (.cons g' gs) h.2
    rw [GL.den]
    refine ⟨fun ht q hq => ?_, fun hi ht q hq => ?_, fun hi q hq => ?_⟩
    · cases hq; rw [GL.HeadTidy] at ht; exact G.rw hn hρ n g h.1 ht
    · rw [GL.InitTidy] at hi; rw [GL.LastTidy] at ht
      rcases List.mem_cons.1 hq with rfl | hq
      · exact G.rw hn hρ n g h.1 hi.1
      · exact ih.2.1 hi.2 ht q hq
    · rw [GL.InitTidy] at hi
      rw [GL.den, List.dropLast_cons_cons] at hq
      rcases List.mem_cons.1 hq with rfl | hq
      · exact G.rw hn hρ n g h.1 hi.1
      · refine ih.2.2 hi.2 q ?_
        rw [GL.den]; exact hq

end

theorem callSem_rw (hD : D.Plain) : ∀ (n : Nat) (k : N.K), RW (callSem e D n k)
  | 0, k, i, x, es, j, h => by cases h
  | n + 1, k, i, x, es, j, h => by
    rw [callSem] at h
    cases hk : D k with
    | none => rw [hk] at h; cases h
    | some g =>
      rw [hk] at h
      exact G.rw (callSem_nr D n) (callSem_rw hD n) n g (hD k g hk).1 (hD k g hk).2 _ _ _ _ h

/-- Tidy parsers go back. -/
theorem G.sem_rw (hD : D.Plain) (n : Nat) {ε : ErrTy S} {α : Type} (g : G S N ε α)
    (hg : g.All (plainL S N)) (ht : g.Tidy) : RW (g.den e (callSem e D n) n) :=
  G.rw (callSem_nr D n) (callSem_rw hD n) n g hg ht

end

end PPC
