import Verif.SpecWithout
import Verif.PropsFlag

/-!
# With recovery disabled, strategies do nothing (lemmas for C67)

With recovery disabled, every combinator runs its parts with recovery disabled, so that its meaning
depends on theirs only in this case (`off`).
-/

namespace PPC

variable {S : Sig} {N : Names S} {e : Env S} {ρ ρ' : QEnv S N} {E α β γ δ : Type}

theorem off_eq {q q' : PSem E α} (h : off q = off q') (i : Nat) : q false i = q' false i :=
  congrFun (congrFun h false) i

theorem off_of {q q' : PSem E α} (h : ∀ i, q false i = q' false i) : off q = off q' := by
  funext _ i; exact h i

theorem off_concatRest {start : Nat} : ∀ (qs : List (PSem E α)) (out : List α) (r : Option (List E)) (i : Nat),
    concatRestSem false start qs out r i = concatRestSem false start (qs.map off) out r i
  | [], _, _, _ => rfl
  | q :: qs, out, r, i => by
    simp only [concatRestSem, List.map_cons, off_concatRest qs]
    rfl

theorem off_concat {qs qs' : List (PSem E α)} (h : qs.map off = qs'.map off) : off (qConcat qs) = off (qConcat qs') := by
  have key : ∀ (qs : List (PSem E α)) i, qConcat qs false i = qConcat (qs.map off) false i := by
    intro qs i
    cases qs with
    | nil => rfl
    | cons q qs =>
      simp only [qConcat, List.map_cons, off_concatRest qs]
      rfl
  exact off_of fun i => by rw [key qs, key qs', h]

theorem off_concat2 {f : α × β → γ} {a a' : PSem E α} {b b' : PSem E β} (ha : off a = off a') (hb : off b = off b') :
    off (qConcat2 f a b) = off (qConcat2 f a' b') :=
  off_of fun i => by
    have key : ∀ (a : PSem E α) (b : PSem E β), qConcat2 f a b false i = qConcat2 f (off a) (off b) false i :=
      fun _ _ => rfl
    rw [key, key a', ha, hb]

theorem off_concat3 {f : α × β × γ → δ} {a a' : PSem E α} {b b' : PSem E β} {c c' : PSem E γ} (ha : off a = off a')
    (hb : off b = off b') (hc : off c = off c') : off (qConcat3 f a b c) = off (qConcat3 f a' b' c') :=
  off_of fun i => by
    have key : ∀ (a : PSem E α) (b : PSem E β) (c : PSem E γ),
        qConcat3 f a b c false i = qConcat3 f (off a) (off b) (off c) false i := fun _ _ _ => rfl
    rw [key, key a', ha, hb, hc]

theorem off_map {f : α → β} {q q' : PSem E α} (h : off q = off q') : off (qMap f q) = off (qMap f q') :=
  off_of fun i => by simp only [qMap, off_eq h]

theorem off_mapWithSpan {f : α → S.Span → β} {q q' : PSem E α} (h : off q = off q') :
    off (qMapWithSpan e f q) = off (qMapWithSpan e f q') :=
  off_of fun i => by simp only [qMapWithSpan, off_eq h]

theorem off_mapErr {X : Type} {f : X → E} {q q' : PSem X α} (h : off q = off q') :
    off (qMapErr f q) = off (qMapErr f q') :=
  off_of fun i => by simp only [qMapErr, off_eq h]

theorem off_mapErrWithSpan {X : Type} {f : X → S.Span → E} {q q' : PSem X α} (h : off q = off q') :
    off (qMapErrWithSpan e f q) = off (qMapErrWithSpan e f q') :=
  off_of fun i => by simp only [qMapErrWithSpan, off_eq h]

theorem off_tryMap {f : α → S.Span → TryMapResult β E} {q q' : PSem E α} (h : off q = off q') :
    off (qTryMap e f q) = off (qTryMap e f q') :=
  off_of fun i => by simp only [qTryMap, off_eq h]

theorem off_repLoop {cfg : RepCfg} {item : PSem E α} {sep : Option (PSem E β)} {start : Nat} :
    ∀ (fuel : Nat) (out : List α) (r : Option (List E)) (i : Nat), repLoopSem cfg item sep false start fuel out r i =
      repLoopSem cfg (off item) (sep.map off) false start fuel out r i
  | 0, _, _, _ => rfl
  | fuel + 1, out, r, i => by
    have ih : repLoopSem cfg item sep false start fuel =
        repLoopSem cfg (off item) (sep.map off) false start fuel := by
      funext out r i; exact off_repLoop fuel out r i
    have hr : ∀ again out r b i, repItemSem cfg item false start again out r b i =
        repItemSem cfg (off item) false start again out r b i := fun _ _ _ _ _ => rfl
    unfold repLoopSem
    rw [ih]
    simp only [hr]
    generalize (!out.isEmpty || cfg.allowLeading) = b
    cases sep <;> cases b <;> rfl

theorem off_repeat {fuel : Nat} {cfg : RepCfg} {item item' : PSem E α} {sep sep' : Option (PSem E β)}
    (hi : off item = off item') (hs : sep.map off = sep'.map off) :
    off (qRepeat fuel cfg item sep) = off (qRepeat fuel cfg item' sep') :=
  off_of fun i => by
    unfold qRepeat
    rw [off_repLoop, hi, hs, ← off_repLoop]

/-- A failed alternative, with recovery disabled. -/
def offFail (f : FailSem E α) : FailSem E α := (f.1, f.2.1, off f.2.2)

theorem off_altFirst : ∀ (qs : List (PSem E α)) (fails : List (FailSem E α)) (i : Nat),
    altFirstSem (qs.map off) (fails.map offFail) i = (altFirstSem qs fails i >>= fun x =>
      .ok (match x.1 with | .inl o => .inl o | .inr fs => .inr (fs.map offFail), x.2))
  | [], _, _ => rfl
  | q :: qs, fails, i => by
    have ih := fun x es j => off_altFirst qs (fails ++ [(x, es, q)]) j
    simp only [List.map_append, List.map_cons, List.map_nil] at ih
    simp only [altFirstSem, List.map_cons]
    show (q false i >>= _) = (q false i >>= _) >>= _
    cases q false i with
    | ok y =>
      obtain ⟨r, k⟩ := y
      cases r with
      | success o => rfl
      | recovered o es => rfl
      | failed x es => exact ih x es k
    | _ => rfl

theorem off_alternate {ε : ErrTy S} {qs qs' : List (PSem ε.E α)} (h : qs.map off = qs'.map off) :
    off (qAlternate ε qs) = off (qAlternate ε qs') := by
  have key : ∀ (qs : List (PSem ε.E α)) i, qAlternate ε qs false i = qAlternate ε (qs.map off) false i := by
    intro qs i
    have h1 := off_altFirst qs [] i
    simp only [List.map_nil] at h1
    simp only [qAlternate, h1]
    cases altFirstSem qs [] i with
    | ok y =>
      obtain ⟨r, k⟩ := y
      cases r with
      | inl o => rfl
      | inr fs =>
        simp only [Out.ok_bind, List.isEmpty_map]
        rw [sortDesc_map offFail (fun _ => rfl), List.map_map]
        rfl
    | _ => rfl
  exact off_of fun i => by rw [key qs, key qs', h]

theorem off_toRecover {q : PSem E α} {s : SSem E α} : off (qToRecover q s) = off q :=
  off_of fun i => by
    simp only [qToRecover]
    cases q false i with
    | ok y =>
      obtain ⟨r, k⟩ := y
      cases r <;> rfl
    | _ => rfl

mutual

theorem G.off_without (hρ : ∀ k, off (ρ k) = off (ρ' k)) (n : Nat) : ∀ {ε : ErrTy S} {α : Type} (g : G S N ε α),
    off (g.den e ρ n) = off (g.withoutRecovery.den e ρ' n)
  | _, _, .empty => rfl
  | _, _, .none _ => rfl
  | _, _, .eof => rfl
  | _, _, .just _ => rfl
  | _, _, .filter _ => rfl
  | _, _, .filterMap _ => rfl
  | _, _, .seq _ _ => rfl
  | _, _, .oneOf _ => rfl
  | _, _, .noneOf _ => rfl
  | _, _, .boxed g => by simp only [G.withoutRecovery, G.den]; exact g.off_without hρ n
  | _, _, .withError g => by simp only [G.withoutRecovery, G.den]; exact g.off_without hρ n
  | _, _, .to g v => by simp only [G.withoutRecovery, G.den]; exact off_map (g.off_without hρ n)
  | _, _, .some g => by simp only [G.withoutRecovery, G.den]; exact off_map (g.off_without hρ n)
  | _, _, .map f g => by simp only [G.withoutRecovery, G.den]; exact off_map (g.off_without hρ n)
  | _, _, .mapWithSpan f g => by simp only [G.withoutRecovery, G.den]; exact off_mapWithSpan (g.off_without hρ n)
  | _, _, .mapErr f g => by simp only [G.withoutRecovery, G.den]; exact off_mapErr (g.off_without hρ n)
  | _, _, .mapErrWithSpan f g => by simp only [G.withoutRecovery, G.den]; exact off_mapErrWithSpan (g.off_without hρ n)
  | _, _, .tryMap f g => by simp only [G.withoutRecovery, G.den]; exact off_tryMap (g.off_without hρ n)
  | _, _, .then_ a b => by
    simp only [G.withoutRecovery, G.den]; exact off_concat2 (a.off_without hρ n) (b.off_without hρ n)
  | _, _, .thenIgnore a b => by
    simp only [G.withoutRecovery, G.den]; exact off_concat2 (a.off_without hρ n) (b.off_without hρ n)
  | _, _, .ignoreThen a b => by
    simp only [G.withoutRecovery, G.den]; exact off_concat2 (a.off_without hρ n) (b.off_without hρ n)
  | _, _, .delimitedBy l m r => by
    simp only [G.withoutRecovery, G.den]
    exact off_concat3 (l.off_without hρ n) (m.off_without hρ n) (r.off_without hρ n)
  | _, _, .paddedBy p m => by
    simp only [G.withoutRecovery, G.den]
    exact off_concat3 (p.off_without hρ n) (m.off_without hρ n) (p.off_without hρ n)
  | _, _, .chain gs => by simp only [G.withoutRecovery, G.den]; exact off_concat (gs.off_without hρ n)
  | _, _, .or a b => by
    simp only [G.withoutRecovery, G.den]
    exact off_alternate (by simp only [List.map_cons, List.map_nil, a.off_without hρ n, b.off_without hρ n])
  | _, _, .orNot g => by
    simp only [G.withoutRecovery, G.den]
    exact off_alternate (by simp only [List.map_cons, List.map_nil, off_map (g.off_without hρ n)])
  | _, _, .alters gs => by simp only [G.withoutRecovery, G.den]; exact off_alternate (gs.off_without hρ n)
  | _, _, .repeated cfg item => by
    simp only [G.withoutRecovery, G.den]; exact off_repeat (item.off_without hρ n) rfl
  | _, _, .separatedBy cfg item sep => by
    simp only [G.withoutRecovery, G.den]
    exact off_repeat (item.off_without hρ n) (congrArg Option.some (sep.off_without hρ n))
  | _, _, .toRecover g st => by
    simp only [G.withoutRecovery, G.den]; exact off_toRecover.trans (g.off_without hρ n)
  | _, _, .call k => by simp only [G.withoutRecovery, G.den]; exact hρ k

theorem GL.off_without (hρ : ∀ k, off (ρ k) = off (ρ' k)) (n : Nat) : ∀ {ε : ErrTy S} {α : Type} (gs : GL S N ε α),
    (gs.den e ρ n).map off = (gs.withoutRecovery.den e ρ' n).map off
  | _, _, .nil => rfl
  | _, _, .cons g gs => by
    simp only [GL.withoutRecovery, GL.den, List.map_cons, g.off_without hρ n, gs.off_without hρ n]

end

theorem callSem_without (e : Env S) (D : Defs S N) : ∀ (n : Nat) (k : N.K),
    off (callSem e D n k) = off (callSem e D.withoutRecovery n k)
  | 0, _ => rfl
  | n + 1, k => off_of fun i => by
    simp only [callSem, Defs.withoutRecovery]
    cases D k with
    | none => rfl
    | some g => exact off_eq (G.off_without (callSem_without e D n) n g) i

/-- With recovery disabled, a parser does what it does without its strategies. -/
theorem G.sem_without (e : Env S) (D : Defs S N) (n : Nat) {ε : ErrTy S} (g : G S N ε α) (i : Nat) :
    g.sem e D n false i = g.withoutRecovery.sem e D.withoutRecovery n false i :=
  off_eq (G.off_without (callSem_without e D n) n g) i

end PPC
