import Verif.SemCost5

/-!
# Lower bounds for `map_err_with_span`
-/

namespace PPC

variable {S : Sig} {e : Env S}

section

variable {α E X : Type}

theorem mapErrs_calls {f : X → S.Span → E} {m : SavedState} : ∀ {es : List X} {c : Cursor} {x : List E × Cursor},
    (mapErrsWithSpan f m es).run (Cursor.step e) c = .ok x → es.length ≤ (mapErrsWithSpan f m es).calls (Cursor.step e) c
  | [], _, _, _ => Nat.zero_le _
  | a :: es, c, x, h => by
    replace h : (Prog.op (.spanningBackTo m) fun sp => (mapErrsWithSpan f m es).bind fun es' => .ret (f a sp :: es')).run
      (Cursor.step e) c = .ok x := h
    show es.length + 1 ≤ (Prog.op (.spanningBackTo m) fun sp => (mapErrsWithSpan f m es).bind fun es' => .ret (f a sp :: es')).calls
      (Cursor.step e) c
    rw [Prog.run] at h
    rw [Prog.calls]
    obtain ⟨y, h1, h2⟩ := Out.bind_eq_ok.1 h
    rw [h1]
    obtain ⟨z, h3, -⟩ := Out.bind_eq_ok.1 ((Prog.run_bind _ _ _ _).symm.trans h2)
    have h4 := mapErrs_calls h3
    have h5 := Prog.calls_le_bind (step := Cursor.step e) (mapErrsWithSpan f m es) (fun es' => .ret (f a y.1 :: es')) y.2
    show es.length + 1 ≤ 1 + _
    omega

/-- There is a call for every error. -/
theorem low_mapErrWithSpan {f : X → S.Span → E} {child : Parser S X α} {q : PSem X α} {en : Bool} {i j x : Nat} {es : List X}
    (hp : PRef e child q) (hw : PRef e (pMapErrWithSpan f child) (qMapErrWithSpan e f q))
    (hq : q en i = .ok (.failed x es, j)) : Low e (pMapErrWithSpan f child) en i es.length := fun c hc hi => by
  obtain ⟨c', h1, -⟩ := hw.run_of hc (g := (.failed x (es.map fun x => f x (e.spanOf i j)), j)) (by
    rw [hi]; unfold qMapErrWithSpan; rw [hq]; rfl)
  refine Nat.le_trans ?_ calls_withSave
  have hc1 : (c.saveIdx c.pos).2.WF e := hc.saveIdxWF hc.posLe
  obtain ⟨c2, h2, -⟩ := hp.run_of hc1 (show q en (c.saveIdx c.pos).2.pos = _ from hi ▸ hq)
  show es.length ≤ 1 + Prog.calls _ (Prog.bind _ _) _
  rw [Prog.calls_bind, h2]
  replace h1 : (Prog.op .save fun m => Prog.bind _ _).run (Cursor.step e) c = _ := h1
  rw [Prog.run] at h1
  obtain ⟨y, h3, h4⟩ := Out.bind_eq_ok.1 h1
  cases h3
  obtain ⟨y, h5, h5'⟩ := Out.bind_eq_ok.1 ((Prog.run_bind _ _ _ _).symm.trans h4)
  cases h5
  obtain ⟨y, h5, -⟩ := Out.bind_eq_ok.1 ((Prog.run_bind _ _ _ _).symm.trans h5')
  obtain ⟨z, h6, h7⟩ := Out.bind_eq_ok.1 ((Prog.run_bind _ _ _ _).symm.trans h5)
  cases h2.symm.trans h6
  obtain ⟨w, h8, -⟩ := Out.bind_eq_ok.1 ((Prog.run_bind _ _ _ _).symm.trans h7)
  have h9 := mapErrs_calls h8
  have h10 := Prog.calls_le_bind (step := Cursor.step e) (mapErrsWithSpan f (c.saveIdx c.pos).1 es)
    (fun es' => .ret (.failed x es' : Res α E)) c2
  show es.length ≤ 1 + (_ + Prog.calls _ (Prog.bind _ _) _)
  exact Nat.le_trans (Nat.le_trans h9 h10) (Nat.le_trans (Nat.le_add_left _ _) (Nat.le_add_left _ _))

theorem anyLoop {ε : ErrTy S} {p : S.I → Bool} (hp : ∀ t, p t = true) {en : Bool} {start L : Nat} (hL : Length e L) :
    ∀ (k fuel : Nat) (out : List S.I) (i : Nat), i + k = L → k < fuel → ∃ xs : List S.I, xs.length = k ∧
      repLoopSem {} (qFilter e ε p) (none : Option (PSem ε.E S.I)) en start fuel out none i = .ok (.success (out ++ xs), L)
  | 0, 0, _, _, _, h => by omega
  | k + 1, 0, _, _, _, h => by omega
  | 0, fuel + 1, out, i, hi, _ => by
    obtain rfl : i = L := hi
    refine ⟨[], rfl, ?_⟩
    rw [repLoopSem, if_neg (by simp [RepCfg.atMax])]
    show repItemSem _ _ _ _ _ _ _ _ _ = _
    unfold repItemSem
    rw [if_neg (by simp)]
    simp only [qFilter, hL.2]
    rw [List.append_nil]
    rfl
  | k + 1, fuel + 1, out, i, hi, hf => by
    obtain ⟨t, ht⟩ := Option.isSome_iff_exists.1 (hL.1 i (by omega))
    obtain ⟨xs, h1, h2⟩ := anyLoop (ε := ε) hp (en := en) (start := start) hL k fuel (out ++ [t]) (i + 1) (by omega) (by omega)
    refine ⟨t :: xs, by simp [h1], ?_⟩
    rw [repLoopSem, if_neg (by simp [RepCfg.atMax])]
    show repItemSem _ _ _ _ _ _ _ _ _ = _
    unfold repItemSem
    rw [if_neg (by simp)]
    simp only [qFilter, ht, if_pos (hp t)]
    refine h2.trans ?_
    rw [List.append_assoc]; rfl

end

end PPC
