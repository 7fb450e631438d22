import Verif.SemSeq

/-!
# Repetition on the positional semantics: lemmas
-/

namespace PPC

variable {S : Sig} {E α β : Type}

/-- Add the errors of a part to those gathered so far. -/
def addRec (r : Option (List E)) (es : List E) (rec : Bool) : Option (List E) :=
  if rec then extendRec r es else r

theorem addRec_addRec {r : Option (List E)} {es1 es2 : List E} {r1 r2 : Bool}
    (h1 : r1 = false → es1 = []) (h2 : r2 = false → es2 = []) :
    addRec (addRec r es1 r1) es2 r2 = addRec r (es1 ++ es2) (r1 || r2) := by
  cases r1 <;> cases r2 <;> cases r <;> simp_all [addRec, extendRec]

theorem addRec_false {r : Option (List E)} {es : List E} : addRec r es false = r := rfl

theorem recErrs_addRec {r : Option (List E)} {es : List E} {rec : Bool} (h : rec = false → es = []) :
    recErrs (addRec r es rec) = recErrs r ++ es ∧ (addRec r es rec).isSome = (r.isSome || rec) := by
  cases rec with
  | false => simp [addRec, h rfl]
  | true => simp [addRec, recErrs_extend]

theorem GivesO.errs {x : Out (Res α E × Nat)} {o : α} {es : List E} {rec : Bool} {j : Nat}
    (h : GivesO x o es rec j) : rec = false → es = [] := by
  rcases h with ⟨_, h, _⟩ | ⟨h, _⟩
  · exact fun _ => h
  · intro h'; rw [h] at h'; cases h'

/-- Case analysis on the result of a part. -/
theorem part_P {x : Out (Res α E × Nat)} {r : Option (List E)} {res : Res β E × Nat}
    {body : Res α E × Nat → Out (Res β E × Nat)}
    {ks : Option (List E) → α → Nat → Out (Res β E × Nat)}
    {fail : Nat → List E → Nat → Out (Res β E × Nat)}
    (hb1 : ∀ a k, body (.success a, k) = ks r a k)
    (hb2 : ∀ a es' k, body (.recovered a es', k) = ks (extendRec r es') a k)
    (hb3 : ∀ y es' k, body (.failed y es', k) = fail y es' k) :
    (x >>= body) = .ok res ↔
      (∃ a es1 r1 k, GivesO x a es1 r1 k ∧ ks (addRec r es1 r1) a k = .ok res) ∨
      ∃ y ed k, x = .ok (.failed y ed, k) ∧ fail y ed k = .ok res := by
  cases x with
  | ok x =>
    obtain ⟨rr, k⟩ := x
    simp only [Out.ok_bind]
    cases rr with
    | success a =>
      rw [hb1]
      constructor
      · intro h
        exact .inl ⟨a, [], false, k, givesO_success.2 ⟨rfl, rfl, rfl, rfl⟩, h⟩
      · rintro (⟨a', es1, r1, k', h1, h2⟩ | ⟨y, ed, k', h1, h2⟩)
        · obtain ⟨rfl, rfl, rfl, rfl⟩ := givesO_success.1 h1
          exact h2
        · cases h1
    | recovered a es' =>
      rw [hb2]
      constructor
      · intro h
        exact .inl ⟨a, es', true, k, givesO_recovered.2 ⟨rfl, rfl, rfl, rfl⟩, h⟩
      · rintro (⟨a', es1, r1, k', h1, h2⟩ | ⟨y, ed, k', h1, h2⟩)
        · obtain ⟨rfl, rfl, rfl, rfl⟩ := givesO_recovered.1 h1
          exact h2
        · cases h1
    | failed y es' =>
      rw [hb3]
      constructor
      · intro h; exact .inr ⟨y, es', k, rfl, h⟩
      · rintro (⟨a', es1, r1, k', h1, h2⟩ | ⟨y, ed, k', h1, h2⟩)
        · exact (givesO_failed.1 h1).elim
        · cases h1; exact h2
  | panic m => simp [givesO_panic]
  | oof => simp [givesO_oof]
  | stuck => simp [givesO_stuck]

section

variable (cfg : RepCfg) (item : PSem E α) (sep : Option (PSem E β)) (en : Bool)

/-- Is a separator tried when there are `m` items? -/
def RepCfg.triesSep {γ : Type} (cfg : RepCfg) (sep : Option γ) (m : Nat) : Bool :=
  sep.isSome && (m != 0 || cfg.allowLeading)

/-- The recovery flag when there are `m` items. -/
def RepCfg.flag (cfg : RepCfg) (en : Bool) (m : Nat) : Bool := en && decide (m < cfg.minimum)

/-- From position `i`, with `m` items so far, to the position `b` where the next item is
tried, past a separator if one is to be there. -/
def RoundO (m i b : Nat) (es : List E) (rec : Bool) : Prop :=
  (cfg.triesSep sep m = false ∧ b = i ∧ es = [] ∧ rec = false) ∨
  (cfg.triesSep sep m = true ∧ ∃ sp, sep = some sp ∧
    ((∃ v, GivesO (sp (cfg.flag en m && m != 0) i) v es rec b) ∨
     (m = 0 ∧ es = [] ∧ rec = false ∧ ∃ x ed, sp false i = .ok (.failed x ed, b))))

/-- Items from number `m` on. -/
def ItemsO : Nat → Nat → List α → List E → Bool → Nat → Prop
  | _, i, [], es, rec, k => k = i ∧ es = [] ∧ rec = false
  | m, i, o :: os, es, rec, k => cfg.atMax m = false ∧ ∃ b es1 r1 es2 r2 l es3 r3,
      RoundO cfg sep en m i b es1 r1 ∧ GivesO (item (cfg.flag en m) b) o es2 r2 l ∧
      ItemsO (m + 1) l os es3 r3 k ∧ es = es1 ++ (es2 ++ es3) ∧ rec = (r1 || (r2 || r3))

/-- How the loop ends. -/
def EndO (st : Nat) (out : List α) (r : Option (List E)) (k : Nat) (res : Res (List α) E)
    (j : Nat) : Prop :=
  (cfg.allowTrailing = false ∧ cfg.atMax out.length = true ∧ finishSem en out r k = .ok (res, j)) ∨
  (cfg.allowTrailing = true ∧ cfg.atMax out.length = true ∧
    ∃ b es1 r1, RoundO cfg sep en out.length k b es1 r1 ∧
      finishSem en out (addRec r es1 r1) b = .ok (res, j)) ∨
  (out.length ≠ 0 ∧ (cfg.allowTrailing = true ∨ cfg.atMax out.length = false) ∧
    ∃ sp x ed l, sep = some sp ∧ sp (cfg.flag en out.length) k = .ok (.failed x ed, l) ∧
      ((cfg.minimum ≤ out.length ∧ res = .success out ∧ j = l) ∨
       (out.length < cfg.minimum ∧ res = .failed x ed ∧ j = st))) ∨
  (cfg.atMax out.length = false ∧
    ∃ b es1 r1 x ed l, RoundO cfg sep en out.length k b es1 r1 ∧
      item (cfg.flag en out.length) b = .ok (.failed x ed, l) ∧
      ((cfg.minimum ≤ out.length ∧ res = .success out ∧
        j = if cfg.triesSep sep out.length && !cfg.allowTrailing then k else l) ∨
       (out.length < cfg.minimum ∧ res = .failed x ed ∧ j = st)))

end

variable {cfg : RepCfg} {item : PSem E α} {sep : Option (PSem E β)} {en : Bool}

/-- Does not end at a position that depends on the separator. -/
def restPos (cfg : RepCfg) (before : Option Nat) (l : Nat) : Nat :=
  match before with
  | some b => if cfg.allowTrailing then l else b
  | none => l

theorem repItem_iff {st : Nat} {again : List α → Option (List E) → Nat → Out (Res (List α) E × Nat)}
    {out : List α} {r : Option (List E)} {before : Option Nat} {i : Nat} {res : Res (List α) E × Nat} :
    repItemSem cfg item en st again out r before i = .ok res ↔
      (cfg.allowTrailing = true ∧ cfg.atMax out.length = true ∧ finishSem en out r i = .ok res) ∨
      ((cfg.allowTrailing = false ∨ cfg.atMax out.length = false) ∧
        ((∃ o es1 r1 l, GivesO (item (cfg.flag en out.length) i) o es1 r1 l ∧
          again (out ++ [o]) (addRec r es1 r1) l = .ok res) ∨
        ∃ x ed l, item (cfg.flag en out.length) i = .ok (.failed x ed, l) ∧
          ((cfg.minimum ≤ out.length ∧ res = (.success out, restPos cfg before l)) ∨
           (out.length < cfg.minimum ∧ res = (.failed x ed, st))))) := by
  unfold repItemSem
  by_cases hc : (cfg.allowTrailing && cfg.atMax out.length) = true
  · rw [if_pos hc]
    simp only [Bool.and_eq_true] at hc
    simp [hc.1, hc.2]
  · rw [if_neg hc]
    have hc' : cfg.allowTrailing = false ∨ cfg.atMax out.length = false := by
      cases h1 : cfg.allowTrailing <;> cases h2 : cfg.atMax out.length <;> simp_all
    have hc'' : ¬(cfg.allowTrailing = true ∧ cfg.atMax out.length = true) := by
      rintro ⟨h1, h2⟩; rcases hc' with h | h <;> simp_all
    rw [part_P (r := r) (ks := fun r o l => again (out ++ [o]) r l)
      (fail := fun x ed l => if cfg.minimum ≤ out.length then
        .ok (.success out, restPos cfg before l) else .ok (.failed x ed, st))
      (fun _ _ => rfl) (fun _ _ _ => rfl) (fun _ _ _ => rfl)]
    constructor
    · rintro (h | ⟨x, ed, l, h1, h2⟩)
      · exact .inr ⟨hc', .inl h⟩
      · refine .inr ⟨hc', .inr ⟨x, ed, l, h1, ?_⟩⟩
        split at h2
        · rename_i hm; cases h2; exact .inl ⟨hm, rfl⟩
        · rename_i hm; cases h2; exact .inr ⟨by omega, rfl⟩
    · rintro (⟨h1, h2, _⟩ | ⟨_, h | ⟨x, ed, l, h1, h2⟩⟩)
      · exact (hc'' ⟨h1, h2⟩).elim
      · exact .inl h
      · refine .inr ⟨x, ed, l, h1, ?_⟩
        rcases h2 with ⟨hm, rfl⟩ | ⟨hm, rfl⟩
        · rw [if_pos hm]
        · rw [if_neg (by omega)]

/-- One iteration. -/
theorem repLoop_step {st fuel : Nat} {out : List α} {r : Option (List E)} {i : Nat}
    {res : Res (List α) E} {j : Nat} :
    repLoopSem cfg item sep en st (fuel + 1) out r i = .ok (res, j) ↔
      EndO cfg item sep en st out r i res j ∨
      (cfg.atMax out.length = false ∧ ∃ b es1 r1 o es2 r2 l,
        RoundO cfg sep en out.length i b es1 r1 ∧
        GivesO (item (cfg.flag en out.length) b) o es2 r2 l ∧
        repLoopSem cfg item sep en st fuel (out ++ [o]) (addRec (addRec r es1 r1) es2 r2) l =
          .ok (res, j)) := by
  conv => lhs; unfold repLoopSem
  by_cases hc : (!cfg.allowTrailing && cfg.atMax out.length) = true
  · rw [if_pos hc]
    simp only [Bool.and_eq_true, Bool.not_eq_true'] at hc
    constructor
    · intro h; exact .inl (.inl ⟨hc.1, hc.2, h⟩)
    · rintro ((⟨_, _, h⟩ | ⟨h, _⟩ | ⟨_, h, _⟩ | ⟨h, _⟩) | ⟨h, _⟩)
      · exact h
      · rw [hc.1] at h; cases h
      · rcases h with h | h
        · rw [hc.1] at h; cases h
        · rw [hc.2] at h; cases h
      · rw [hc.2] at h; cases h
      · rw [hc.2] at h; cases h
  · rw [if_neg hc]
    have hc' : cfg.allowTrailing = true ∨ cfg.atMax out.length = false := by
      cases h1 : cfg.allowTrailing <;> cases h2 : cfg.atMax out.length <;> simp_all
    have hna : ¬(cfg.allowTrailing = false ∧ cfg.atMax out.length = true) := by
      rintro ⟨h1, h2⟩; rcases hc' with h | h <;> simp_all
    have hemp : (out.isEmpty = false) ↔ out.length ≠ 0 := by cases out <;> simp
    have hemp' : (!out.isEmpty) = (out.length != 0) := by cases out <;> simp
    -- the item part, in terms of EndO
    have hitem : ∀ {b : Nat} {es1 : List E} {r1 : Bool}, RoundO cfg sep en out.length i b es1 r1 →
        ∀ {before : Option Nat}, before = (if cfg.triesSep sep out.length then some i else none) →
        (repItemSem cfg item en st (repLoopSem cfg item sep en st fuel) out (addRec r es1 r1) before b =
          .ok (res, j) →
        EndO cfg item sep en st out r i res j ∨
        (cfg.atMax out.length = false ∧ ∃ b es1 r1 o es2 r2 l,
          RoundO cfg sep en out.length i b es1 r1 ∧
          GivesO (item (cfg.flag en out.length) b) o es2 r2 l ∧
          repLoopSem cfg item sep en st fuel (out ++ [o]) (addRec (addRec r es1 r1) es2 r2) l =
            .ok (res, j))) := by
      intro b es1 r1 hround before hb h
      rcases repItem_iff.1 h with ⟨h1, h2, h3⟩ | ⟨h0, ⟨o, es2, r2, l, h1, h2⟩ | ⟨x, ed, l, h1, h2⟩⟩
      · exact .inl (.inr (.inl ⟨h1, h2, b, es1, r1, hround, h3⟩))
      · have hm : cfg.atMax out.length = false := by
          rcases h0 with h | h
          · rcases hc' with h' | h'
            · rw [h] at h'; cases h'
            · exact h'
          · exact h
        exact .inr ⟨hm, b, es1, r1, o, es2, r2, l, hround, h1, h2⟩
      · have hm : cfg.atMax out.length = false := by
          rcases h0 with h | h
          · rcases hc' with h' | h'
            · rw [h] at h'; cases h'
            · exact h'
          · exact h
        refine .inl (.inr (.inr (.inr ⟨hm, b, es1, r1, x, ed, l, hround, h1, ?_⟩)))
        rcases h2 with ⟨h2, h3⟩ | ⟨h2, h3⟩
        · cases h3
          refine .inl ⟨h2, rfl, ?_⟩
          subst hb
          cases ht : cfg.triesSep sep out.length <;> cases ha : cfg.allowTrailing <;> simp [restPos, ha]
        · cases h3; exact .inr ⟨h2, rfl, rfl⟩
    have hitem' : ∀ {b : Nat} {es1 : List E} {r1 : Bool},
        ∀ {before : Option Nat}, before = (if cfg.triesSep sep out.length then some i else none) →
        ((cfg.allowTrailing = true ∧ cfg.atMax out.length = true ∧
            finishSem en out (addRec r es1 r1) b = .ok (res, j)) ∨
         (cfg.atMax out.length = false ∧ ∃ x ed l, item (cfg.flag en out.length) b = .ok (.failed x ed, l) ∧
          ((cfg.minimum ≤ out.length ∧ res = .success out ∧
            j = if cfg.triesSep sep out.length && !cfg.allowTrailing then i else l) ∨
           (out.length < cfg.minimum ∧ res = .failed x ed ∧ j = st))) ∨
         (cfg.atMax out.length = false ∧ ∃ o es2 r2 l, GivesO (item (cfg.flag en out.length) b) o es2 r2 l ∧
          repLoopSem cfg item sep en st fuel (out ++ [o]) (addRec (addRec r es1 r1) es2 r2) l =
            .ok (res, j))) →
        repItemSem cfg item en st (repLoopSem cfg item sep en st fuel) out (addRec r es1 r1) before b =
          .ok (res, j) := by
      intro b es1 r1 before hb h
      rw [repItem_iff]
      rcases h with ⟨h1, h2, h3⟩ | ⟨hm, x, ed, l, h1, h2⟩ | ⟨hm, o, es2, r2, l, h1, h2⟩
      · exact .inl ⟨h1, h2, h3⟩
      · refine .inr ⟨.inr hm, .inr ⟨x, ed, l, h1, ?_⟩⟩
        rcases h2 with ⟨h2, rfl, rfl⟩ | ⟨h2, rfl, rfl⟩
        · refine .inl ⟨h2, ?_⟩
          subst hb
          cases ht : cfg.triesSep sep out.length <;> cases ha : cfg.allowTrailing <;> simp [restPos, ha]
        · exact .inr ⟨h2, rfl⟩
      · exact .inr ⟨.inr hm, .inl ⟨o, es2, r2, l, h1, h2⟩⟩
    -- what EndO and the continuation say, given that hc fails, as a disjunction over the round
    have hsplit : (EndO cfg item sep en st out r i res j ∨
        (cfg.atMax out.length = false ∧ ∃ b es1 r1 o es2 r2 l,
          RoundO cfg sep en out.length i b es1 r1 ∧
          GivesO (item (cfg.flag en out.length) b) o es2 r2 l ∧
          repLoopSem cfg item sep en st fuel (out ++ [o]) (addRec (addRec r es1 r1) es2 r2) l =
            .ok (res, j))) →
        (out.length ≠ 0 ∧ ∃ sp x ed l, sep = some sp ∧
          sp (cfg.flag en out.length) i = .ok (.failed x ed, l) ∧
          ((cfg.minimum ≤ out.length ∧ res = .success out ∧ j = l) ∨
           (out.length < cfg.minimum ∧ res = .failed x ed ∧ j = st))) ∨
        ∃ b es1 r1, RoundO cfg sep en out.length i b es1 r1 ∧
          ∀ {before : Option Nat}, before = (if cfg.triesSep sep out.length then some i else none) →
          repItemSem cfg item en st (repLoopSem cfg item sep en st fuel) out (addRec r es1 r1) before b =
            .ok (res, j) := by
      rintro ((⟨h1, h2, _⟩ | ⟨h1, h2, b, es1, r1, h3, h4⟩ | ⟨h0, _, h⟩ |
        ⟨hm, b, es1, r1, x, ed, l, h1, h2, h3⟩) | ⟨hm, b, es1, r1, o, es2, r2, l, h1, h2, h3⟩)
      · exact (hna ⟨h1, h2⟩).elim
      · exact .inr ⟨b, es1, r1, h3, fun hb => hitem' hb (.inl ⟨h1, h2, h4⟩)⟩
      · exact .inl ⟨h0, h⟩
      · exact .inr ⟨b, es1, r1, h1, fun hb => hitem' hb (.inr (.inl ⟨hm, x, ed, l, h2, h3⟩))⟩
      · exact .inr ⟨b, es1, r1, h1, fun hb => hitem' hb (.inr (.inr ⟨hm, o, es2, r2, l, h2, h3⟩))⟩
    cases sep with
    | none =>
      have ht : cfg.triesSep (none : Option (PSem E β)) out.length = false := rfl
      have hr : RoundO cfg (none : Option (PSem E β)) en out.length i i [] false :=
        .inl ⟨ht, rfl, rfl, rfl⟩
      constructor
      · intro h; exact hitem hr (by rw [ht]; rfl) h
      · intro h
        rcases hsplit h with ⟨_, sp, x, ed, l, h1, _⟩ | ⟨b, es1, r1, h1, h2⟩
        · cases h1
        · rcases h1 with ⟨_, rfl, rfl, rfl⟩ | ⟨h1, _⟩
          · exact h2 (by rw [ht]; rfl)
          · rw [ht] at h1; cases h1
    | some sp =>
      have ht : cfg.triesSep (some sp) out.length = (!out.isEmpty || cfg.allowLeading) := by
        rw [hemp']; rfl
      cases hb : (!out.isEmpty || cfg.allowLeading) with
      | false =>
        rw [hb] at ht
        have hr : RoundO cfg (some sp) en out.length i i [] false := .inl ⟨ht, rfl, rfl, rfl⟩
        constructor
        · intro h; exact hitem hr (by rw [ht]; rfl) h
        · intro h
          rcases hsplit h with ⟨h0, _⟩ | ⟨b, es1, r1, h1, h2⟩
          · rw [hemp'] at hb
            simp at hb
            exact (h0 (by simp [hb.1])).elim
          · rcases h1 with ⟨_, rfl, rfl, rfl⟩ | ⟨h1, _⟩
            · exact h2 (by rw [ht]; rfl)
            · rw [ht] at h1; cases h1
      | true =>
        rw [hb] at ht
        have hfl : (en && decide (out.length < cfg.minimum) && !out.isEmpty) =
            (cfg.flag en out.length && out.length != 0) := by
          rw [hemp']; rfl
        simp only
        rw [part_P (r := r)
          (ks := fun r _ b => repItemSem cfg item en st (repLoopSem cfg item (some sp) en st fuel) out r (some i) b)
          (fail := fun x ed l =>
            if out.isEmpty then repItemSem cfg item en st (repLoopSem cfg item (some sp) en st fuel) out r (some i) l
            else if cfg.minimum ≤ out.length then .ok (.success out, l) else .ok (.failed x ed, st))
          (fun _ _ => rfl) (fun _ _ _ => rfl) (fun _ _ _ => rfl), hfl]
        constructor
        · rintro (⟨v, es1, r1, b, h1, h2⟩ | ⟨x, ed, l, h1, h2⟩)
          · exact hitem (.inr ⟨ht, sp, rfl, .inl ⟨v, h1⟩⟩) (by rw [ht]; rfl) h2
          · by_cases he : out.isEmpty = true
            · rw [if_pos he] at h2
              have h0 : out.length = 0 := by simpa using he
              rw [h0] at h1
              simp only [bne_self_eq_false, Bool.and_false] at h1
              exact hitem (es1 := []) (r1 := false)
                (.inr ⟨ht, sp, rfl, .inr ⟨h0, rfl, rfl, x, ed, h1⟩⟩) (by rw [ht]; rfl) h2
            · rw [if_neg he] at h2
              have h0 : out.length ≠ 0 := hemp.1 (by simpa using he)
              have hb0 : (out.length != 0) = true := by simpa using h0
              rw [hb0, Bool.and_true] at h1
              refine .inl (.inr (.inr (.inl ⟨h0, hc', sp, x, ed, l, rfl, h1, ?_⟩)))
              split at h2
              · rename_i hm; cases h2; exact .inl ⟨hm, rfl, rfl⟩
              · rename_i hm; cases h2; exact .inr ⟨by omega, rfl, rfl⟩
        · intro h
          rcases hsplit h with ⟨h0, sp', x, ed, l, h1, h2, h3⟩ | ⟨b, es1, r1, h1, h2⟩
          · cases h1
            have he : out.isEmpty = false := hemp.2 h0
            have hb0 : (out.length != 0) = true := by simpa using h0
            refine .inr ⟨x, ed, l, by rw [hb0, Bool.and_true]; exact h2, ?_⟩
            simp only [he, Bool.false_eq_true, if_false]
            rcases h3 with ⟨hm, rfl, rfl⟩ | ⟨hm, rfl, rfl⟩
            · rw [if_pos hm]
            · rw [if_neg (by omega)]
          · have h2' := h2 (before := some i) (by rw [ht]; rfl)
            rcases h1 with ⟨h1, _⟩ | ⟨_, sp', hsp, ⟨v, h1⟩ | ⟨h0, rfl, rfl, x, ed, h1⟩⟩
            · rw [ht] at h1; cases h1
            · cases hsp
              exact .inl ⟨v, es1, r1, b, h1, h2'⟩
            · cases hsp
              refine .inr ⟨x, ed, b, by simp [h0, h1], ?_⟩
              have he : out.isEmpty = true := by simpa using h0
              simp only [he, if_true]
              exact h2'

theorem RoundO.errs {m i b : Nat} {es : List E} {rec : Bool} (h : RoundO cfg sep en m i b es rec) :
    rec = false → es = [] := by
  rcases h with ⟨_, _, h, _⟩ | ⟨_, sp, _, ⟨v, h⟩ | ⟨_, h, _⟩⟩
  · exact fun _ => h
  · exact h.errs
  · exact fun _ => h

theorem ItemsO.errs : ∀ {os : List α} {m i k : Nat} {es : List E} {rec : Bool},
    ItemsO cfg item sep en m i os es rec k → rec = false → es = [] := by
  intro os
  induction os with
  | nil => rintro m i k es rec ⟨_, h, _⟩ _; exact h
  | cons o os ih =>
    rintro m i k es rec ⟨_, b, es1, r1, es2, r2, l, es3, r3, h1, h2, h3, rfl, rfl⟩ h
    simp only [Bool.or_eq_false_iff] at h
    rw [h1.errs h.1, h2.errs h.2.1, ih h3 h.2.2]
    rfl

/-- The loop: items, then an end. -/
theorem repLoop_iff {st : Nat} : ∀ {fuel : Nat} {out : List α} {r : Option (List E)} {i : Nat}
    {res : Res (List α) E} {j : Nat},
    repLoopSem cfg item sep en st fuel out r i = .ok (res, j) ↔
      ∃ os es rec k, os.length < fuel ∧ ItemsO cfg item sep en out.length i os es rec k ∧
        EndO cfg item sep en st (out ++ os) (addRec r es rec) k res j := by
  intro fuel
  induction fuel with
  | zero =>
    intro out r i res j
    simp [repLoopSem]
  | succ fuel ih =>
    intro out r i res j
    rw [repLoop_step]
    constructor
    · rintro (h | ⟨hm, b, es1, r1, o, es2, r2, l, h1, h2, h3⟩)
      · exact ⟨[], [], false, i, by simp, ⟨rfl, rfl, rfl⟩, by rw [List.append_nil]; exact h⟩
      · obtain ⟨os, es3, r3, k, h4, h5, h6⟩ := ih.1 h3
        rw [List.length_append, List.length_singleton] at h5
        refine ⟨o :: os, es1 ++ (es2 ++ es3), r1 || (r2 || r3), k, by simp; omega,
          ⟨hm, b, es1, r1, es2, r2, l, es3, r3, h1, h2, h5, rfl, rfl⟩, ?_⟩
        rw [addRec_addRec h1.errs h2.errs, addRec_addRec (by
          intro h; simp only [Bool.or_eq_false_iff] at h
          rw [h1.errs h.1, h2.errs h.2]; rfl) h5.errs, List.append_assoc, List.append_assoc,
          Bool.or_assoc] at h6
        exact h6
    · rintro ⟨os, es, rec, k, h4, h5, h6⟩
      cases os with
      | nil =>
        obtain ⟨rfl, rfl, rfl⟩ := h5
        rw [List.append_nil] at h6
        exact .inl h6
      | cons o os =>
        obtain ⟨hm, b, es1, r1, es2, r2, l, es3, r3, h1, h2, h3, rfl, rfl⟩ := h5
        refine .inr ⟨hm, b, es1, r1, o, es2, r2, l, h1, h2, ih.2 ⟨os, es3, r3, k, ?_, ?_, ?_⟩⟩
        · simp at h4; omega
        · rw [List.length_append, List.length_singleton]; exact h3
        · rw [addRec_addRec h1.errs h2.errs, addRec_addRec (by
            intro h; simp only [Bool.or_eq_false_iff] at h
            rw [h1.errs h.1, h2.errs h.2]; rfl) h3.errs, List.append_assoc, List.append_assoc,
            Bool.or_assoc]
          exact h6

theorem qRepeat_iff {fuel i : Nat} {res : Res (List α) E} {j : Nat} :
    qRepeat fuel cfg item sep en i = .ok (res, j) ↔
      ∃ os es rec k, os.length < fuel ∧ ItemsO cfg item sep en 0 i os es rec k ∧
        EndO cfg item sep en i os (addRec none es rec) k res j := by
  unfold qRepeat
  rw [repLoop_iff]
  simp only [List.length_nil, List.nil_append]

theorem ItemsO.le_max : ∀ {os : List α} {m i k : Nat} {es : List E} {rec : Bool},
    ItemsO cfg item sep en m i os es rec k → ∀ mx, cfg.maximum = some mx → m ≤ mx →
      m + os.length ≤ mx := by
  intro os
  induction os with
  | nil => intro m i k es rec _ mx _ h; simpa using h
  | cons o os ih =>
    rintro m i k es rec ⟨hm, b, es1, r1, es2, r2, l, es3, r3, h1, h2, h3, rfl, rfl⟩ mx hmx h
    have : m < mx := by
      unfold RepCfg.atMax at hm
      rw [hmx] at hm
      simpa using hm
    have := ih h3 mx hmx (by omega)
    rw [List.length_cons]
    omega

end PPC
