import Verif.SemChoice

/-!
# Properties of choice: C18, C19, C23

`ParsesAt e D n g en i r j` (RunAt.lean): running `g` on any stream over `e` at position `i`
returns `r` and ends at position `j`. `gs.toList`: the alternatives given to `alters`, in order.
`Preferred l ord` (SemChoice.lean): `ord` is `l` sorted by descending index, ties in the
original order.
-/

namespace PPC

universe u v

variable {S : Sig} {N : Names S} {e : Env S} {D : Defs S N} {n : Nat} {ε : ErrTy S} {α : Type}
  {g a b : G S N ε α} {gs : GL S N ε α} {en : Bool} {i j : Nat} {o : α}

/-- A failure of `g` at `i` leaves the cursor at `i` (see C11). -/
def Rewinds (e : Env S) (D : Defs S N) (n : Nat) (g : G S N ε α) (en : Bool) (i : Nat) : Prop :=
  ∀ x es j, ParsesAt e D n g en i (.failed x es) j → j = i

/-- `g` fails at `i` and leaves the cursor at `i`. -/
def FailsAt (e : Env S) (D : Defs S N) (n : Nat) (g : G S N ε α) (en : Bool) (i : Nat) : Prop :=
  ∃ x es, ParsesAt e D n g en i (.failed x es) i

/-- Grammars that satisfy the condition of C11 rewind. -/
theorem rewinds_of_clean (hi : Valid e i) (hD : D.All (cleanL S N)) (hg : g.All (cleanL S N)) :
    Rewinds e D n g en i := by
  intro x es j h
  exact ((G.sem_fr hD n g hg _ _ _ _ ((parsesAt_iff hi).1 h)).1 _ _ rfl).1

theorem rewindsAt_of (hi : Valid e i) (h : Rewinds e D n g en i) : RewindsAt (g.sem e D n) en i :=
  fun x es j hh => h x es j ((parsesAt_iff hi).2 hh)

theorem failsAt_iff (hi : Valid e i) :
    FailsAt e D n g en i ↔ ∃ x es, g.sem e D n en i = .ok (.failed x es, i) := by
  simp only [FailsAt, parsesAt_iff hi]

theorem alters_sem : (G.alters gs).sem e D n = qAlternate ε (gs.toList.map fun g => g.sem e D n) := by
  simp only [G.sem, G.den, GL.den_eq]

/-! ## C18: ordered choice -/

/-- C18: with or without recovery, `alters` returns a success exactly when there is a first
alternative, in declaration order, that succeeds without recovery, all started at the same
position; output and end position are those of this alternative. Nothing is asked about the
alternatives after it. -/
theorem C18_alters_first_success (hi : Valid e i) (hr : ∀ g ∈ gs.toList, Rewinds e D n g false i) :
    ParsesAt e D n (.alters gs) en i (.success o) j ↔
      ∃ (k : Nat) (g : G S N ε α), gs.toList[k]? = some g ∧ ParsesAt e D n g false i (.success o) j ∧
        ∀ m, m < k → ∀ g', gs.toList[m]? = some g' → FailsAt e D n g' false i := by
  rw [parsesAt_iff hi, alters_sem, qAlternate_success, altFirst_success]
  · constructor
    · rintro ⟨k, q, h1, h2, h3⟩
      rw [List.getElem?_map] at h1
      cases hg : gs.toList[k]? with
      | none => rw [hg] at h1; cases h1
      | some g =>
        rw [hg] at h1
        cases h1
        refine ⟨k, g, hg, (parsesAt_iff hi).2 h2, fun m hm g' hg' => ?_⟩
        exact (failsAt_iff hi).2 (h3 m hm _ (by rw [List.getElem?_map, hg']; rfl))
    · rintro ⟨k, g, h1, h2, h3⟩
      refine ⟨k, g.sem e D n, by rw [List.getElem?_map, h1]; rfl, (parsesAt_iff hi).1 h2,
        fun m hm q hq => ?_⟩
      rw [List.getElem?_map] at hq
      cases hg : gs.toList[m]? with
      | none => rw [hg] at hq; cases hq
      | some g' =>
        rw [hg] at hq
        cases hq
        exact (failsAt_iff hi).1 (h3 m hm g' hg)
  · intro q hq
    obtain ⟨g, hg, rfl⟩ := List.mem_map.1 hq
    exact rewindsAt_of hi (hr g hg)

/-- `or` is `alters` of its two parsers. -/
theorem or_sem : (G.or a b).sem e D n = (G.alters (.cons a (.cons b .nil))).sem e D n := by
  simp only [G.sem, G.den, GL.den]

/-- C18 for `or`. -/
theorem C18_or_first_success (hi : Valid e i) (hr : Rewinds e D n a false i)
    (hr' : Rewinds e D n b false i) :
    ParsesAt e D n (.or a b) en i (.success o) j ↔
      ParsesAt e D n a false i (.success o) j ∨
        FailsAt e D n a false i ∧ ParsesAt e D n b false i (.success o) j := by
  rw [parsesAt_iff hi, or_sem, ← parsesAt_iff hi, C18_alters_first_success hi]
  · simp only [GL.toList]
    constructor
    · rintro ⟨k, g, h1, h2, h3⟩
      match k, h1 with
      | 0, h1 => cases h1; exact .inl h2
      | 1, h1 => cases h1; exact .inr ⟨h3 0 (by omega) a rfl, h2⟩
    · rintro (h | ⟨h1, h2⟩)
      · exact ⟨0, a, rfl, h, fun m hm => by omega⟩
      · refine ⟨1, b, rfl, h2, fun m hm g' hg' => ?_⟩
        have : m = 0 := by omega
        subst this
        cases hg'
        exact h1
  · intro g hg
    simp only [GL.toList, List.mem_cons, List.not_mem_nil, or_false] at hg
    rcases hg with rfl | rfl
    · exact hr
    · exact hr'

/-- `just(1).then_ignore(just(2))`, `just(1)` and `just(3)` as alternatives on `[1, 3]`: the
first fails, the second is the answer, and the third is not consulted (it would fail). -/
def exChoice : GL exSig exNames (simpleErr exSig) Nat :=
  .cons (.thenIgnore (.just 1) (.just 2)) (.cons (.just 1) (.cons (.just 3) .nil))

example : (∀ g ∈ exChoice.toList, Rewinds (exEnv [1, 3]) exNoDefs 20 g false 0) ∧
    ParsesAt (exEnv [1, 3]) exNoDefs 20 (.alters exChoice) true 0 (.success 1) 1 ∧
    (∃ (k : Nat) (g : ExG Nat), exChoice.toList[k]? = some g ∧ k = 1 ∧
      ParsesAt (exEnv [1, 3]) exNoDefs 20 g false 0 (.success 1) 1) := by
  refine ⟨fun g hg => rewinds_of_clean Valid.zero (fun k => k.elim) ?_,
    exParsesAt (by decide +kernel), 1, .just 1, rfl, rfl, exParsesAt (by decide +kernel)⟩
  simp only [exChoice, GL.toList, List.mem_cons, List.not_mem_nil, or_false] at hg
  rcases hg with rfl | rfl | rfl <;> simp [G.All, cleanL, G.TryMapNotRecovered]

/-! ## C23: `or_not` is total -/

theorem orNot_sem : (G.orNot g).sem e D n = qAlternate ε [qMap some (g.sem e D n), qNone] := rfl

theorem orNot_first (hi : Valid e i) (hr : Rewinds e D n g false i) {v : Option α} :
    ParsesAt e D n (.orNot g) en i (.success v) j ↔
      (∃ o, v = some o ∧ ParsesAt e D n g false i (.success o) j) ∨
      (v = none ∧ j = i ∧ FailsAt e D n g false i) := by
  rw [parsesAt_iff hi, orNot_sem, qAlternate_success, altFirst_success]
  · constructor
    · rintro ⟨k, q, h1, h2, h3⟩
      match k, h1 with
      | 0, h1 =>
        cases h1
        simp only [qMap, Out.bind_eq_ok] at h2
        obtain ⟨⟨r, l⟩, h4, h5⟩ := h2
        cases r with
        | success o' => cases h5; exact .inl ⟨o', rfl, (parsesAt_iff hi).2 h4⟩
        | recovered o' es => cases h5
        | failed x es => cases h5
      | 1, h1 =>
        cases h1
        cases h2
        obtain ⟨x, es, h4⟩ := h3 0 (by omega) _ rfl
        simp only [qMap, Out.bind_eq_ok] at h4
        obtain ⟨⟨r, l⟩, h4, h5⟩ := h4
        cases r with
        | success o' => cases h5
        | recovered o' es => cases h5
        | failed x es => cases h5; exact .inr ⟨rfl, rfl, (failsAt_iff hi).2 ⟨_, _, h4⟩⟩
    · rintro (⟨o', rfl, h⟩ | ⟨rfl, rfl, h⟩)
      · refine ⟨0, _, rfl, ?_, fun m hm => by omega⟩
        simp only [qMap, (parsesAt_iff hi).1 h, Out.ok_bind, Res.map]
      · obtain ⟨x, es, h⟩ := (failsAt_iff hi).1 h
        refine ⟨1, qNone, rfl, rfl, fun m hm q hq => ?_⟩
        have : m = 0 := by omega
        subst this
        cases hq
        exact ⟨x, es, by simp only [qMap, h, Out.ok_bind, Res.map]⟩
  · intro q hq
    simp only [List.mem_cons, List.not_mem_nil, or_false] at hq
    rcases hq with rfl | rfl
    · intro x es j h
      simp only [qMap, Out.bind_eq_ok] at h
      obtain ⟨⟨r, l⟩, h4, h5⟩ := h
      cases r with
      | success o' => cases h5
      | recovered o' es => cases h5
      | failed x es => cases h5; exact rewindsAt_of hi hr _ _ _ h4
    · intro x es j h
      cases h

/-- C23: `or_not` returns `Some(o)` exactly when its parser succeeds with `o` without recovery,
and ends where that ends. -/
theorem C23_or_not_some (hi : Valid e i) (hr : Rewinds e D n g false i) :
    ParsesAt e D n (.orNot g) en i (.success (some o)) j ↔
      ParsesAt e D n g false i (.success o) j := by
  rw [orNot_first hi hr]
  simp

/-- C23: `or_not` returns `None` exactly when its parser fails without recovery; it does not
move. -/
theorem C23_or_not_none (hi : Valid e i) (hr : Rewinds e D n g false i) :
    ParsesAt e D n (.orNot g) en i (.success none) j ↔ j = i ∧ FailsAt e D n g false i := by
  rw [orNot_first hi hr]
  simp

/-- C23: `or_not` neither fails nor recovers. -/
theorem C23_or_not_succeeds (hi : Valid e i) {r : Res (Option α) ε.E}
    (h : ParsesAt e D n (.orNot g) en i r j) : ∃ v, r = .success v := by
  rw [parsesAt_iff hi, orNot_sem] at h
  simp only [qAlternate, Out.bind_eq_ok] at h
  obtain ⟨⟨r', l⟩, h1, h2⟩ := h
  cases r' with
  | inl v => cases h2; exact ⟨v, rfl⟩
  | inr fs =>
    exfalso
    simp only [altFirstSem, Out.bind_eq_ok] at h1
    obtain ⟨⟨r1, l1⟩, h3, h4⟩ := h1
    cases r1 with
    | success o' => cases h4
    | recovered o' es => cases h4
    | failed x es => cases h4

/-- C23: `or_not` panics only if its parser does. -/
theorem C23_or_not_panics (hi : Valid e i) {m : String} (h : PanicsAt e D n (.orNot g) en i m) :
    PanicsAt e D n g false i m := by
  rw [panicsAt_iff hi, orNot_sem] at h
  rw [panicsAt_iff hi]
  simp only [qAlternate, Out.bind_eq_panic] at h
  rcases h with h | ⟨⟨r', l⟩, h1, h2⟩
  · simp only [altFirstSem, Out.bind_eq_panic] at h
    rcases h with h | ⟨⟨r1, l1⟩, h3, h4⟩
    · simp only [qMap, Out.bind_eq_panic] at h
      rcases h with h | ⟨⟨r2, l2⟩, _, h5⟩
      · exact h
      · cases h5
    · cases r1 with
      | success o' => cases h4
      | recovered o' es =>
        exfalso
        simp only [qMap, Out.bind_eq_ok] at h3
        obtain ⟨⟨r, k⟩, h5, h6⟩ := h3
        cases r with
        | success o2 => cases h6
        | recovered o2 es => exact G.sem_nr D n g _ _ _ _ h5
        | failed x es => cases h6
      | failed x es => cases h4
  · cases r' with
    | inl v => cases h2
    | inr fs =>
      exfalso
      simp only [altFirstSem, Out.bind_eq_ok] at h1
      obtain ⟨⟨r1, l1⟩, h3, h4⟩ := h1
      cases r1 with
      | success o' => cases h4
      | recovered o' es => cases h4
      | failed x es => cases h4

/-- The recovering parser of `exNested`, under `or_not`: on `[1, 0, 2]` it is `Some`, on
`[1, 0, 1]` it is `None` although the parser itself would recover. -/
example : ParsesAt (exEnv [1, 0, 2]) exNested 20 (.orNot exNestedG) true 0 (.success (some 1)) 3 ∧
    ParsesAt (exEnv [1, 0, 1]) exNested 20 (.orNot exNestedG) true 0 (.success none) 0 ∧
    (∃ es j, ParsesAt (exEnv [1, 0, 1]) exNested 20 exNestedG true 0 (.recovered 100 es) j) ∧
    Rewinds (exEnv [1, 0, 1]) exNested 20 exNestedG false 0 :=
  ⟨exParsesAt (by decide +kernel), exParsesAt (by decide +kernel),
   ⟨[.expectedFound [some 2] (some 1) (.span (2, 3)), .unmatchedLeft 1 (2, 3) (.location 3),
      .unmatchedLeft 1 (0, 1) (.location 3)], 3, exParsesAt (by decide +kernel)⟩,
   rewinds_of_clean Valid.zero exNested_clean (by simp [G.All, cleanL, G.TryMapNotRecovered])⟩

/-! ## C19: a failed choice -/

/-- `ps` lists the alternatives, each with the index and errors of its failure at `i` when run
without recovery. -/
def AllFail (e : Env S) (D : Defs S N) (n : Nat) (gs : GL S N ε α) (i : Nat)
    (ps : List (Nat × List ε.E × G S N ε α)) : Prop :=
  gs.toList = ps.map (fun p => p.2.2) ∧
    ∀ p ∈ ps, ParsesAt e D n p.2.2 false i (.failed p.1 p.2.1) i

/-- The first error with all the expected/found errors among `others` at the same location
merged into it. -/
def mergedInto (ε : ErrTy S) (d : ε.E) (others : List ε.E) : ε.E :=
  (others.filter fun d' => ε.isExpectedFound d' && At.beq S (ε.location d') (ε.location d)).foldl
    ε.merge d

theorem mergeAll_eq (hloc : ∀ a b, ε.location (ε.merge a b) = ε.location a) (others : List ε.E) :
    ∀ d, mergeAll ε d others = mergedInto ε d others := by
  induction others with
  | nil => intro d; rfl
  | cons d' others ih =>
    intro d
    simp only [mergeAll, mergedInto, List.foldl_cons] at ih ⊢
    by_cases h : (ε.isExpectedFound d' && At.beq S (ε.location d') (ε.location d)) = true
    · rw [if_pos h, List.filter_cons, if_pos h, List.foldl_cons, ih (ε.merge d d'), hloc]
    · rw [if_neg h, List.filter_cons, if_neg h, ih d]

/-- Attaching to an entry its parser's semantics. -/
def withSem (e : Env S) (D : Defs S N) (n : Nat) (p : Nat × List ε.E × G S N ε α) : FailSem ε.E α :=
  (p.1, p.2.1, p.2.2.sem e D n)

theorem insertDesc_map {β : Type u} {γ : Type v} (f : Nat × β → Nat × γ) (hf : ∀ x, (f x).1 = x.1) (x : Nat × β)
    (l : List (Nat × β)) : insertDesc (f x) (l.map f) = (insertDesc x l).map f := by
  induction l with
  | nil => rfl
  | cons y l ih =>
    simp only [List.map_cons, insertDesc, hf]
    split
    · rfl
    · rw [List.map_cons, ih]

theorem sortDesc_map {β : Type u} {γ : Type v} (f : Nat × β → Nat × γ) (hf : ∀ x, (f x).1 = x.1)
    (l : List (Nat × β)) : sortDesc (l.map f) = (sortDesc l).map f := by
  unfold sortDesc
  have : ∀ (l acc : List (Nat × β)),
      (l.map f).foldl (fun acc x => insertDesc x acc) (acc.map f) =
        (l.foldl (fun acc x => insertDesc x acc) acc).map f := by
    intro l
    induction l with
    | nil => intro acc; rfl
    | cons x l ih => intro acc; simp only [List.map_cons, List.foldl_cons, insertDesc_map f hf, ih]
  exact this l []

theorem AllFail.first {ps ord : List (Nat × List ε.E × G S N ε α)} (hi : Valid e i)
    (h : AllFail e D n gs i ps) (ho : Preferred ps ord) (hne : ps ≠ []) :
    (G.alters gs).sem e D n en i =
      if en then do
        match ← altRecoverSem (ord.map (withSem e D n)) i with
        | (some r, k) => .ok (r, k)
        | (none, k) => altCombineSem ε (ord.map fun p => (p.1, p.2.1)) k
      else altCombineSem ε (ord.map fun p => (p.1, p.2.1)) i := by
  have h1 : gs.toList.map (fun g => g.sem e D n) =
      (ps.map (withSem e D n)).map fun p => p.2.2 := by
    rw [h.1, List.map_map, List.map_map]; rfl
  have h2 : altFirstSem (gs.toList.map fun g => g.sem e D n) [] i =
      .ok (.inr (ps.map (withSem e D n)), i) := by
    rw [h1, altFirst_all_fail]
    · simp
    · intro p hp
      obtain ⟨p', hp', rfl⟩ := List.mem_map.1 hp
      exact (parsesAt_iff hi).1 (h.2 p' hp')
  have h3 : sortDesc (ps.map (withSem e D n)) = ord.map (withSem e D n) := by
    rw [sortDesc_map (withSem e D n) (fun _ => rfl), (sortDesc_preferred ps).unique ho]
  have h4 : (ps.map (withSem e D n)).isEmpty = false := by
    cases ps with
    | nil => exact (hne rfl).elim
    | cons p ps => rfl
  rw [alters_sem]
  have h5 : (ord.map (withSem e D n)).map (fun f => (f.1, f.2.1)) =
      ord.map fun p => (p.1, p.2.1) := by
    rw [List.map_map]; rfl
  simp only [qAlternate, h2, Out.ok_bind, h4, h3, h5]
  cases en
  · rfl
  · simp only [if_true]
    cases hq : altRecoverSem (ord.map (withSem e D n)) i with
    | ok x =>
      obtain ⟨r, k⟩ := x
      cases r <;> rfl
    | panic m => rfl
    | oof => rfl
    | stuck => rfl

/-- C19: when all alternatives fail without recovery and recovery is enabled, they are tried
again with recovery in order of preference, and the first one that recovers is the answer. -/
theorem C19_recovers_in_order (hi : Valid e i) {ps ord : List (Nat × List ε.E × G S N ε α)}
    (hp : AllFail e D n gs i ps) (ho : Preferred ps ord)
    (hr : ∀ p ∈ ps, Rewinds e D n p.2.2 true i) {es : List ε.E} :
    ParsesAt e D n (.alters gs) true i (.recovered o es) j ↔
      ∃ (k : Nat) (p : Nat × List ε.E × G S N ε α), ord[k]? = some p ∧
        ParsesAt e D n p.2.2 true i (.recovered o es) j ∧
        ∀ m, m < k → ∀ p', ord[m]? = some p' → FailsAt e D n p'.2.2 true i := by
  by_cases hne : ps = []
  · subst hne
    have hord : ord = [] := ho.perm.eq_nil
    subst hord
    rw [parsesAt_iff hi, alters_sem, hp.1]
    simp [qAlternate, altFirstSem]
  · have hrw : ∀ p ∈ ord.map (withSem e D n), RewindsAt p.2.2 true i := by
      intro p hpm
      obtain ⟨p', hp', rfl⟩ := List.mem_map.1 hpm
      exact rewindsAt_of hi (hr p' (ho.perm.mem_iff.1 hp'))
    have hkey : ParsesAt e D n (.alters gs) true i (.recovered o es) j ↔
        altRecoverSem (ord.map (withSem e D n)) i = .ok (some (.recovered o es), j) := by
      rw [parsesAt_iff hi, hp.first hi ho hne, if_pos rfl, Out.bind_eq_ok]
      constructor
      · rintro ⟨⟨r, k⟩, h1, h2⟩
        cases r with
        | some r => cases h2; exact h1
        | none =>
          obtain ⟨_, x, es', hh, _⟩ := altCombine_failed h2
          cases hh
      · intro h; exact ⟨_, h, rfl⟩
    rw [hkey, altRecover_first hrw]
    constructor
    · rintro ⟨k, q, h1, h2, h3⟩
      rw [List.getElem?_map] at h1
      cases hg : ord[k]? with
      | none => rw [hg] at h1; cases h1
      | some p =>
        rw [hg] at h1
        cases h1
        refine ⟨k, p, hg, (parsesAt_iff hi).2 h2, fun m hm p' hp' => ?_⟩
        exact (failsAt_iff hi).2 (h3 m hm (withSem e D n p') (by rw [List.getElem?_map, hp']; rfl))
    · rintro ⟨k, p, h1, h2, h3⟩
      refine ⟨k, withSem e D n p, by rw [List.getElem?_map, h1]; rfl, (parsesAt_iff hi).1 h2,
        fun m hm q hq => ?_⟩
      rw [List.getElem?_map] at hq
      cases hg : ord[m]? with
      | none => rw [hg] at hq; cases hq
      | some p' =>
        rw [hg] at hq
        cases hq
        exact (failsAt_iff hi).1 (h3 m hm p' hg)

/-- A case of it: `just(4)` and `just(1) then just(2)`, each recovering with a default, on
`[1, 7]`. The second got further, so it is the one that recovers. -/
example : ∃ (gs : GL exSig exNames (simpleErr exSig) Nat)
    (ps ord : List (Nat × List (simpleErr exSig).E × ExG Nat)) (es : List (simpleErr exSig).E),
    AllFail (exEnv [1, 7]) exNoDefs 20 gs 0 ps ∧ Preferred ps ord ∧ ps ≠ ord ∧
    (∀ p ∈ ps, Rewinds (exEnv [1, 7]) exNoDefs 20 p.2.2 true 0) ∧
    ParsesAt (exEnv [1, 7]) exNoDefs 20 (.alters gs) true 0 (.recovered 50 es) 0 := by
  let a : ExG Nat := .toRecover (.just 4) (.ret .attemptTo 60)
  let b : ExG Nat := .toRecover (.thenIgnore (.just 1) (.just 2)) (.ret .attemptTo 50)
  let ea : List (simpleErr exSig).E := [.expectedFound [some 4] (some 1) (.span (0, 1))]
  let eb : List (simpleErr exSig).E := [.expectedFound [some 2] (some 7) (.span (1, 2))]
  refine ⟨.cons a (.cons b .nil), [(0, ea, a), (1, eb, b)], [(1, eb, b), (0, ea, a)], eb,
    ⟨rfl, ?_⟩, sortDesc_preferred [(0, ea, a), (1, eb, b)], ?_, ?_, exParsesAt (by decide +kernel)⟩
  · intro p hp
    simp only [List.mem_cons, List.not_mem_nil, or_false] at hp
    rcases hp with rfl | rfl <;> exact exParsesAt (by decide +kernel)
  · intro h
    have := congrArg (fun l => l.map Prod.fst) h
    exact absurd this (by decide)
  · intro p hp
    refine rewinds_of_clean Valid.zero (fun k => k.elim) ?_
    simp only [List.mem_cons, List.not_mem_nil, or_false] at hp
    rcases hp with rfl | rfl <;>
      simp [a, b, G.All, CS.All, IS.All, cleanL, G.TryMapNotRecovered]

/-- The alternatives that all failed also fail with recovery, if that is enabled. -/
def NoneRecovers (e : Env S) (D : Defs S N) (n : Nat) (en : Bool) (i : Nat)
    (ps : List (Nat × List ε.E × G S N ε α)) : Prop :=
  en = true → ∀ p ∈ ps, FailsAt e D n p.2.2 true i

theorem AllFail.combine {ps ord : List (Nat × List ε.E × G S N ε α)} (hi : Valid e i)
    (h : AllFail e D n gs i ps) (ho : Preferred ps ord) (hne : ps ≠ [])
    (hn : NoneRecovers e D n en i ps) :
    (G.alters gs).sem e D n en i = altCombineSem ε (ord.map fun p => (p.1, p.2.1)) i := by
  rw [h.first hi ho hne]
  cases en with
  | false => rfl
  | true =>
    rw [if_pos rfl, altRecover_none]
    · rfl
    · intro p hp
      obtain ⟨p', hp', rfl⟩ := List.mem_map.1 hp
      exact (failsAt_iff hi).1 (hn rfl p' (ho.perm.mem_iff.1 hp'))

/-- C19, in the case that the preferred alternative (greatest failure index, first declared
among those) failed with a single expected/found error: the choice fails with that index, and
with that error, into which the expected/found errors of the other alternatives at the same
location are merged in order of preference; the cursor is not moved. The condition on the
error type is that merging keeps the location. -/
theorem C19_merges_partial (hi : Valid e i) {ps rest : List (Nat × List ε.E × G S N ε α)}
    (hp : AllFail e D n gs i ps) {x : Nat} {d : ε.E} (ho : Preferred ps ((x, [d], g) :: rest))
    (hn : NoneRecovers e D n en i ps) (hd : ε.isExpectedFound d = true)
    (hloc : ∀ a b, ε.location (ε.merge a b) = ε.location a) :
    ParsesAt e D n (.alters gs) en i
      (.failed x [mergedInto ε d (rest.flatMap fun p => p.2.1)]) i ∧ ∀ p ∈ ps, p.1 ≤ x := by
  have hne : ps ≠ [] := by
    intro h; subst h; exact absurd ho.perm.eq_nil (by simp)
  constructor
  · rw [parsesAt_iff hi, hp.combine hi ho hne hn]
    simp only [altCombineSem, List.map_cons, hd, if_true, List.flatMap_map, mergeAll_eq hloc]
  · intro p hpm
    rcases List.mem_cons.1 (ho.perm.mem_iff.2 hpm) with rfl | h
    · exact Nat.le_refl _
    · exact (List.pairwise_cons.1 ho.sorted).1 p h

/-- C19 for `error::Simple`: the reported error names the token found and the location of the
preferred one, and expects exactly what the expected/found errors at that location expect. -/
theorem C19_merges_simple_partial (hi : Valid e i) {gs : GL S N (simpleErr S) α}
    {g : G S N (simpleErr S) α}
    {ps rest : List (Nat × List (simpleErr S).E × G S N (simpleErr S) α)}
    (hp : AllFail e D n gs i ps) {x : Nat} {exp : List (Option S.I)} {found : Option S.I}
    {at_ : At S.Loc S.Span}
    (ho : Preferred ps ((x, [SimpleError.expectedFound exp found at_], g) :: rest))
    (hn : NoneRecovers e D n en i ps) :
    ∃ exp', ParsesAt e D n (.alters gs) en i (.failed x [.expectedFound exp' found at_]) i ∧
      (∀ t ∈ exp', t ∈ exp ∨ ∃ p ∈ rest, ∃ exp₂ found₂ at₂,
        SimpleError.expectedFound exp₂ found₂ at₂ ∈ p.2.1 ∧ At.beq S at₂ at_ = true ∧ t ∈ exp₂) ∧
      (∀ t ∈ exp, t ∈ exp') ∧
      (∀ p ∈ rest, ∀ exp₂ found₂ at₂, SimpleError.expectedFound exp₂ found₂ at₂ ∈ p.2.1 →
        At.beq S at₂ at_ = true → ∀ t ∈ exp₂, ∃ t' ∈ exp', t' = t ∨ eqOpt S.eqI t t' = true) := by
  have hloc : ∀ a b, (simpleErr S).location ((simpleErr S).merge a b) = (simpleErr S).location a := by
    intro a b
    cases a <;> cases b <;> rfl
  obtain ⟨h1, -⟩ := C19_merges_partial hi hp ho hn rfl hloc
  -- inserting into a set
  have hins : ∀ (s : List (Option S.I)) (y : Option S.I),
      (∀ t ∈ setInsert S.eqI s y, t ∈ s ∨ t = y) ∧ (∀ t ∈ s, t ∈ setInsert S.eqI s y) ∧
      ∃ t' ∈ setInsert S.eqI s y, t' = y ∨ eqOpt S.eqI y t' = true := by
    intro s y
    unfold setInsert
    split
    · rename_i hany
      obtain ⟨t', ht', hh⟩ := List.any_eq_true.1 hany
      exact ⟨fun t ht => .inl ht, fun t ht => ht, t', ht', .inr hh⟩
    · refine ⟨fun t ht => ?_, fun t ht => List.mem_append_left _ ht, y, by simp, .inl rfl⟩
      simpa using ht
  have hext : ∀ (ys s : List (Option S.I)),
      (∀ t ∈ setExtend S.eqI s ys, t ∈ s ∨ t ∈ ys) ∧ (∀ t ∈ s, t ∈ setExtend S.eqI s ys) ∧
      ∀ y ∈ ys, ∃ t' ∈ setExtend S.eqI s ys, t' = y ∨ eqOpt S.eqI y t' = true := by
    intro ys
    induction ys with
    | nil => intro s; simp [setExtend]
    | cons y ys ih =>
      intro s
      obtain ⟨a1, a2, a3⟩ := hins s y
      obtain ⟨b1, b2, b3⟩ := ih (setInsert S.eqI s y)
      have heq : setExtend S.eqI s (y :: ys) = setExtend S.eqI (setInsert S.eqI s y) ys := rfl
      rw [heq]
      refine ⟨fun t ht => ?_, fun t ht => b2 t (a2 t ht), fun z hz => ?_⟩
      · rcases b1 t ht with h | h
        · rcases a1 t h with h | h
          · exact .inl h
          · exact .inr (by simp [h])
        · exact .inr (List.mem_cons_of_mem _ h)
      · rcases List.mem_cons.1 hz with rfl | hz
        · obtain ⟨t', ht', hh⟩ := a3
          exact ⟨t', b2 t' ht', hh⟩
        · exact b3 z hz
  -- merging a list of errors
  have hmerge : ∀ (ds : List (simpleErr S).E) (exp : List (Option S.I)),
      (∀ d ∈ ds, (simpleErr S).isExpectedFound d = true) →
      ∃ exp', ds.foldl (simpleErr S).merge (.expectedFound exp found at_) =
          .expectedFound exp' found at_ ∧
        (∀ t ∈ exp', t ∈ exp ∨ ∃ exp₂ found₂ at₂,
          SimpleError.expectedFound exp₂ found₂ at₂ ∈ ds ∧ t ∈ exp₂) ∧
        (∀ t ∈ exp, t ∈ exp') ∧
        (∀ exp₂ found₂ at₂, SimpleError.expectedFound exp₂ found₂ at₂ ∈ ds →
          ∀ t ∈ exp₂, ∃ t' ∈ exp', t' = t ∨ eqOpt S.eqI t t' = true) := by
    intro ds
    induction ds with
    | nil => intro exp _; exact ⟨exp, rfl, fun t ht => .inl ht, fun t ht => ht, by simp⟩
    | cons d ds ih =>
      intro exp hds
      have hd := hds d List.mem_cons_self
      cases d with
      | expectedFound exp₁ f₁ at₁ =>
        obtain ⟨exp', h1, h2, h3, h4⟩ := ih (setExtend S.eqI exp exp₁)
          fun d hd => hds d (List.mem_cons_of_mem _ hd)
        obtain ⟨c1, c2, c3⟩ := hext exp₁ exp
        refine ⟨exp', h1, fun t ht => ?_, fun t ht => h3 t (c2 t ht), ?_⟩
        · rcases h2 t ht with h | ⟨e2, f2, a2, hm, h⟩
          · rcases c1 t h with h | h
            · exact .inl h
            · exact .inr ⟨exp₁, f₁, at₁, List.mem_cons_self, h⟩
          · exact .inr ⟨e2, f2, a2, List.mem_cons_of_mem _ hm, h⟩
        · intro e2 f2 a2 hm t ht
          rcases List.mem_cons.1 hm with h | h
          · cases h
            obtain ⟨t', ht', hh⟩ := c3 t ht
            exact ⟨t', h3 t' ht', hh⟩
          · exact h4 e2 f2 a2 h t ht
      | unmatchedLeft _ _ _ => cases hd
      | unmatchedRight _ _ _ => cases hd
      | unmatchedType _ _ _ _ => cases hd
      | custom _ _ => cases hd
  obtain ⟨exp', k1, k2, k3, k4⟩ := hmerge
    ((rest.flatMap fun p => p.2.1).filter fun d' => (simpleErr S).isExpectedFound d' &&
      At.beq S ((simpleErr S).location d') at_) exp (by
        intro d hd
        have := (List.mem_filter.1 hd).2
        simp only [Bool.and_eq_true] at this
        exact this.1)
  refine ⟨exp', ?_, ?_, k3, ?_⟩
  · rw [← k1]; exact h1
  · intro t ht
    rcases k2 t ht with h | ⟨e2, f2, a2, hm, h⟩
    · exact .inl h
    · obtain ⟨hm1, hm2⟩ := List.mem_filter.1 hm
      obtain ⟨p, hp1, hp2⟩ := List.mem_flatMap.1 hm1
      exact .inr ⟨p, hp1, e2, f2, a2, hp2, by simpa using hm2, h⟩
  · intro p hpm e2 f2 a2 hm hb t ht
    refine k4 e2 f2 a2 (List.mem_filter.2 ⟨List.mem_flatMap.2 ⟨p, hpm, hm⟩, ?_⟩) t ht
    simpa using hb

/-- C19, what happens otherwise: if the preferred alternative failed with anything but a single
expected/found error, the choice reports the failure of the *second* alternative in order of
preference. (If there is no second one it panics, see `C17_alters_one_panics`.) -/
theorem C19_otherwise_second_partial (hi : Valid e i) {ps rest : List (Nat × List ε.E × G S N ε α)}
    (hp : AllFail e D n gs i ps) {p₁ p₂ : Nat × List ε.E × G S N ε α}
    (ho : Preferred ps (p₁ :: p₂ :: rest)) (hn : NoneRecovers e D n en i ps)
    (hd : ∀ d, p₁.2.1 = [d] → ε.isExpectedFound d = false) :
    ParsesAt e D n (.alters gs) en i (.failed p₂.1 p₂.2.1) i := by
  have hne : ps ≠ [] := by
    intro h; subst h; exact absurd ho.perm.eq_nil (by simp)
  rw [parsesAt_iff hi, hp.combine hi ho hne hn]
  obtain ⟨x, es, g⟩ := p₁
  simp only at hd
  simp only [altCombineSem, List.map_cons]
  match es with
  | [] => rfl
  | [d] => simp only [hd d rfl]; rfl
  | _ :: _ :: _ => rfl

/-- `just(1).then(any().try_map(|_, _| Err(simple("odd"))))`, returning the first token. -/
def exLateOdd : ExG Nat :=
  .thenIgnore (.just 1)
    (.tryMap (fun (_ : Nat) _ => (.err [(simpleErr exSig).simple "odd"] : TryMapResult Nat _))
      (.filter fun _ => true))

/-- C19 as stated is false of the code: of the alternatives `exLateOdd` and `just(5)` on
`[1, 2]`, the first fails at index 1 with error "odd", the second at index 0; the choice
reports the second failure, at index 0. -/
theorem C19_most_promising_fails :
    ∃ (gs : GL exSig exNames (simpleErr exSig) Nat) (ps : List (Nat × List (simpleErr exSig).E × ExG Nat))
      (x : Nat) (es : List (simpleErr exSig).E) (p : Nat × List (simpleErr exSig).E × ExG Nat),
      AllFail (exEnv [1, 2]) exNoDefs 20 gs 0 ps ∧
      ParsesAt (exEnv [1, 2]) exNoDefs 20 (.alters gs) false 0 (.failed x es) 0 ∧
      p ∈ ps ∧ x < p.1 := by
  refine ⟨.cons exLateOdd (.cons (.just 5) .nil),
    [(1, [.custom "odd" .none], exLateOdd),
     (0, [.expectedFound [some 5] (some 1) (.span (0, 1))], .just 5)],
    0, [.expectedFound [some 5] (some 1) (.span (0, 1))], (1, [.custom "odd" .none], exLateOdd),
    ⟨rfl, ?_⟩, exParsesAt (by decide +kernel), by simp, by decide⟩
  intro p hp
  simp only [List.mem_cons, List.not_mem_nil, or_false] at hp
  rcases hp with rfl | rfl
  · exact exParsesAt (by decide +kernel)
  · exact exParsesAt (by decide +kernel)

/-- A case of the merging theorems: `just(1) then just(2)`, `just(4)`, `just(1) then just(3)` on
`[1, 7]`. The preferred failure is the first one, at index 1; the third, at the same location,
is merged; the second is at another location. -/
example : ∃ (gs : GL exSig exNames (simpleErr exSig) Nat)
    (ps rest : List (Nat × List (simpleErr exSig).E × ExG Nat)) (x : Nat) (g : ExG Nat),
    AllFail (exEnv [1, 7]) exNoDefs 20 gs 0 ps ∧
    Preferred ps ((x, [.expectedFound [some 2] (some 7) (.span (1, 2))], g) :: rest) ∧
    NoneRecovers (exEnv [1, 7]) exNoDefs 20 true 0 ps ∧ rest.length = 2 ∧
    ParsesAt (exEnv [1, 7]) exNoDefs 20 (.alters gs) true 0
      (.failed 1 [.expectedFound [some 2, some 3] (some 7) (.span (1, 2))]) 0 := by
  let a : ExG Nat := .thenIgnore (.just 1) (.just 2)
  let b : ExG Nat := .just 4
  let c : ExG Nat := .thenIgnore (.just 1) (.just 3)
  let ea : List (simpleErr exSig).E := [.expectedFound [some 2] (some 7) (.span (1, 2))]
  let eb : List (simpleErr exSig).E := [.expectedFound [some 4] (some 1) (.span (0, 1))]
  let ec : List (simpleErr exSig).E := [.expectedFound [some 3] (some 7) (.span (1, 2))]
  refine ⟨.cons a (.cons b (.cons c .nil)), [(1, ea, a), (0, eb, b), (1, ec, c)],
    [(1, ec, c), (0, eb, b)], 1, a, ⟨rfl, ?_⟩, sortDesc_preferred [(1, ea, a), (0, eb, b), (1, ec, c)],
    ?_, rfl, exParsesAt (by decide +kernel)⟩
  · intro p hp
    simp only [List.mem_cons, List.not_mem_nil, or_false] at hp
    rcases hp with rfl | rfl | rfl <;> exact exParsesAt (by decide +kernel)
  · intro _ p hp
    simp only [List.mem_cons, List.not_mem_nil, or_false] at hp
    rcases hp with rfl | rfl | rfl
    · exact ⟨1, ea, exParsesAt (by decide +kernel)⟩
    · exact ⟨0, eb, exParsesAt (by decide +kernel)⟩
    · exact ⟨1, ec, exParsesAt (by decide +kernel)⟩

end PPC
