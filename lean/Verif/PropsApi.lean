import Verif.PropsChoice
import Verif.Api

/-!
# Entry points: C31 (streaming), C32 (`parse`, results, error iteration)
-/

namespace PPC

variable {S : Sig} {N : Names S} {al : Alloc} {e : Env S} {s s' : Stream S} {D : Defs S N} {n : Nat}
  {ε : ErrTy S} {α β : Type} {g : G S N ε α} {r : Res α ε.E} {i j k m : Nat}

/-! ## Specification -/

/-- What an iterator over parse results must answer, starting at position `i`: if there is a
token at `i`, the result of running the parser there, continuing where it stopped; at end of
input nothing. `Answers … i rs j`: the answers `rs`, after which the position is `j`. -/
inductive Answers (e : Env S) (D : Defs S N) (n : Nat) (g : G S N ε α) :
    Nat → List (Option (Res α ε.E)) → Nat → Prop
  | nil (i : Nat) : Answers e D n g i [] i
  | result {i j l : Nat} {t : S.I} {r : Res α ε.E} {rs : List (Option (Res α ε.E))} :
      e.source i = some t → ParsesAt e D n g true i r j → Answers e D n g j rs l →
      Answers e D n g i (some r :: rs) l
  | eof {i l : Nat} {rs : List (Option (Res α ε.E))} : e.source i = none → Answers e D n g i rs l →
      Answers e D n g i (none :: rs) l

/-- The first `m` answers of an iterator over the tokens from position `i` on: the tokens of the
input in order, and nothing from the end of input on. -/
def Remaining (e : Env S) (i m : Nat) (ts : List (Option S.I)) : Prop :=
  ts.length = m ∧ ∀ (a : Nat) (t : S.I), ts[a]? = some (some t) ↔
    a < m ∧ Valid e (i + a) ∧ e.source (i + a) = some t

/-! ## Auxiliary lemmas -/

/-- A call whose ideal counterpart returns. -/
theorem Reach.run_ideal (h : Reach al e s) {p : Prog S β} {x : β} {f : Cursor → Cursor}
    (hp : ∀ c : Cursor, c.pos = s.index → p.run (Cursor.step e) c = .ok (x, f c)) :
    ∃ s' c, p.run Stream.step s = .ok (x, s') ∧ Reach al e s' ∧ c.pos = s.index ∧
      s'.index = (f c).pos := by
  obtain ⟨st, c, hs⟩ := h.sim
  obtain ⟨st', s', h1, h2, h3⟩ := Reach.run p h hs (hp c hs.pos.symm)
  exact ⟨s', c, h1, h3, hs.pos.symm, h2.pos⟩

theorem Reach.run_eof (h : Reach al e s) : ∃ s', (Prog.eof : Prog S Bool).run Stream.step s =
    .ok ((e.source s.index).isNone, s') ∧ Reach al e s' ∧ s'.index = s.index := by
  obtain ⟨s', c, h1, h2, h3, h4⟩ := h.run_ideal (p := (Prog.eof : Prog S Bool))
    (x := (e.source s.index).isNone) (f := Cursor.look) fun c hc => by
      rw [← hc]; rfl
  exact ⟨s', h1, h2, h4.trans h3⟩

theorem Reach.run_tailNext (h : Reach al e s) : ∃ s', (tailNext : Prog S (Option S.I)).run Stream.step s =
    .ok (e.source s.index, s') ∧ Reach al e s' ∧ s'.index = e.next s.index := by
  cases hs : (e.source s.index).isSome with
  | true =>
    obtain ⟨s', c, h1, h2, h3, h4⟩ := h.run_ideal (p := (tailNext : Prog S (Option S.I)))
      (x := e.source s.index) (f := fun c => { c.look.look with pos := c.pos + 1 }) fun c hc => by
        have hs' : (e.source c.look.pos).isSome = true := by show (e.source c.pos).isSome = true; rw [hc]; exact hs
        rw [← hc]
        simp only [tailNext, Prog.bind_eq, Prog.token, Prog.advance, Prog.op_bind, Prog.ret_bind,
          Prog.run, Cursor.step, Out.ok_bind]
        rw [if_pos hs']
        rfl
    exact ⟨s', h1, h2, by rw [h4]; simp [h3, Env.next, hs]⟩
  | false =>
    obtain ⟨s', c, h1, h2, h3, h4⟩ := h.run_ideal (p := (tailNext : Prog S (Option S.I)))
      (x := e.source s.index) (f := fun c => c.look.look) fun c hc => by
        have hs' : (e.source c.look.pos).isSome = false := by show (e.source c.pos).isSome = false; rw [hc]; exact hs
        rw [← hc]
        simp only [tailNext, Prog.bind_eq, Prog.token, Prog.advance, Prog.op_bind, Prog.ret_bind,
          Prog.run, Cursor.step, Out.ok_bind]
        rw [if_neg (by rw [hs']; decide)]
        rfl
    exact ⟨s', h1, h2, by rw [h4]; simp [Env.next, hs]; exact h3⟩

theorem run_collect_succ (p : Prog S β) (k : Nat) (s : Stream S) :
    (collect p (k + 1)).run Stream.step s =
      (p.run Stream.step s >>= fun x => (collect p k).run Stream.step x.2 >>= fun y =>
        .ok (x.1 :: y.1, y.2)) := by
  simp only [collect, Prog.bind_eq, Prog.run_bind]
  rfl

theorem run_streamNext_none (h : Reach al e s) (hs : e.source s.index = none) :
    ∃ s', (streamNext (g.prog D n)).run Stream.step s = .ok (none, s') ∧ Reach al e s' ∧
      s'.index = s.index := by
  obtain ⟨s1, h1, h2, h3⟩ := h.run_eof
  rw [hs] at h1
  refine ⟨s1, ?_, h2, h3⟩
  simp only [streamNext, Prog.bind_eq, Prog.run_bind, h1, Out.ok_bind]
  rfl

theorem run_streamNext_some (h : Reach al e s) {t : S.I} (hs : e.source s.index = some t) :
    ∃ s1, Reach al e s1 ∧ s1.index = s.index ∧
      (streamNext (g.prog D n)).run Stream.step s =
        ((g.prog D n true).run Stream.step s1 >>= fun x => .ok (some x.1, x.2)) := by
  obtain ⟨s1, h1, h2, h3⟩ := h.run_eof
  rw [hs] at h1
  refine ⟨s1, h2, h3, ?_⟩
  simp only [streamNext, Prog.bind_eq, Prog.run_bind, h1, Out.ok_bind]
  show ((g.prog D n true).bind _).run _ _ = _
  rw [Prog.run_bind]
  rfl

/-- The answers of the tail. -/
def tailList (e : Env S) : Nat → Nat → List (Option S.I)
  | _, 0 => []
  | i, m + 1 => e.source i :: tailList e (e.next i) m

theorem run_tail (m : Nat) : ∀ {s : Stream S}, Reach al e s →
    ∃ s', (collect tailNext m).run Stream.step s = .ok (tailList e s.index m, s') := by
  induction m with
  | zero => intro s _; exact ⟨s, rfl⟩
  | succ m ih =>
    intro s h
    obtain ⟨s1, h1, h2, h3⟩ := h.run_tailNext
    obtain ⟨s2, h4⟩ := ih h2
    refine ⟨s2, ?_⟩
    rw [run_collect_succ, h1, Out.ok_bind, h4, h3]
    rfl

theorem tailList_remaining (m : Nat) : ∀ {i : Nat}, Valid e i → Remaining e i m (tailList e i m) := by
  induction m with
  | zero => intro i _; exact ⟨rfl, by intro a t; simp [tailList]⟩
  | succ m ih =>
    intro i hi
    obtain ⟨h1, h2⟩ := ih hi.next
    refine ⟨by simp [tailList, h1], ?_⟩
    intro a t
    cases a with
    | zero => simp [tailList, hi]
    | succ a =>
      show (tailList e (e.next i) m)[a]? = _ ↔ _
      rw [h2]
      cases hs : (e.source i).isSome with
      | true =>
        have : e.next i = i + 1 := by simp [Env.next, hs]
        rw [this, show i + 1 + a = i + (a + 1) by omega]
        simp
      | false =>
        have : e.next i = i := by simp [Env.next, hs]
        rw [this]
        constructor
        · rintro ⟨h3, h4, h5⟩
          cases a with
          | zero => rw [Nat.add_zero] at h5; rw [h5] at hs; cases hs
          | succ a => exact absurd (h4 i (by omega)) (by rw [hs]; simp)
        · rintro ⟨h3, h4, h5⟩
          exact absurd (h4 i (by omega)) (by rw [hs]; simp)

theorem Remaining.unique {ts ts' : List (Option S.I)} (h : Remaining e i m ts) (h' : Remaining e i m ts') :
    ts = ts' := by
  apply List.ext_getElem? 
  intro a
  by_cases ha : a < m
  · have h1 : ∃ x, ts[a]? = some x := ⟨_, List.getElem?_eq_getElem (by rw [h.1]; exact ha)⟩
    have h2 : ∃ x, ts'[a]? = some x := ⟨_, List.getElem?_eq_getElem (by rw [h'.1]; exact ha)⟩
    obtain ⟨x, h1⟩ := h1
    obtain ⟨y, h2⟩ := h2
    rw [h1, h2]
    cases x with
    | some t =>
      have := (h'.2 a t).2 ((h.2 a t).1 h1)
      rw [h2] at this
      exact this.symm
    | none =>
      cases y with
      | none => rfl
      | some t =>
        have := (h.2 a t).2 ((h'.2 a t).1 h2)
        rw [h1] at this
        exact this
  · rw [List.getElem?_eq_none (by rw [h.1]; omega), List.getElem?_eq_none (by rw [h'.1]; omega)]

theorem run_answers (k : Nat) : ∀ {s s' : Stream S} {rs}, Reach al e s →
    (collect (streamNext (g.prog D n)) k).run Stream.step s = .ok (rs, s') →
    Answers e D n g s.index rs s'.index ∧ rs.length = k ∧ Reach al e s' := by
  induction k with
  | zero =>
    intro s s' rs h hr
    cases hr
    exact ⟨.nil _, rfl, h⟩
  | succ k ih =>
    intro s s' rs h hr
    rw [run_collect_succ] at hr
    cases hs : e.source s.index with
    | none =>
      obtain ⟨s1, h1, h2, h3⟩ := run_streamNext_none (g := g) (D := D) (n := n) h hs
      rw [h1, Out.ok_bind, Out.bind_eq_ok] at hr
      obtain ⟨⟨rs', s2⟩, h4, h5⟩ := hr
      cases h5
      obtain ⟨h6, h7, h8⟩ := ih h2 h4
      rw [h3] at h6
      exact ⟨.eof hs h6, by simp [h7], h8⟩
    | some t =>
      obtain ⟨s1, h2, h3, h1⟩ := run_streamNext_some (g := g) (D := D) (n := n) h hs
      rw [h1, Out.bind_assoc', Out.bind_eq_ok] at hr
      obtain ⟨⟨r, s2⟩, h4, h5⟩ := hr
      obtain ⟨h9, h10, -⟩ := G.run_sem D n g true h2 h4
      rw [Out.ok_bind, Out.bind_eq_ok] at h5
      obtain ⟨⟨rs', s3⟩, h6, h7⟩ := h5
      cases h7
      obtain ⟨h11, h12, h13⟩ := ih h10 h6
      rw [h3] at h9
      exact ⟨.result hs ((parsesAt_iff h.valid).2 h9) h11, by simp [h12], h13⟩

theorem answers_run {rs : List (Option (Res α ε.E))} (h : Answers e D n g i rs j) : ∀ {s : Stream S},
    Reach al e s → s.index = i →
    ∃ s', (collect (streamNext (g.prog D n)) rs.length).run Stream.step s = .ok (rs, s') ∧
      s'.index = j ∧ Reach al e s' := by
  induction h with
  | nil i => intro s h hi; exact ⟨s, rfl, hi, h⟩
  | @result i j l t r rs hs hp _ ih =>
    intro s h hi
    subst hi
    obtain ⟨s1, h2, h3, h1⟩ := run_streamNext_some (g := g) (D := D) (n := n) h hs
    obtain ⟨s2, h4, h5⟩ := hp al s1 h2 h3
    have h6 := (G.run_sem D n g true h2 h4).2.1
    obtain ⟨s3, h7, h8, h9⟩ := ih h6 h5
    have h4' : (g.prog D n true).run Stream.step s1 = .ok (r, s2) := h4
    refine ⟨s3, ?_, h8, h9⟩
    show (collect _ (rs.length + 1)).run _ _ = _
    rw [run_collect_succ, h1, h4']
    simp only [Out.ok_bind, h7]
  | @eof i l rs hs _ ih =>
    intro s h hi
    subst hi
    obtain ⟨s1, h1, h2, h3⟩ := run_streamNext_none (g := g) (D := D) (n := n) h hs
    obtain ⟨s3, h7, h8, h9⟩ := ih h2 h3
    refine ⟨s3, ?_, h8, h9⟩
    show (collect _ (rs.length + 1)).run _ _ = _
    rw [run_collect_succ, h1]
    simp only [Out.ok_bind, h7]

/-! ## C31: streaming -/

/-- C31: `k` calls of `next` on `parser.stream(source)` followed by `m` calls of `next` on its
`tail()` return the answers `rs` and `ts` exactly when `rs` are the results of running the parser
again and again, each time where the previous run stopped, answering nothing exactly at end of
input, and `ts` are exactly the tokens of the source from there on. -/
theorem C31_stream (al : Alloc) (source : Nat → Option S.I) (start : S.L) (k m : Nat)
    (rs : List (Option (Res α ε.E))) (ts : List (Option S.I)) :
    (∃ s', (streamThenTail (g.prog D n) k m).run Stream.step
        (Stream.newWithLocation al source start) = .ok ((rs, ts), s')) ↔
      rs.length = k ∧ ∃ j, Answers ⟨source, start⟩ D n g 0 rs j ∧ Remaining ⟨source, start⟩ j m ts := by
  have h0 : Reach al ⟨source, start⟩ (Stream.newWithLocation al source start) := .new
  constructor
  · rintro ⟨s', h⟩
    simp only [streamThenTail, Prog.bind_eq, Prog.run_bind] at h
    rw [Out.bind_eq_ok] at h
    obtain ⟨⟨rs', s1⟩, h1, h2⟩ := h
    obtain ⟨h3, h4, h5⟩ := run_answers k h0 h1
    obtain ⟨s2, h6⟩ := run_tail m h5
    rw [h6] at h2
    simp only [Out.ok_bind, Prog.pure_eq, Prog.run] at h2
    cases h2
    exact ⟨h4, s1.index, h3, tailList_remaining m h5.valid⟩
  · rintro ⟨hk, j, h1, h2⟩
    subst hk
    obtain ⟨s1, h3, h4, h5⟩ := answers_run h1 h0 rfl
    obtain ⟨s2, h6⟩ := run_tail m h5
    refine ⟨s2, ?_⟩
    simp only [streamThenTail, Prog.bind_eq, Prog.run_bind]
    rw [h3]
    simp only [Out.ok_bind, h6, Prog.pure_eq, Prog.run]
    rw [h4, (tailList_remaining m (h4 ▸ h5.valid)).unique h2]

/-- C31: once `next` answers nothing, it does so for ever, and the position does not move. -/
theorem C31_ends_for_ever {rs : List (Option (Res α ε.E))} (h : Answers e D n g i (none :: rs) j) :
    e.source i = none ∧ j = i ∧ ∀ x ∈ rs, x = none := by
  cases h with
  | eof hs h =>
    refine ⟨hs, ?_⟩
    induction h with
    | nil i => exact ⟨rfl, by simp⟩
    | result h1 _ _ => rw [hs] at h1; cases h1
    | eof h1 _ ih =>
      obtain ⟨h2, h3⟩ := ih hs
      exact ⟨h2, by simpa using h3⟩

/-- C31: no token is lost or duplicated. For a finite source, the tokens before the position
where the results stopped, followed by those the tail yields, are the source. -/
theorem C31_conserves {xs : List S.I} {start : S.L} {rs : List (Option (Res α ε.E))}
    {ts : List (Option S.I)} (h1 : Answers ⟨fun i => xs[i]?, start⟩ D n g 0 rs j)
    (h2 : Remaining ⟨fun i => xs[i]?, start⟩ j m ts) (hm : xs.length ≤ j + m) :
    xs.take j ++ ts.filterMap id = xs ∧ j ≤ xs.length := by
  have hv : ∀ {i : Nat} {rs : List (Option (Res α ε.E))} {j : Nat},
      Answers ⟨fun i => xs[i]?, start⟩ D n g i rs j → Valid ⟨fun i => xs[i]?, start⟩ i →
      Valid ⟨fun i => xs[i]?, start⟩ j := by
    intro i rs j h
    induction h with
    | nil i => exact id
    | result _ hp _ ih => exact fun hi => ih (hp.valid hi)
    | eof _ _ ih => exact ih
  have hj := hv h1 .zero
  have hjl : j ≤ xs.length := by
    cases j with
    | zero => exact Nat.zero_le _
    | succ j =>
      have := hj j (Nat.lt_succ_self j)
      simp only at this
      by_cases hlt : j < xs.length
      · exact hlt
      · rw [List.getElem?_eq_none (by omega)] at this; cases this
  refine ⟨?_, hjl⟩
  have hts : ts = (List.range m).map fun a => xs[j + a]? := by
    apply Remaining.unique h2
    refine ⟨by simp, ?_⟩
    intro a t
    simp only [List.getElem?_map]
    constructor
    · intro h
      by_cases ha : a < m
      · rw [List.getElem?_range ha] at h
        simp only [Option.map_some] at h
        have h3 : xs[j + a]? = some t := Option.some.inj h
        refine ⟨ha, ?_, h3⟩
        intro b hb
        have : j + a < xs.length := by
          by_cases hlt : j + a < xs.length
          · exact hlt
          · rw [List.getElem?_eq_none (by omega)] at h3; cases h3
        simp only
        rw [List.getElem?_eq_getElem (by omega)]
        rfl
      · rw [List.getElem?_eq_none (by simp; omega)] at h; cases h
    · rintro ⟨ha, -, h3⟩
      rw [List.getElem?_range ha]
      simp only [Option.map_some]
      exact congrArg some h3
  have key : ∀ (m j : Nat), xs.length ≤ j + m →
      ((List.range m).map fun a => xs[j + a]?).filterMap id = xs.drop j := by
    intro m
    induction m with
    | zero => intro j h; simp; omega
    | succ m ih =>
      intro j h
      rw [List.range_succ_eq_map]
      simp only [List.map_cons, List.map_map]
      have h4 := ih (j + 1) (by omega)
      have h5 : ((fun a => xs[j + a]?) ∘ Nat.succ) = fun a => xs[j + 1 + a]? := by
        funext a
        simp only [Function.comp]
        congr 1
        omega
      rw [h5]
      by_cases hlt : j < xs.length
      · rw [List.filterMap_cons_some (b := xs[j]) (by simp [hlt]), h4,
          ← List.drop_eq_getElem_cons hlt]
      · rw [List.filterMap_cons_none (by simp; omega), h4, List.drop_eq_nil_of_le (by omega),
          List.drop_eq_nil_of_le (by omega)]
  rw [hts, key m j hm, List.take_append_drop]

/-- C31: a parser that fails and rewinds, as parsers that satisfy C11 do, consumes nothing:
the stream repeats the same failure for ever and never ends. -/
theorem C31_failure_repeats {t : S.I} {x : Nat} {es : List ε.E} (hs : e.source i = some t)
    (h : ParsesAt e D n g true i (.failed x es) i) {rs : List (Option (Res α ε.E))}
    (hi : Valid e i) : Answers e D n g i rs j ↔ j = i ∧ ∀ y ∈ rs, y = some (.failed x es) := by
  constructor
  · intro ha
    generalize hl : i = l at ha
    induction ha with
    | nil l => exact ⟨hl.symm ▸ rfl, by simp⟩
    | @result l j' l' t' r' rs' hs' hp _ ih =>
      subst hl
      have h1 := (parsesAt_iff hi).1 h
      have h2 := (parsesAt_iff hi).1 hp
      rw [h1] at h2
      cases h2
      obtain ⟨h3, h4⟩ := ih rfl
      exact ⟨h3, fun y hy => (List.mem_cons.1 hy).elim id (h4 y)⟩
    | eof hs' _ _ => subst hl; rw [hs] at hs'; cases hs'
  · rintro ⟨rfl, h1⟩
    induction rs with
    | nil => exact .nil _
    | cons y rs ih =>
      rw [h1 y (by simp)]
      exact .result hs h (ih fun z hz => h1 z (by simp [hz]))

/-- A concrete case: `one_of([1, 2]).then(just(0))` streamed over `1 0 2 0 3 4`: two results,
a failure, and the tail `3 4`. -/
example : ∃ j, Answers (exEnv [1, 0, 2, 0, 3, 4]) exNoDefs 20
    (.then_ (.oneOf (S := exSig) [1, 2]) (.just (S := exSig) 0) : ExG (Nat × Nat)) 0
    [some (.success (1, 0)), some (.success (2, 0)),
      some (.failed 4 [(simpleErr exSig).expectedFound [some 1, some 2] (some 3) (.span (4, 5))])] j ∧
    j = 4 := by
  refine ⟨4, ?_, rfl⟩
  have v : ∀ i, i ≤ 6 → Valid (exEnv [1, 0, 2, 0, 3, 4]) i := by
    intro i hi a ha
    have : a < 6 := by omega
    match a with
    | 0 | 1 | 2 | 3 | 4 | 5 => rfl
  refine .result (t := (1 : Nat)) rfl (j := 2) ((parsesAt_iff (v 0 (by omega))).2 (by decide +kernel)) ?_
  refine .result (t := (2 : Nat)) rfl (j := 4) ((parsesAt_iff (v 2 (by omega))).2 (by decide +kernel)) ?_
  exact .result (t := (3 : Nat)) rfl (j := 4) ((parsesAt_iff (v 4 (by omega))).2 (by decide +kernel)) (.nil _)

example : Remaining (exEnv [1, 0, 2, 0, 3, 4]) 4 3 [some 3, some 4, none] := by
  refine ⟨rfl, ?_⟩
  have v : ∀ i, i ≤ 6 → Valid (exEnv [1, 0, 2, 0, 3, 4]) i := by
    intro i hi a ha
    have : a < 6 := by omega
    match a with
    | 0 | 1 | 2 | 3 | 4 | 5 => rfl
  intro a t
  match a with
  | 0 => simp [v 4 (by omega)]
  | 1 => simp [v 5 (by omega)]
  | 2 => simp [exEnv]
  | a + 3 =>
    simp only [List.getElem?_cons_succ, List.getElem?_nil]
    constructor
    · intro h; cases h
    · rintro ⟨h, -⟩; omega

/-! ## C32: `parse` and results -/

/-- C32: `parse_with_recovery` runs the parser at the start of the input with recovery enabled. -/
theorem C32_parse_with_recovery (al : Alloc) (source : Nat → Option S.I) (start : S.L) :
    parseWithRecovery (g.prog D n) al source start = .ok r ↔
      ∃ j, ParsesAt ⟨source, start⟩ D n g true 0 r j := by
  have h0 : Reach al ⟨source, start⟩ (Stream.newWithLocation al source start) := .new
  unfold parseWithRecovery
  rw [Out.bind_eq_ok]
  constructor
  · rintro ⟨⟨r', s'⟩, h1, h2⟩
    cases h2
    exact ⟨s'.index, C41_one_run_is_all_runs h0 h1⟩
  · rintro ⟨j, h⟩
    obtain ⟨s', h1, -⟩ := h al _ h0 rfl
    exact ⟨(r, s'), h1, rfl⟩

/-- C32: `parse` returns `Ok(o)` exactly when `parse_with_recovery` returns `Success(o)`. -/
theorem C32_parse_ok (p : Parser S ε.E α) (al : Alloc) (source : Nat → Option S.I) (start : S.L) (o : α) :
    parse ε p al source start = .ok (.ok o) ↔ parseWithRecovery p al source start = .ok (.success o) := by
  unfold parse
  cases parseWithRecovery p al source start with
  | ok r => cases r <;> simp [Out.map, Res.toExcept]
  | _ => simp [Out.map]

/-- C32: `parse` returns `Err(x)` exactly when `parse_with_recovery` returns a recovered or
failed result whose first error is `x`, or that has no errors, `x` then being `unknown error`. -/
theorem C32_parse_err (p : Parser S ε.E α) (al : Alloc) (source : Nat → Option S.I) (start : S.L)
    (x : ε.E) :
    parse ε p al source start = .ok (.error x) ↔
      ∃ es, ((∃ o, parseWithRecovery p al source start = .ok (.recovered o es)) ∨
        (∃ f, parseWithRecovery p al source start = .ok (.failed f es))) ∧
        (es.head? = some x ∨ es = [] ∧ x = ε.simple "unknown error") := by
  unfold parse
  cases parseWithRecovery p al source start with
  | ok r =>
    cases r with
    | success o => simp [Out.map, Res.toExcept]
    | recovered o es => cases es <;> simp [Out.map, Res.toExcept, eq_comm]
    | failed i es => cases es <;> simp [Out.map, Res.toExcept, eq_comm]
  | _ => simp [Out.map]

/-- C32: `parse` panics exactly when `parse_with_recovery` does. -/
theorem C32_parse_panic (p : Parser S ε.E α) (al : Alloc) (source : Nat → Option S.I) (start : S.L)
    (msg : String) :
    parse ε p al source start = .panic msg ↔ parseWithRecovery p al source start = .panic msg := by
  unfold parse
  cases parseWithRecovery p al source start <;> simp [Out.map]

/-- C32: `is_ok` is true exactly for `Success`. -/
theorem C32_is_ok {E : Type} (r : Res α E) : r.isOk = true ↔ ∃ o, r = .success o := by
  cases r <;> simp [Res.isOk]

/-- C32: `tree` is the output of `Success` and `Recovered`, and nothing for `Failed`. -/
theorem C32_tree {E : Type} (r : Res α E) (o : α) :
    r.tree = some o ↔ r = .success o ∨ ∃ es, r = .recovered o es := by
  cases r <;> simp [Res.tree]

/-- C32: `map` changes the output only. -/
theorem C32_map {E : Type} (r : Res α E) (f : α → β) :
    (r.map f).tree = r.tree.map f ∧ (r.map f).isOk = r.isOk ∧ (r.map f).errorList = r.errorList ∧
      ∀ i es, r.map f = .failed i es ↔ r = .failed i es := by
  cases r <;> simp [Res.tree, Res.map, Res.isOk, Res.errorList]

/-- C32: `map_err` changes the errors only. -/
theorem C32_map_err {E X : Type} (r : Res α E) (f : E → X) :
    (r.mapErr f).tree = r.tree ∧ (r.mapErr f).isOk = r.isOk ∧
      (r.mapErr f).errorList = r.errorList.map f ∧
      ∀ i, (∃ es, r.mapErr f = .failed i es) ↔ ∃ es, r = .failed i es := by
  cases r <;> simp [Res.tree, Res.mapErr, Res.isOk, Res.errorList]

/-- The first `m` answers of an iterator over errors. -/
def ErrorIter.answers {E : Type} : Nat → ErrorIter E → List (Option E)
  | 0, _ => []
  | m + 1, it => it.next.1 :: ErrorIter.answers m it.next.2

theorem ErrorIter.answers_many {E : Type} (es : List E) : ∀ (m i a : Nat), a < m →
    (ErrorIter.answers m (.many es i))[a]? = some es[i + a]? := by
  intro m
  induction m with
  | zero => intro i a h; omega
  | succ m ih =>
    intro i a h
    by_cases hl : es.length ≤ i
    · have hn : (ErrorIter.many es i).next = (Option.none, ErrorIter.many es i) := by simp [ErrorIter.next, hl]
      cases a with
      | zero => simp [ErrorIter.answers, hn, List.getElem?_eq_none hl]
      | succ a =>
        simp only [ErrorIter.answers, hn, List.getElem?_cons_succ]
        rw [ih i a (by omega), List.getElem?_eq_none (by omega), List.getElem?_eq_none (by omega)]
    · have hn : (ErrorIter.many es i).next = (Option.some (es[i]'(by omega)), ErrorIter.many es (i + 1)) := by
        simp [ErrorIter.next, hl]
      cases a with
      | zero => simp [ErrorIter.answers, hn, List.getElem?_eq_getElem (show i < es.length by omega)]
      | succ a =>
        simp only [ErrorIter.answers, hn, List.getElem?_cons_succ]
        rw [ih (i + 1) a (by omega), show i + 1 + a = i + (a + 1) by omega]

/-- C32: the error iterator answers the errors of the result in order, one per call, and then
nothing for ever. -/
theorem C32_errors {E : Type} (r : Res α E) (m a : Nat) (h : a < m) :
    (r.errors.answers m)[a]? = some r.errorList[a]? := by
  have hnone : ∀ m a : Nat, a < m → (ErrorIter.answers m (.none : ErrorIter E))[a]? = Option.some Option.none := by
    intro m
    induction m with
    | zero => intro a h; omega
    | succ m ih =>
      intro a h
      cases a with
      | zero => rfl
      | succ a => exact ih a (by omega)
  cases r with
  | success o => simpa [Res.errors, Res.errorList] using hnone m a h
  | recovered o es =>
    have := ErrorIter.answers_many es m 0 a h
    rwa [Nat.zero_add] at this
  | failed i es =>
    have := ErrorIter.answers_many es m 0 a h
    rwa [Nat.zero_add] at this

/-- A concrete case: `parse` reports the first of the two errors of a failure. -/
example : ∃ x y, parseWithRecovery
    ((.toRecover (.just (S := exSig) 1) (.orFail (.pushError .attemptTo fun _ => (simpleErr exSig).simple "second")) :
      ExG Nat).prog exNoDefs 20) rustAlloc (exEnv [7]).source (exEnv [7]).start = .ok (.failed 0 [x, y]) ∧
    parse (simpleErr exSig)
      ((.toRecover (.just (S := exSig) 1) (.orFail (.pushError .attemptTo fun _ => (simpleErr exSig).simple "second")) :
        ExG Nat).prog exNoDefs 20) rustAlloc (exEnv [7]).source (exEnv [7]).start = .ok (.error x) ∧ x ≠ y := by
  have h : parseWithRecovery
      ((.toRecover (.just (S := exSig) 1)
        (.orFail (.pushError .attemptTo fun _ => (simpleErr exSig).simple "second")) :
        ExG Nat).prog exNoDefs 20) rustAlloc (exEnv [7]).source (exEnv [7]).start =
      .ok (.failed 0 [(simpleErr exSig).expectedFound [some 1] (some 7) (.span (0, 1)),
        (simpleErr exSig).simple "second"]) := by decide +kernel
  exact ⟨_, _, h, (C32_parse_err _ _ _ _ _).2 ⟨_, .inr ⟨_, h⟩, .inl rfl⟩, by decide +kernel⟩

end PPC
