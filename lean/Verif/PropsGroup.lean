import Verif.PropsReport
import Verif.Builder

/-!
# C59: how alternatives are grouped makes no difference

With recovery disabled. The specification is `Alike`, which speaks about results of parses; the theorems use the
relations `Accepts` and `Reports`, which give them (C34, C58).
-/

namespace PPC

variable {S : Sig} {N : Names S} {e : Env S} {D : Defs S N} {α β : Type}

/-! ## Specification -/

/-- One "expected …, found …" error each, which differ at most in the order in which expectations are listed. -/
def SameErrors (es es' : List (simpleErr S).E) : Prop :=
  ∃ xs ys found at_, es = [.expectedFound xs found at_] ∧ es' = [.expectedFound ys found at_] ∧
    ∀ z, OneOf S.eqI z xs ↔ OneOf S.eqI z ys

/-- What the first parser returns, the second does too: the same output after the same tokens, or a failure at the same
position with the same error. -/
def Follows (e : Env S) (D : Defs S N) (g g' : G S N (simpleErr S) α) : Prop := ∀ i, Valid e i →
  (∀ o j, Finishes e D g false i (.success o) j → Finishes e D g' false i (.success o) j) ∧
  ∀ k es j, Finishes e D g false i (.failed k es) j →
    ∃ es', Finishes e D g' false i (.failed k es') j ∧ SameErrors es es'

/-- The two parsers return the same, from everywhere. -/
def Alike (e : Env S) (D : Defs S N) (g g' : G S N (simpleErr S) α) : Prop := Follows e D g g' ∧ Follows e D g' g

/-- Neither `end()` nor `none_of`, which refer to positions by location. -/
def G.BySpan : {ε : ErrTy S} → {α : Type} → G S N ε α → Prop
  | _, _, .eof => False
  | _, _, .noneOf _ => False
  | _, _, _ => True

/-- Without `end()` and `none_of`. -/
def bySpanL (S : Sig) (N : Names S) : Local S N where
  g := G.BySpan
  s := fun _ => True

/-- What C59 asks of parsers: they are parsing expressions, no function of the user makes or changes errors, there is no
`end()` and no `none_of`. -/
structure G.Ordinary {ε : ErrTy S} (g : G S N ε α) : Prop where
  plain : g.All (plainL S N)
  tidy : g.Tidy
  noUserErr : g.All (noUserErrL S N)
  bySpan : g.All (bySpanL S N)

/-- What C59 asks of recursive parsers. -/
structure Defs.Ordinary (D : Defs S N) : Prop where
  err : ∀ k, N.err k = simpleErr S
  plain : D.Plain
  noUserErr : D.All (noUserErrL S N)
  bySpan : D.All (bySpanL S N)

/-! ## Reports by span -/

theorem Report.Choice.mem {ps : List (Report S)} {r : Report S} (h : Report.Choice ps r) :
    ∃ p ∈ ps, r.byLocation = p.byLocation := by
  obtain ⟨b, p, c, h1, -, -, -, h2, -⟩ := h
  exact ⟨p, by rw [h1]; simp, h2⟩

section

set_option linter.unusedSectionVars false

variable (hD : D.All (bySpanL S N))
include hD

mutual

theorem Reports.bySpan {ε : ErrTy S} {α : Type} {g : G S N ε α} {i : Nat} {r : Report S} :
    Reports e D g i r → g.All (bySpanL S N) → r.byLocation = false
  | .eof _, h => by simp [G.All, bySpanL, G.BySpan] at h
  | .just _, _ => rfl
  | .filter _, _ => rfl
  | .filterMap _, _ => rfl
  | .seq _ _ _, _ => rfl
  | .oneOf _, _ => rfl
  | .noneOf _ _ _, h => by simp [G.All, bySpanL, G.BySpan] at h
  | .noneOfEnd _, h => by simp [G.All, bySpanL, G.BySpan] at h
  | .boxed w, h => by rw [G.All] at h; exact w.bySpan h.2
  | .withError w, h => by rw [G.All] at h; exact w.bySpan h.2
  | .to w, h => by rw [G.All] at h; exact w.bySpan h.2
  | .some w, h => by rw [G.All] at h; exact w.bySpan h.2
  | .map w, h => by rw [G.All] at h; exact w.bySpan h.2
  | .mapWithSpan w, h => by rw [G.All] at h; exact w.bySpan h.2
  | .tryMap w, h => by rw [G.All] at h; exact w.bySpan h.2
  | .thenFirst w, h => by rw [G.All] at h; exact w.bySpan h.2.1
  | .thenSecond _ w, h => by rw [G.All] at h; exact w.bySpan h.2.2
  | .thenIgnoreFirst w, h => by rw [G.All] at h; exact w.bySpan h.2.1
  | .thenIgnoreSecond _ w, h => by rw [G.All] at h; exact w.bySpan h.2.2
  | .ignoreThenFirst w, h => by rw [G.All] at h; exact w.bySpan h.2.1
  | .ignoreThenSecond _ w, h => by rw [G.All] at h; exact w.bySpan h.2.2
  | .delimitedByLeft w, h => by rw [G.All] at h; exact w.bySpan h.2.1
  | .delimitedByMiddle _ w, h => by rw [G.All] at h; exact w.bySpan h.2.2.1
  | .delimitedByRight _ _ w, h => by rw [G.All] at h; exact w.bySpan h.2.2.2
  | .paddedByLeft w, h => by rw [G.All] at h; exact w.bySpan h.2.1
  | .paddedByMiddle _ w, h => by rw [G.All] at h; exact w.bySpan h.2.2
  | .paddedByRight _ _ w, h => by rw [G.All] at h; exact w.bySpan h.2.1
  | .chain w, h => by rw [G.All] at h; exact w.bySpan h.2
  | .or w w' hc, h => by
    rw [G.All] at h
    have h1 := w.bySpan h.2.1
    have h2 := w'.bySpan h.2.2
    obtain ⟨p, h3, h4⟩ := hc.mem
    rw [h4]
    simp only [List.mem_cons, List.not_mem_nil, or_false] at h3
    rcases h3 with rfl | rfl
    · exact h1
    · exact h2
  | .alters w hc, h => by
    rw [G.All] at h
    have h1 := w.bySpan h.2
    obtain ⟨p, h3, h4⟩ := hc.mem
    rw [h4]
    exact h1 p h3
  | .repeated w, h => by rw [G.All] at h; exact w.bySpan h.2 (by simp)
  | .separatedBy w, h => by
    rw [G.All] at h
    exact w.bySpan h.2.1 fun s hs => by cases hs; exact h.2.2
  | .toRecover w, h => by rw [G.All] at h; exact w.bySpan h.2.1
  | .call hk w, _ => w.bySpan (hD _ _ hk)
termination_by structural h => h

theorem ReportsSome.bySpan {ε : ErrTy S} {α : Type} {gs : GL S N ε α} {i : Nat} {r : Report S} :
    ReportsSome e D gs i r → gs.All (bySpanL S N) → r.byLocation = false
  | .here w, h => by rw [GL.All] at h; exact w.bySpan h.1
  | .later _ w, h => by rw [GL.All] at h; exact w.bySpan h.2
termination_by structural h => h

theorem ReportsAll.bySpan {ε : ErrTy S} {α : Type} {gs : GL S N ε α} {i : Nat} {rs : List (Report S)} :
    ReportsAll e D gs i rs → gs.All (bySpanL S N) → ∀ r ∈ rs, r.byLocation = false
  | .nil, _ => by simp
  | .cons w w', h => by
    rw [GL.All] at h
    have h1 := w.bySpan h.1
    have h2 := w'.bySpan h.2
    intro r hr
    rcases List.mem_cons.1 hr with rfl | hr
    · exact h1
    · exact h2 r hr
termination_by structural h => h

theorem ReportsNoOther.bySpan {ε : ErrTy S} {α β : Type} {c : RepCfg} {g : G S N ε α} {sep : Option (G S N ε β)}
    {k i : Nat} {r : Report S} : ReportsNoOther e D c g sep k i r → g.All (bySpanL S N) →
    (∀ s, sep = Option.some s → s.All (bySpanL S N)) → r.byLocation = false
  | .plain w, h, _ => w.bySpan h
  | .unwanted _ w, h, _ => w.bySpan h
  | .separated _ _ w, h, _ => w.bySpan h
  | .noSeparator _ w, _, h => w.bySpan (h _ rfl)
  | .noLeading _ _ w, h, _ => w.bySpan h
termination_by structural h => h

theorem ReportsItems.bySpan {ε : ErrTy S} {α β : Type} {c : RepCfg} {g : G S N ε α} {sep : Option (G S N ε β)}
    {k i : Nat} {r : Report S} : ReportsItems e D c g sep k i r → g.All (bySpanL S N) →
    (∀ s, sep = Option.some s → s.All (bySpanL S N)) → r.byLocation = false
  | .another _ _ w, h, h' => w.bySpan h h'
  | .tooFew _ w _, h, h' => w.bySpan h h'
termination_by structural h => h

end

end

theorem Report.ext' {p q : Report S} (h1 : p.index = q.index) (h2 : p.byLocation = q.byLocation)
    (h3 : ∀ x, p.expected x ↔ q.expected x) : p = q := by
  cases p; cases q
  simp only at h1 h2 h3
  rw [h1, h2, funext fun x => propext (h3 x)]

theorem firstMax {m : Nat} : ∀ (ps : List (Report S)), (∃ q ∈ ps, q.index = m) → (∀ q ∈ ps, q.index ≤ m) →
    ∃ b p c, ps = b ++ p :: c ∧ (∀ q ∈ b, q.index < m) ∧ p.index = m
  | [], h, _ => by simp at h
  | p :: ps, h, hle => by
    by_cases hp : p.index = m
    · exact ⟨[], p, ps, rfl, by simp, hp⟩
    · obtain ⟨b, q, c, h1, h2, h3⟩ := firstMax ps
        (by obtain ⟨q, hq, hm⟩ := h
            rcases List.mem_cons.1 hq with rfl | hq
            · exact absurd hm hp
            · exact ⟨q, hq, hm⟩)
        (fun q hq => hle q (List.mem_cons_of_mem _ hq))
      refine ⟨p :: b, q, c, by rw [h1]; rfl, ?_, h3⟩
      intro x hx
      rcases List.mem_cons.1 hx with rfl | hx
      · have := hle x List.mem_cons_self; omega
      · exact h2 x hx

/-- If all refer to their positions by span, the expectations of all that got furthest are put together. -/
theorem Report.choice_iff {ps : List (Report S)} (h : ∀ q ∈ ps, q.byLocation = false) {r : Report S} :
    Report.Choice ps r ↔ r.byLocation = false ∧ (∃ q ∈ ps, q.index = r.index) ∧ (∀ q ∈ ps, q.index ≤ r.index) ∧
      ∀ x, r.expected x ↔ ∃ q ∈ ps, q.index = r.index ∧ q.expected x := by
  constructor
  · rintro ⟨b, p, c, h1, h2, h3, h4, h5, h6⟩
    have hp : p ∈ ps := by rw [h1]; simp
    refine ⟨h5.trans (h p hp), ⟨p, hp, h4.symm⟩, ?_, ?_⟩
    · intro q hq
      rw [h1, List.mem_append, List.mem_cons] at hq
      rcases hq with hq | rfl | hq
      · have := h2 q hq; omega
      · omega
      · have := h3 q hq; omega
    · intro x
      rw [h6]
      constructor
      · rintro ⟨q, hq, h7, -, h8⟩; exact ⟨q, hq, h7.trans h4.symm, h8⟩
      · rintro ⟨q, hq, h7, h8⟩; exact ⟨q, hq, h7.trans h4, by rw [h q hq, h p hp], h8⟩
  · rintro ⟨h1, h2, h3, h4⟩
    obtain ⟨b, p, c, h5, h6, h7⟩ := firstMax ps h2 h3
    have hp : p ∈ ps := by rw [h5]; simp
    refine ⟨b, p, c, h5, ?_, ?_, h7.symm, h1.trans (h p hp).symm, ?_⟩
    · rw [h7]; exact h6
    · intro q hq; rw [h7]; exact h3 q (by rw [h5]; simp [hq])
    · intro x
      rw [h4]
      constructor
      · rintro ⟨q, hq, h8, h9⟩; exact ⟨q, hq, h8.trans h7.symm, by rw [h q hq, h p hp], h9⟩
      · rintro ⟨q, hq, h8, -, h9⟩; exact ⟨q, hq, h8.trans h7, h9⟩

theorem exists_max : ∀ (ps : List (Report S)), ps ≠ [] → ∃ m, (∃ q ∈ ps, q.index = m) ∧ ∀ q ∈ ps, q.index ≤ m
  | [], h => (h rfl).elim
  | [p], _ => ⟨p.index, ⟨p, by simp, rfl⟩, by simp⟩
  | p :: q :: ps, _ => by
    obtain ⟨m, ⟨x, hx, hm⟩, h⟩ := exists_max (q :: ps) (by simp)
    by_cases hp : p.index ≤ m
    · refine ⟨m, ⟨x, List.mem_cons_of_mem _ hx, hm⟩, ?_⟩
      intro y hy
      rcases List.mem_cons.1 hy with rfl | hy
      · exact hp
      · exact h y hy
    · refine ⟨p.index, ⟨p, List.mem_cons_self, rfl⟩, ?_⟩
      intro y hy
      rcases List.mem_cons.1 hy with rfl | hy
      · exact Nat.le_refl _
      · have := h y hy; omega

theorem Report.choice_exists {ps : List (Report S)} (h : ∀ q ∈ ps, q.byLocation = false) (h0 : ps ≠ []) :
    ∃ r, Report.Choice ps r := by
  obtain ⟨m, h1, h2⟩ := exists_max ps h0
  exact ⟨⟨m, false, fun x => ∃ q ∈ ps, q.index = m ∧ q.expected x⟩, (Report.choice_iff h).2 ⟨rfl, h1, h2, fun _ => Iff.rfl⟩⟩

/-- A choice of choices is one choice. -/
theorem Report.choice_append {ps qs : List (Report S)} (h : ∀ q ∈ ps ++ qs, q.byLocation = false) {s t r : Report S}
    (hs : Report.Choice ps s) (ht : Report.Choice qs t) : Report.Choice [s, t] r ↔ Report.Choice (ps ++ qs) r := by
  have hps : ∀ q ∈ ps, q.byLocation = false := fun q hq => h q (List.mem_append_left _ hq)
  have hqs : ∀ q ∈ qs, q.byLocation = false := fun q hq => h q (List.mem_append_right _ hq)
  obtain ⟨s1, ⟨s2, s3, s4⟩, s5, s6⟩ := (Report.choice_iff hps).1 hs
  obtain ⟨t1, ⟨t2, t3, t4⟩, t5, t6⟩ := (Report.choice_iff hqs).1 ht
  have hst : ∀ q ∈ [s, t], q.byLocation = false := by
    intro q hq
    simp only [List.mem_cons, List.not_mem_nil, or_false] at hq
    rcases hq with rfl | rfl
    · exact s1
    · exact t1
  rw [Report.choice_iff hst, Report.choice_iff h]
  simp only [List.mem_cons, List.not_mem_nil, or_false, exists_eq_or_imp, exists_eq_left, forall_eq_or_imp,
    forall_eq, List.mem_append, s6, t6]
  constructor
  · rintro ⟨h1, h2, ⟨h3, h4⟩, h5⟩
    refine ⟨h1, ?_, ?_, ?_⟩
    · rcases h2 with h2 | h2
      · exact ⟨s2, .inl s3, by omega⟩
      · exact ⟨t2, .inr t3, by omega⟩
    · rintro q (hq | hq)
      · have := s5 q hq; omega
      · have := t5 q hq; omega
    · intro x
      rw [h5]
      constructor
      · rintro (⟨h6, q, hq, h7, h8⟩ | ⟨h6, q, hq, h7, h8⟩)
        · exact ⟨q, .inl hq, by omega, h8⟩
        · exact ⟨q, .inr hq, by omega, h8⟩
      · rintro ⟨q, hq | hq, h7, h8⟩
        · have := s5 q hq
          exact .inl ⟨by omega, q, hq, by omega, h8⟩
        · have := t5 q hq
          exact .inr ⟨by omega, q, hq, by omega, h8⟩
  · rintro ⟨h1, ⟨q, hq, h2⟩, h3, h5⟩
    have h6 := h3 s2 (.inl s3)
    have h7 := h3 t2 (.inr t3)
    refine ⟨h1, ?_, ⟨by omega, by omega⟩, ?_⟩
    · rcases hq with hq | hq
      · have := s5 q hq; exact .inl (by omega)
      · have := t5 q hq; exact .inr (by omega)
    · intro x
      rw [h5]
      constructor
      · rintro ⟨q, hq | hq, h8, h9⟩
        · have := s5 q hq
          exact .inl ⟨by omega, q, hq, by omega, h9⟩
        · have := t5 q hq
          exact .inr ⟨by omega, q, hq, by omega, h9⟩
      · rintro (⟨h8, q, hq, h9, h10⟩ | ⟨h8, q, hq, h9, h10⟩)
        · exact ⟨q, .inl hq, by omega, h10⟩
        · exact ⟨q, .inr hq, by omega, h10⟩

/-- A choice of one. -/
theorem Report.choice_one {p r : Report S} (h : p.byLocation = false) : Report.Choice [p] r ↔ r = p := by
  rw [Report.choice_iff (by simpa using h)]
  simp only [List.mem_cons, List.not_mem_nil, or_false, exists_eq_left, forall_eq]
  constructor
  · rintro ⟨h1, h2, -, h4⟩
    exact Report.ext' h2.symm (h1.trans h.symm) fun x => by rw [h4]; simp [h2]
  · rintro rfl
    exact ⟨h, rfl, Nat.le_refl _, fun x => by simp⟩

theorem Report.choice_twice {p r : Report S} (h : p.byLocation = false) : Report.Choice [p, p] r ↔ r = p := by
  rw [Report.choice_iff (by simpa using h)]
  simp only [List.mem_cons, List.not_mem_nil, or_false, or_self, exists_eq_left, forall_eq]
  constructor
  · rintro ⟨h1, h2, -, h4⟩
    exact Report.ext' h2.symm (h1.trans h.symm) fun x => by rw [h4]; simp [h2]
  · rintro rfl
    exact ⟨h, rfl, Nat.le_refl _, fun x => by simp⟩

/-! ## From derivations to results -/

theorem follows_of (hp : ExactPlaces e) (hl : EqLaws S.eqI) (hD : D.Ordinary) {g g' : G S N (simpleErr S) α}
    (hg : g.Ordinary) (hg' : g'.Ordinary) (hA : ∀ i o j, Accepts e D g i o j → Accepts e D g' i o j)
    (hR : ∀ i r, Reports e D g i r → Reports e D g' i r) : Follows e D g g' := by
  intro i hi
  refine ⟨fun o j h => ?_, fun k es j h => ?_⟩
  · exact (C34_accepts hD.plain hg'.plain hi).2 (hA _ _ _ ((C34_accepts hD.plain hg.plain hi).1 h))
  · obtain ⟨r, exp, h1, rfl, rfl, h2⟩ :=
      C58_report_partial hp hl hD.err hD.plain hD.noUserErr hg.plain hg.noUserErr hi h
    obtain ⟨exp', j', h3, h4⟩ :=
      C58_derived_partial hp hl hD.err hD.plain hD.noUserErr hg'.plain hg'.noUserErr hi (hR _ _ h1)
    have hj := C34_stays hD.plain hg.plain hg.tidy hi h
    have hj' := C34_stays hD.plain hg'.plain hg'.tidy hi h3
    subst hj hj'
    exact ⟨_, h3, exp, exp', _, _, rfl, rfl, fun z => (h2 z).trans (h4 z).symm⟩

/-! ## Derivations -/

section

variable {a b c : G S N (simpleErr S) α}

theorem G.Ordinary.or (ha : a.Ordinary) (hb : b.Ordinary) : (G.or a b).Ordinary where
  plain := by rw [G.All]; exact ⟨ha.tidy, ha.plain, hb.plain⟩
  tidy := by rw [G.Tidy]; exact hb.tidy
  noUserErr := by rw [G.All]; exact ⟨trivial, ha.noUserErr, hb.noUserErr⟩
  bySpan := by rw [G.All]; exact ⟨trivial, ha.bySpan, hb.bySpan⟩

theorem G.Ordinary.then_ {b : G S N (simpleErr S) β} (ha : a.Ordinary) (hb : b.Ordinary) : (G.then_ a b).Ordinary where
  plain := by rw [G.All]; exact ⟨trivial, ha.plain, hb.plain⟩
  tidy := by rw [G.Tidy]; exact ha.tidy
  noUserErr := by rw [G.All]; exact ⟨trivial, ha.noUserErr, hb.noUserErr⟩
  bySpan := by rw [G.All]; exact ⟨trivial, ha.bySpan, hb.bySpan⟩

theorem accepts_or {i j : Nat} {o : α} : Accepts e D (.or a b) i o j ↔
    Accepts e D a i o j ∨ Rejects e D a i ∧ Accepts e D b i o j := accepts_iff

theorem accepts_then {b : G S N (simpleErr S) β} {i j : Nat} {o : α × β} : Accepts e D (.then_ a b) i o j ↔
    ∃ k, Accepts e D a i o.1 k ∧ Accepts e D b k o.2 j := accepts_iff

theorem reports_or {i : Nat} {r : Report S} : Reports e D (.or a b) i r ↔
    ∃ p q, Reports e D a i p ∧ Reports e D b i q ∧ Report.Choice [p, q] r :=
  ⟨fun h => h.step, fun ⟨_, _, h, h', h''⟩ => .or h h' h''⟩

theorem reports_then {b : G S N (simpleErr S) β} {i : Nat} {r : Report S} : Reports e D (.then_ a b) i r ↔
    Reports e D a i r ∨ ∃ x j, Accepts e D a i x j ∧ Reports e D b j r :=
  ⟨fun h => h.step, fun h => h.elim .thenFirst fun ⟨_, _, h, h'⟩ => .thenSecond h h'⟩

theorem all2 {p q : Report S} (hp : p.byLocation = false) (hq : q.byLocation = false) :
    ∀ x ∈ [p, q], x.byLocation = false := by
  intro x hx
  simp only [List.mem_cons, List.not_mem_nil, or_false] at hx
  rcases hx with rfl | rfl
  · exact hp
  · exact hq

theorem all3 {p q t : Report S} (hp : p.byLocation = false) (hq : q.byLocation = false) (ht : t.byLocation = false) :
    ∀ x ∈ [p, q, t], x.byLocation = false := by
  intro x hx
  rcases List.mem_cons.1 hx with rfl | hx
  · exact hp
  · exact all2 hq ht x hx

theorem reports_assoc (hD : D.Ordinary) (ha : a.Ordinary) (hb : b.Ordinary) (hc : c.Ordinary) {i : Nat} {r : Report S} :
    Reports e D (.or (.or a b) c) i r ↔ Reports e D (.or a (.or b c)) i r := by
  simp only [reports_or]
  constructor
  · rintro ⟨s, t, ⟨p, q, h1, h2, h3⟩, h4, h5⟩
    have hp := h1.bySpan hD.bySpan ha.bySpan
    have hq := h2.bySpan hD.bySpan hb.bySpan
    have ht := h4.bySpan hD.bySpan hc.bySpan
    obtain ⟨u, h6⟩ := Report.choice_exists (all2 hq ht) (by simp)
    have h7 := (Report.choice_append (all3 hp hq ht) h3 ((Report.choice_one ht).2 rfl)).1 h5
    exact ⟨p, u, h1, ⟨q, t, h2, h4, h6⟩,
      (Report.choice_append (ps := [p]) (all3 hp hq ht) ((Report.choice_one hp).2 rfl) h6).2 h7⟩
  · rintro ⟨p, s, h1, ⟨q, t, h2, h3, h4⟩, h5⟩
    have hp := h1.bySpan hD.bySpan ha.bySpan
    have hq := h2.bySpan hD.bySpan hb.bySpan
    have ht := h3.bySpan hD.bySpan hc.bySpan
    obtain ⟨u, h6⟩ := Report.choice_exists (all2 hp hq) (by simp)
    have h7 := (Report.choice_append (ps := [p]) (all3 hp hq ht) ((Report.choice_one hp).2 rfl) h4).1 h5
    exact ⟨u, t, ⟨p, q, h1, h2, h6⟩, h3,
      (Report.choice_append (all3 hp hq ht) h6 ((Report.choice_one ht).2 rfl)).2 h7⟩

theorem accepts_assoc {i j : Nat} {o : α} :
    Accepts e D (.or (.or a b) c) i o j ↔ Accepts e D (.or a (.or b c)) i o j := by
  simp only [accepts_or, show Rejects e D (.or a b) i ↔ Rejects e D a i ∧ Rejects e D b i from rejects_iff]
  constructor
  · rintro ((h | ⟨h, h'⟩) | ⟨⟨h, h'⟩, h''⟩)
    · exact .inl h
    · exact .inr ⟨h, .inl h'⟩
    · exact .inr ⟨h, .inr ⟨h', h''⟩⟩
  · rintro (h | ⟨h, h' | ⟨h', h''⟩⟩)
    · exact .inl (.inl h)
    · exact .inl (.inr ⟨h, h'⟩)
    · exact .inr ⟨⟨h, h'⟩, h''⟩

theorem accepts_twice (hD : D.Ordinary) (ha : a.Ordinary) {i j : Nat} {o : α} :
    Accepts e D (.or a a) i o j ↔ Accepts e D a i o j := by
  rw [accepts_or]
  exact ⟨fun h => h.elim id fun h => (C34_exclusive hD.plain ha.plain h.2 h.1).elim, .inl⟩

theorem reports_twice (hD : D.Ordinary) (ha : a.Ordinary) {i : Nat} {r : Report S} :
    Reports e D (.or a a) i r ↔ Reports e D a i r := by
  rw [reports_or]
  constructor
  · rintro ⟨p, q, h1, h2, h3⟩
    cases C58_unique hD.plain ha.plain h1 h2
    cases (Report.choice_twice (h1.bySpan hD.bySpan ha.bySpan)).1 h3
    exact h1
  · intro h
    exact ⟨r, r, h, h, (Report.choice_twice (h.bySpan hD.bySpan ha.bySpan)).2 rfl⟩

end

theorem accepts_factor (hD : D.Ordinary) {a : G S N (simpleErr S) α} {b c : G S N (simpleErr S) β} (ha : a.Ordinary)
    {i j : Nat} {o : α × β} : Accepts e D (.or (.then_ a b) (.then_ a c)) i o j ↔ Accepts e D (.then_ a (.or b c)) i o j := by
  simp only [accepts_or, accepts_then]
  constructor
  · rintro (⟨k, h, h'⟩ | ⟨h, k, h', h''⟩)
    · exact ⟨k, h, .inl h'⟩
    · rcases rejects_iff.1 h with h1 | ⟨x, k', h1, h2⟩
      · exact (C34_exclusive hD.plain ha.plain h' h1).elim
      · obtain ⟨-, rfl⟩ := C34_deterministic hD.plain ha.plain h' h1
        exact ⟨_, h', .inr ⟨h2, h''⟩⟩
  · rintro ⟨k, h, h' | ⟨h', h''⟩⟩
    · exact .inl ⟨k, h, h'⟩
    · exact .inr ⟨.thenSecond h h', k, h, h''⟩

theorem reports_factor (hD : D.Ordinary) {a : G S N (simpleErr S) α} {b c : G S N (simpleErr S) β} (ha : a.Ordinary)
    {i : Nat} {r : Report S} :
    Reports e D (.or (.then_ a b) (.then_ a c)) i r ↔ Reports e D (.then_ a (.or b c)) i r := by
  simp only [reports_or, reports_then]
  constructor
  · rintro ⟨p, q, h1 | ⟨x, j, h1, h2⟩, h3 | ⟨y, k, h3, h4⟩, h5⟩
    · cases C58_unique hD.plain ha.plain h1 h3
      cases (Report.choice_twice (h1.bySpan hD.bySpan ha.bySpan)).1 h5
      exact .inl h1
    · exact (C34_exclusive hD.plain ha.plain h3 h1.rejects).elim
    · exact (C34_exclusive hD.plain ha.plain h1 h3.rejects).elim
    · obtain ⟨-, rfl⟩ := C34_deterministic hD.plain ha.plain h1 h3
      exact .inr ⟨x, _, h1, p, q, h2, h4, h5⟩
  · rintro (h | ⟨x, j, h, p, q, h1, h2, h3⟩)
    · exact ⟨r, r, .inl h, .inl h, (Report.choice_twice (h.bySpan hD.bySpan ha.bySpan)).2 rfl⟩
    · exact ⟨p, q, .inr ⟨x, j, h, h1⟩, .inr ⟨x, j, h, h2⟩, h3⟩

section

variable {a b c : G S N (simpleErr S) α} {gs : GL S N (simpleErr S) α}

theorem reports_alters (hD : D.Ordinary) (ha : a.Ordinary) (hg : gs.All (bySpanL S N)) (h0 : gs ≠ .nil) {i : Nat}
    {r : Report S} : Reports e D (.alters (.cons a gs)) i r ↔ Reports e D (.or a (.alters gs)) i r := by
  constructor
  · intro h
    obtain ⟨ps, h1, h2⟩ := h.step
    cases h1 with
    | cons h3 h4 =>
      rename_i p ps
      have hp := h3.bySpan hD.bySpan ha.bySpan
      have hps := h4.bySpan hD.bySpan hg
      have h5 : ps ≠ [] := by
        rintro rfl
        cases h4
        exact h0 rfl
      obtain ⟨u, h6⟩ := Report.choice_exists hps h5
      refine .or h3 (.alters h4 h6) ((Report.choice_append (ps := [p]) ?_ ((Report.choice_one hp).2 rfl) h6).2 h2)
      intro q hq
      rcases List.mem_cons.1 hq with rfl | hq
      · exact hp
      · exact hps q hq
  · intro h
    obtain ⟨p, q, h1, h2, h3⟩ := h.step
    obtain ⟨ps, h4, h5⟩ := h2.step
    have hp := h1.bySpan hD.bySpan ha.bySpan
    have hps := h4.bySpan hD.bySpan hg
    refine .alters (.cons h1 h4) ((Report.choice_append (ps := [p]) ?_ ((Report.choice_one hp).2 rfl) h5).1 h3)
    intro q hq
    rcases List.mem_cons.1 hq with rfl | hq
    · exact hp
    · exact hps q hq

theorem accepts_alters {i j : Nat} {o : α} :
    Accepts e D (.alters (.cons a gs)) i o j ↔ Accepts e D (.or a (.alters gs)) i o j := by
  rw [accepts_or]
  constructor
  · intro h
    have h : AcceptsFirst e D (.cons a gs) i o j := accepts_iff.1 h
    cases h with
    | here h => exact .inl h
    | later h h' => exact .inr ⟨h, .alters h'⟩
  · rintro (h | ⟨h, h'⟩)
    · exact .alters (.here h)
    · exact .alters (.later h (accepts_iff.1 h'))

end

/-! ## Theorems -/

section

variable (hp : ExactPlaces e) (hl : EqLaws S.eqI) (hD : D.Ordinary)
include hp hl hD

/-- **C59.** `a.or(b).or(c)` and `a.or(b.or(c))` return the same. -/
theorem C59_or_assoc_partial {a b c : G S N (simpleErr S) α} (ha : a.Ordinary) (hb : b.Ordinary) (hc : c.Ordinary) :
    Alike e D (.or (.or a b) c) (.or a (.or b c)) :=
  ⟨follows_of hp hl hD ((ha.or hb).or hc) (ha.or (hb.or hc)) (fun _ _ _ => accepts_assoc.1)
      fun _ _ => (reports_assoc hD ha hb hc).1,
    follows_of hp hl hD (ha.or (hb.or hc)) ((ha.or hb).or hc) (fun _ _ _ => accepts_assoc.2)
      fun _ _ => (reports_assoc hD ha hb hc).2⟩

/-- **C59.** A choice made with `alters` is nested choices made with `or`: the first alternative can be split off. (That
`a.alters(b)` is `a.or(b)` is C43_or.) -/
theorem C59_alters_partial {a b c : G S N (simpleErr S) α} {gs : GL S N (simpleErr S) α}
    (h : (G.alters (.cons a (.cons b (.cons c gs)))).Ordinary) :
    Alike e D (.alters (.cons a (.cons b (.cons c gs)))) (.or a (.alters (.cons b (.cons c gs)))) := by
  obtain ⟨h1, h2, h3, h4⟩ := h
  rw [G.All, GL.All] at h1 h3 h4
  rw [G.Tidy, GL.LastTidy] at h2
  have h5 := h1.1.2
  rw [GL.InitTidy] at h5
  have ha : a.Ordinary := ⟨h1.2.1, h5.1, h3.2.1, h4.2.1⟩
  have hg : (G.alters (.cons b (.cons c gs))).Ordinary := by
    refine ⟨?_, ?_, ?_, ?_⟩
    · rw [G.All]; exact ⟨⟨⟨_, _, _, rfl⟩, h5.2⟩, h1.2.2⟩
    · rw [G.Tidy]; exact h2
    · rw [G.All]; exact ⟨trivial, h3.2.2⟩
    · rw [G.All]; exact ⟨trivial, h4.2.2⟩
  have h0 : (GL.cons b (.cons c gs)) ≠ .nil := by intro h; cases h
  have hall : (G.alters (.cons a (.cons b (.cons c gs)))).Ordinary := by
    refine ⟨?_, ?_, ?_, ?_⟩
    · rw [G.All, GL.All]; exact h1
    · rw [G.Tidy, GL.LastTidy]; exact h2
    · rw [G.All, GL.All]; exact h3
    · rw [G.All, GL.All]; exact h4
  exact ⟨follows_of hp hl hD hall (ha.or hg) (fun _ _ _ => accepts_alters.1)
      fun _ _ => (reports_alters hD ha h4.2.2 h0).1,
    follows_of hp hl hD (ha.or hg) hall (fun _ _ _ => accepts_alters.2)
      fun _ _ => (reports_alters hD ha h4.2.2 h0).2⟩

/-- **C59.** An alternative that is there twice counts once. -/
theorem C59_or_twice_partial {a : G S N (simpleErr S) α} (ha : a.Ordinary) : Alike e D (.or a a) a :=
  ⟨follows_of hp hl hD (ha.or ha) ha (fun _ _ _ => (accepts_twice hD ha).1) fun _ _ => (reports_twice hD ha).1,
    follows_of hp hl hD ha (ha.or ha) (fun _ _ _ => (accepts_twice hD ha).2) fun _ _ => (reports_twice hD ha).2⟩

/-- **C59.** What alternatives begin with can be taken out: `a.then(b).or(a.then(c))` and `a.then(b.or(c))` return the
same. -/
theorem C59_factor_partial {a : G S N (simpleErr S) α} {b c : G S N (simpleErr S) β} (ha : a.Ordinary)
    (hb : b.Ordinary) (hc : c.Ordinary) : Alike e D (.or (.then_ a b) (.then_ a c)) (.then_ a (.or b c)) :=
  ⟨follows_of hp hl hD ((ha.then_ hb).or (ha.then_ hc)) (ha.then_ (hb.or hc)) (fun _ _ _ => (accepts_factor hD ha).1)
      fun _ _ => (reports_factor hD ha).1,
    follows_of hp hl hD (ha.then_ (hb.or hc)) ((ha.then_ hb).or (ha.then_ hc)) (fun _ _ _ => (accepts_factor hD ha).2)
      fun _ _ => (reports_factor hD ha).2⟩

end

/-! ## Concrete cases -/

theorem exNoDefs_ordinary : exNoDefs.Ordinary := ⟨fun k => k.elim, fun k => k.elim, fun k => k.elim, fun k => k.elim⟩

/-- `1 2 3`, `1 2 4 5` and `1 6`: ordinary parsers whose choice fails on `1 2 8` with the expectations of the first two,
however they are grouped. -/
example : (G.seq 0 [1, 2, 3] : ExG Nat).Ordinary ∧ (G.seq 0 [1, 2, 4, 5] : ExG Nat).Ordinary ∧
    (G.seq 0 [1, 6] : ExG Nat).Ordinary ∧
    Finishes (exEnv [1, 2, 8]) exNoDefs (.or (.or (.seq 0 [1, 2, 3]) (.seq 0 [1, 2, 4, 5])) (.seq 0 [1, 6]) : ExG Nat)
      false 0 (.failed 2 [.expectedFound [some 3, some 4] (some 8) (.span (2, 3))]) 0 ∧
    Finishes (exEnv [1, 2, 8]) exNoDefs (.or (.seq 0 [1, 2, 3]) (.or (.seq 0 [1, 2, 4, 5]) (.seq 0 [1, 6])) : ExG Nat)
      false 0 (.failed 2 [.expectedFound [some 3, some 4] (some 8) (.span (2, 3))]) 0 := by
  refine ⟨⟨?_, ?_, ?_, ?_⟩, ⟨?_, ?_, ?_, ?_⟩, ⟨?_, ?_, ?_, ?_⟩, ⟨20, exParsesAt (by decide +kernel)⟩,
    ⟨20, exParsesAt (by decide +kernel)⟩⟩ <;>
    simp [G.All, plainL, G.Plain, G.Tidy, noUserErrL, G.NoUserErr, bySpanL, G.BySpan]

/-- The condition of C59_alters_partial, and a parser in which a common beginning can be taken out. -/
example : (G.alters (.cons (.just 1) (.cons (.just 2) (.cons (.seq 3 [3, 4]) .nil))) : ExG Nat).Ordinary ∧
    Alike (exEnv [1, 2, 8]) exNoDefs (.or (.then_ (.just 1) (.just 2)) (.then_ (.just 1) (.just 3)) : ExG (Nat × Nat))
      (.then_ (.just 1) (.or (.just 2) (.just 3))) := by
  refine ⟨⟨?_, ?_, ?_, ?_⟩, C59_factor_partial (.simple _) exSig_eqLaws exNoDefs_ordinary ⟨?_, ?_, ?_, ?_⟩ ⟨?_, ?_, ?_, ?_⟩
    ⟨?_, ?_, ?_, ?_⟩⟩ <;>
    simp [G.All, GL.All, plainL, G.Plain, G.Tidy, GL.LastTidy, GL.InitTidy, noUserErrL, G.NoUserErr, bySpanL, G.BySpan]

/-- **C59** does not hold with recovery enabled. On `1 1 9`, `1 1 2` gets furthest and cannot recover. In the nested choice
its neighbour recovers, in the flat one the alternative that got second furthest. -/
theorem C59_recovery_fails :
    Finishes (exEnv [1, 1, 9]) exNoDefs (.or (.or (.toRecover (.just 2) (Build.justReturn 10)) (.seq 11 [1, 1, 2]))
      (.toRecover (.seq 12 [1, 2]) (Build.justReturn 20)) : ExG Nat) true 0
      (.recovered 10 [.expectedFound [some 2] (some 1) (.span (0, 1))]) 0 ∧
    Finishes (exEnv [1, 1, 9]) exNoDefs (.or (.toRecover (.just 2) (Build.justReturn 10)) (.or (.seq 11 [1, 1, 2])
      (.toRecover (.seq 12 [1, 2]) (Build.justReturn 20))) : ExG Nat) true 0
      (.recovered 20 [.expectedFound [some 2] (some 1) (.span (1, 2))]) 0 :=
  ⟨⟨20, exParsesAt (by decide +kernel)⟩, ⟨20, exParsesAt (by decide +kernel)⟩⟩

/-- **C59** does not hold with `end()`. In "2, or the end or 4" on a 3, the inner choice reports the end only, which is
then dropped: the 4 is lost. -/
theorem C59_end_fails :
    Finishes (exEnv [3]) exNoDefs (.or (.or (.to (.just 2) ()) .eof) (.to (.just 4) ()) : ExG Unit) false 0
      (.failed 0 [.expectedFound [some 2, some 4] (some 3) (.span (0, 1))]) 0 ∧
    Finishes (exEnv [3]) exNoDefs (.or (.to (.just 2) ()) (.or .eof (.to (.just 4) ())) : ExG Unit) false 0
      (.failed 0 [.expectedFound [some 2] (some 3) (.span (0, 1))]) 0 :=
  ⟨⟨20, exParsesAt (by decide +kernel)⟩, ⟨20, exParsesAt (by decide +kernel)⟩⟩

/-- What alternatives end with cannot be taken out: "1 or 1 2, and then 3" rejects `1 2 3`. -/
theorem C59_factor_right_fails :
    Finishes (exEnv [1, 2, 3]) exNoDefs
      (.or (.then_ (.seq 0 [1]) (.just 3)) (.then_ (.seq 0 [1, 2]) (.just 3)) : ExG (Nat × Nat)) false 0
      (.success (0, 3)) 3 ∧
    Finishes (exEnv [1, 2, 3]) exNoDefs (.then_ (.or (.seq 0 [1]) (.seq 0 [1, 2])) (.just 3) : ExG (Nat × Nat)) false 0
      (.failed 1 [.expectedFound [some 3] (some 2) (.span (1, 2))]) 0 :=
  ⟨⟨20, exParsesAt (by decide +kernel)⟩, ⟨20, exParsesAt (by decide +kernel)⟩⟩

end PPC
