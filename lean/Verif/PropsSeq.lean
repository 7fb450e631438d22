import Verif.SemSeq
import Verif.PropsChoice

/-!
# Properties of sequencing: C20

`Gives e D n g en i o es rec j` (RunAt.lean): at position `i` the parser `g` returns the output
`o` and ends at `j`, as a success (`rec = false`, `es = []`) or as a recovery with errors `es`
(`rec = true`).
-/

namespace PPC

variable {S : Sig} {N : Names S} {e : Env S} {D : Defs S N} {n : Nat} {ε : ErrTy S} {α β γ : Type}
  {en : Bool} {i j x : Nat} {es : List ε.E} {rec : Bool}

/-! ## Specification -/

/-- The parts give outputs one after the other, each starting where the one before it ended;
`os` are the outputs, `es` all the errors in order, and `rec` says whether any part recovered. -/
def GivesAll (e : Env S) (D : Defs S N) (n : Nat) (en : Bool) :
    List (G S N ε α) → Nat → List α → List ε.E → Bool → Nat → Prop
  | [], i, os, es, rec, j => os = [] ∧ es = [] ∧ rec = false ∧ j = i
  | g :: gs, i, os, es, rec, j => ∃ o es₁ r₁ k os' es₂ r₂, Gives e D n g en i o es₁ r₁ k ∧
      GivesAll e D n en gs k os' es₂ r₂ j ∧ os = o :: os' ∧ es = es₁ ++ es₂ ∧ rec = (r₁ || r₂)

/-- Running the parts one after the other, the first one that fails does so with index `x` and
errors `es`. -/
def FirstFails (e : Env S) (D : Defs S N) (n : Nat) (en : Bool) :
    List (G S N ε α) → Nat → Nat → List ε.E → Prop
  | [], _, _, _ => False
  | g :: gs, i, x, es => (∃ k, ParsesAt e D n g en i (.failed x es) k) ∨
      ∃ o es₁ r₁ k, Gives e D n g en i o es₁ r₁ k ∧ FirstFails e D n en gs k x es

/-! ## Auxiliary lemmas -/

theorem not_rec_of_disabled {g : G S N ε α} {o : α}
    (h : GivesO (g.sem e D n en i) o es rec j) : rec = true → en = true := by
  intro hr
  rcases h with ⟨h1, -, -⟩ | ⟨-, h⟩
  · rw [h1] at hr; cases hr
  · cases en with
    | true => rfl
    | false => exact (G.sem_nr D n g _ _ _ _ h).elim

theorem or_flag {r1 r2 en : Bool} (h1 : r1 = true → en = true) (h2 : r2 = true → en = true) :
    (r1 || r2) = true → en = true := by
  cases r1 <;> cases r2 <;> simp_all

theorem GivesO.valid {g : G S N ε α} {o : α} (hi : Valid e i)
    (h : GivesO (g.sem e D n en i) o es rec j) : Valid e j :=
  Gives.valid hi ((gives_iff hi).2 h)

theorem givesAll_iff : ∀ {gs : List (G S N ε α)} {i : Nat} {os : List α} {es : List ε.E} {rec : Bool},
    Valid e i → (GivesAll e D n en gs i os es rec j ↔
      GivesAllO en (gs.map fun g => g.sem e D n) i os es rec j) := by
  intro gs
  induction gs with
  | nil => intro i os es rec _; simp only [GivesAll, GivesAllO, List.map_nil]
  | cons g gs ih =>
    intro i os es rec hi
    simp only [GivesAll, GivesAllO, List.map_cons, gives_iff hi]
    constructor
    · rintro ⟨o, es1, r1, k, os', es2, r2, h1, h2, h3⟩
      exact ⟨o, es1, r1, k, os', es2, r2, h1, (ih (h1.valid hi)).1 h2, h3⟩
    · rintro ⟨o, es1, r1, k, os', es2, r2, h1, h2, h3⟩
      exact ⟨o, es1, r1, k, os', es2, r2, h1, (ih (h1.valid hi)).2 h2, h3⟩

theorem firstFails_iff : ∀ {gs : List (G S N ε α)} {i : Nat},
    Valid e i → (FirstFails e D n en gs i x es ↔
      FirstFailsO en (gs.map fun g => g.sem e D n) i x es) := by
  intro gs
  induction gs with
  | nil => intro i _; simp only [FirstFails, FirstFailsO, List.map_nil]
  | cons g gs ih =>
    intro i hi
    simp only [FirstFails, FirstFailsO, List.map_cons, gives_iff hi, parsesAt_iff hi]
    constructor
    · rintro (h | ⟨o, es1, r1, k, h1, h2⟩)
      · exact .inl h
      · exact .inr ⟨o, es1, r1, k, h1, (ih (h1.valid hi)).1 h2⟩
    · rintro (h | ⟨o, es1, r1, k, h1, h2⟩)
      · exact .inl h
      · exact .inr ⟨o, es1, r1, k, h1, (ih (h1.valid hi)).2 h2⟩

theorem givesAllO_flag : ∀ {gs : List (G S N ε α)} {i : Nat} {os : List α} {es : List ε.E} {rec : Bool},
    GivesAllO en (gs.map fun g => g.sem e D n) i os es rec j → rec = true → en = true := by
  intro gs
  induction gs with
  | nil => rintro i os es rec ⟨-, -, rfl, -⟩ h; cases h
  | cons g gs ih =>
    rintro i os es rec ⟨o, es1, r1, k, os', es2, r2, h1, h2, -, -, rfl⟩
    exact or_flag (not_rec_of_disabled h1) (ih h2)

theorem gives2 {a : G S N ε α} {b : G S N ε β} {f : α × β → γ} {c : γ} (hi : Valid e i) :
    GivesO (qConcat2 f (a.sem e D n) (b.sem e D n) en i) c es rec j ↔
      ∃ oa es₁ r₁ k ob es₂ r₂, Gives e D n a en i oa es₁ r₁ k ∧ Gives e D n b en k ob es₂ r₂ j ∧
        c = f (oa, ob) ∧ es = es₁ ++ es₂ ∧ rec = (r₁ || r₂) := by
  rw [qConcat2_gives]
  simp only [gives_iff hi]
  constructor
  · rintro ⟨oa, es1, r1, k, ob, es2, r2, h1, h2, h3, h4, h5, -⟩
    exact ⟨oa, es1, r1, k, ob, es2, r2, h1, (gives_iff (h1.valid hi)).2 h2, h3, h4, h5⟩
  · rintro ⟨oa, es1, r1, k, ob, es2, r2, h1, h2, h3, h4, h5⟩
    have h2' := (gives_iff (h1.valid hi)).1 h2
    refine ⟨oa, es1, r1, k, ob, es2, r2, h1, h2', h3, h4, h5, ?_⟩
    rw [h5]
    exact or_flag (not_rec_of_disabled h1) (not_rec_of_disabled h2')

theorem fails2 {a : G S N ε α} {b : G S N ε β} {f : α × β → γ} (hi : Valid e i)
    (hr : Rewinds e D n a en i) :
    qConcat2 f (a.sem e D n) (b.sem e D n) en i = .ok (.failed x es, j) ↔
      j = i ∧ (ParsesAt e D n a en i (.failed x es) i ∨
        ∃ oa es₁ r₁ k, Gives e D n a en i oa es₁ r₁ k ∧
          ∃ k', ParsesAt e D n b en k (.failed x es) k') := by
  rw [qConcat2_failed]
  simp only [gives_iff hi, parsesAt_iff hi]
  constructor
  · rintro (h | ⟨oa, es1, r1, k, h1, rfl, k', h2⟩)
    · have := rewindsAt_of hi hr _ _ _ h
      subst this
      exact ⟨rfl, .inl h⟩
    · exact ⟨rfl, .inr ⟨oa, es1, r1, k, h1, k', (parsesAt_iff (h1.valid hi)).2 h2⟩⟩
  · rintro ⟨rfl, h | ⟨oa, es1, r1, k, h1, k', h2⟩⟩
    · exact .inl h
    · exact .inr ⟨oa, es1, r1, k, h1, rfl, k', (parsesAt_iff (h1.valid hi)).1 h2⟩

theorem gives3 {a : G S N ε α} {b : G S N ε β} {c : G S N ε γ} {o : β} (hi : Valid e i) :
    GivesO (qConcat3 (fun x => x.2.1) (a.sem e D n) (b.sem e D n) (c.sem e D n) en i) o es rec j ↔
      ∃ oa es₁ r₁ k es₂ r₂ l oc es₃ r₃, Gives e D n a en i oa es₁ r₁ k ∧
        Gives e D n b en k o es₂ r₂ l ∧ Gives e D n c en l oc es₃ r₃ j ∧
        es = es₁ ++ es₂ ++ es₃ ∧ rec = (r₁ || r₂ || r₃) := by
  rw [qConcat3_gives]
  simp only [gives_iff hi]
  constructor
  · rintro ⟨oa, es1, r1, k, ob, es2, r2, l, oc, es3, r3, h1, h2, h3, h4, h5, h6, -⟩
    subst h4
    have hk := h1.valid hi
    exact ⟨oa, es1, r1, k, es2, r2, l, oc, es3, r3, h1, (gives_iff hk).2 h2,
      (gives_iff (h2.valid hk)).2 h3, by rw [h5, List.append_assoc], by rw [h6, Bool.or_assoc]⟩
  · rintro ⟨oa, es1, r1, k, es2, r2, l, oc, es3, r3, h1, h2, h3, h5, h6⟩
    have hk := h1.valid hi
    have h2' := (gives_iff hk).1 h2
    have h3' := (gives_iff (h2'.valid hk)).1 h3
    refine ⟨oa, es1, r1, k, o, es2, r2, l, oc, es3, r3, h1, h2', h3', rfl,
      by rw [h5, List.append_assoc], by rw [h6, Bool.or_assoc], ?_⟩
    rw [h6]
    exact or_flag (or_flag (not_rec_of_disabled h1) (not_rec_of_disabled h2')) (not_rec_of_disabled h3')

theorem fails3 {a : G S N ε α} {b : G S N ε β} {c : G S N ε γ} (hi : Valid e i)
    (hr : Rewinds e D n a en i) :
    qConcat3 (fun x => x.2.1) (a.sem e D n) (b.sem e D n) (c.sem e D n) en i = .ok (.failed x es, j) ↔
      j = i ∧ (ParsesAt e D n a en i (.failed x es) i ∨
        ∃ oa es₁ r₁ k, Gives e D n a en i oa es₁ r₁ k ∧
          ((∃ k', ParsesAt e D n b en k (.failed x es) k') ∨
            ∃ ob es₂ r₂ l, Gives e D n b en k ob es₂ r₂ l ∧
              ∃ k', ParsesAt e D n c en l (.failed x es) k')) := by
  rw [qConcat3_failed]
  simp only [gives_iff hi, parsesAt_iff hi]
  constructor
  · rintro (h | ⟨oa, es1, r1, k, h1, rfl, h2⟩)
    · have := rewindsAt_of hi hr _ _ _ h
      subst this
      exact ⟨rfl, .inl h⟩
    · have hk := h1.valid hi
      refine ⟨rfl, .inr ⟨oa, es1, r1, k, h1, ?_⟩⟩
      rcases h2 with ⟨k', h2⟩ | ⟨ob, es2, r2, l, h2, k', h3⟩
      · exact .inl ⟨k', (parsesAt_iff hk).2 h2⟩
      · exact .inr ⟨ob, es2, r2, l, (gives_iff hk).2 h2, k', (parsesAt_iff (h2.valid hk)).2 h3⟩
  · rintro ⟨rfl, h | ⟨oa, es1, r1, k, h1, h2⟩⟩
    · exact .inl h
    · have hk := h1.valid hi
      refine .inr ⟨oa, es1, r1, k, h1, rfl, ?_⟩
      rcases h2 with ⟨k', h2⟩ | ⟨ob, es2, r2, l, h2, k', h3⟩
      · exact .inl ⟨k', (parsesAt_iff hk).1 h2⟩
      · have h2' := (gives_iff hk).1 h2
        exact .inr ⟨ob, es2, r2, l, h2', k', (parsesAt_iff (h2'.valid hk)).1 h3⟩

/-! ## C20: sequencing is contiguous and all-or-nothing -/

/-- C20: `a.then(b)` returns an output exactly when `a` returns one and `b` returns one starting
where `a` ended; the output is the pair, the errors are those of `a` followed by those of `b`,
and it is a recovery exactly when one of them is. -/
theorem C20_then_gives {a : G S N ε α} {b : G S N ε β} {o : α × β} (hi : Valid e i) :
    Gives e D n (.then_ a b) en i o es rec j ↔
      ∃ es₁ r₁ k es₂ r₂, Gives e D n a en i o.1 es₁ r₁ k ∧ Gives e D n b en k o.2 es₂ r₂ j ∧
        es = es₁ ++ es₂ ∧ rec = (r₁ || r₂) := by
  rw [gives_iff hi, show (G.then_ a b).sem e D n = qConcat2 id (a.sem e D n) (b.sem e D n) from rfl,
    gives2 hi]
  constructor
  · rintro ⟨oa, es1, r1, k, ob, es2, r2, h1, h2, rfl, h4, h5⟩
    exact ⟨es1, r1, k, es2, r2, h1, h2, h4, h5⟩
  · rintro ⟨es1, r1, k, es2, r2, h1, h2, h4, h5⟩
    exact ⟨o.1, es1, r1, k, o.2, es2, r2, h1, h2, rfl, h4, h5⟩

/-- C20: `a.then(b)` fails exactly when `a` fails or `b` fails after `a`; it reports that
failure and goes back to the start. -/
theorem C20_then_fails {a : G S N ε α} {b : G S N ε β} (hi : Valid e i) (hr : Rewinds e D n a en i) :
    ParsesAt e D n (.then_ a b) en i (.failed x es) j ↔
      j = i ∧ (ParsesAt e D n a en i (.failed x es) i ∨
        ∃ o es₁ r₁ k, Gives e D n a en i o es₁ r₁ k ∧
          ∃ k', ParsesAt e D n b en k (.failed x es) k') := by
  rw [parsesAt_iff hi]; exact fails2 hi hr

/-- C20: `a.then_ignore(b)` is `a.then(b)`, returning the output of `a`. -/
theorem C20_then_ignore_gives {a : G S N ε α} {b : G S N ε β} {o : α} (hi : Valid e i) :
    Gives e D n (.thenIgnore a b) en i o es rec j ↔
      ∃ ob, Gives e D n (.then_ a b) en i (o, ob) es rec j := by
  simp only [C20_then_gives hi]
  rw [gives_iff hi,
    show (G.thenIgnore a b).sem e D n = qConcat2 Prod.fst (a.sem e D n) (b.sem e D n) from rfl, gives2 hi]
  constructor
  · rintro ⟨oa, es1, r1, k, ob, es2, r2, h1, h2, rfl, h4, h5⟩
    exact ⟨ob, es1, r1, k, es2, r2, h1, h2, h4, h5⟩
  · rintro ⟨ob, es1, r1, k, es2, r2, h1, h2, h4, h5⟩
    exact ⟨o, es1, r1, k, ob, es2, r2, h1, h2, rfl, h4, h5⟩

/-- C20: `a.then_ignore(b)` fails exactly as `a.then(b)` does. -/
theorem C20_then_ignore_fails {a : G S N ε α} {b : G S N ε β} (hi : Valid e i)
    (hr : Rewinds e D n a en i) :
    ParsesAt e D n (.thenIgnore a b) en i (.failed x es) j ↔
      ParsesAt e D n (.then_ a b) en i (.failed x es) j := by
  rw [C20_then_fails hi hr, parsesAt_iff hi]; exact fails2 hi hr

/-- C20: `a.ignore_then(b)` is `a.then(b)`, returning the output of `b`. -/
theorem C20_ignore_then_gives {a : G S N ε α} {b : G S N ε β} {o : β} (hi : Valid e i) :
    Gives e D n (.ignoreThen a b) en i o es rec j ↔
      ∃ oa, Gives e D n (.then_ a b) en i (oa, o) es rec j := by
  simp only [C20_then_gives hi]
  rw [gives_iff hi,
    show (G.ignoreThen a b).sem e D n = qConcat2 Prod.snd (a.sem e D n) (b.sem e D n) from rfl, gives2 hi]
  constructor
  · rintro ⟨oa, es1, r1, k, ob, es2, r2, h1, h2, rfl, h4, h5⟩
    exact ⟨oa, es1, r1, k, es2, r2, h1, h2, h4, h5⟩
  · rintro ⟨oa, es1, r1, k, es2, r2, h1, h2, h4, h5⟩
    exact ⟨oa, es1, r1, k, o, es2, r2, h1, h2, rfl, h4, h5⟩

/-- C20: `a.ignore_then(b)` fails exactly as `a.then(b)` does. -/
theorem C20_ignore_then_fails {a : G S N ε α} {b : G S N ε β} (hi : Valid e i)
    (hr : Rewinds e D n a en i) :
    ParsesAt e D n (.ignoreThen a b) en i (.failed x es) j ↔
      ParsesAt e D n (.then_ a b) en i (.failed x es) j := by
  rw [C20_then_fails hi hr, parsesAt_iff hi]; exact fails2 hi hr

/-- C20: `b.delimited_by(a, c)` returns the output of `b` exactly when `a`, `b` and `c` return
outputs one after the other. -/
theorem C20_delimited_by_gives {a : G S N ε α} {b : G S N ε β} {c : G S N ε γ} {o : β}
    (hi : Valid e i) :
    Gives e D n (.delimitedBy a b c) en i o es rec j ↔
      ∃ oa es₁ r₁ k es₂ r₂ l oc es₃ r₃, Gives e D n a en i oa es₁ r₁ k ∧
        Gives e D n b en k o es₂ r₂ l ∧ Gives e D n c en l oc es₃ r₃ j ∧
        es = es₁ ++ es₂ ++ es₃ ∧ rec = (r₁ || r₂ || r₃) := by
  rw [gives_iff hi]; exact gives3 hi

/-- C20: `b.delimited_by(a, c)` fails exactly when one of `a`, `b` after `a`, `c` after `a` and
`b` does; it reports that failure and goes back to the start. -/
theorem C20_delimited_by_fails {a : G S N ε α} {b : G S N ε β} {c : G S N ε γ} (hi : Valid e i)
    (hr : Rewinds e D n a en i) :
    ParsesAt e D n (.delimitedBy a b c) en i (.failed x es) j ↔
      j = i ∧ (ParsesAt e D n a en i (.failed x es) i ∨
        ∃ oa es₁ r₁ k, Gives e D n a en i oa es₁ r₁ k ∧
          ((∃ k', ParsesAt e D n b en k (.failed x es) k') ∨
            ∃ ob es₂ r₂ l, Gives e D n b en k ob es₂ r₂ l ∧
              ∃ k', ParsesAt e D n c en l (.failed x es) k')) := by
  rw [parsesAt_iff hi]; exact fails3 hi hr

/-- C20: `b.padded_by(a)` does exactly what `b.delimited_by(a, a)` does. -/
theorem C20_padded_by {a : G S N ε α} {b : G S N ε β} {r : Res β ε.E} :
    ParsesAt e D n (.paddedBy a b) en i r j ↔ ParsesAt e D n (.delimitedBy a b a) en i r j := by
  constructor
  · intro h al s h1 h2
    obtain ⟨s', h3, h4⟩ := h al s h1 h2
    subst h2
    exact G.sem_run D n (.delimitedBy a b a) en h1 (by
      have := (G.run_sem D n _ en h1 h3).1
      rw [h4] at this; exact this)
  · intro h al s h1 h2
    obtain ⟨s', h3, h4⟩ := h al s h1 h2
    subst h2
    exact G.sem_run D n (.paddedBy a b) en h1 (by
      have := (G.run_sem D n _ en h1 h3).1
      rw [h4] at this; exact this)

theorem chain_sem {gs : GL S N ε α} :
    (G.chain gs).sem e D n = qConcat (gs.toList.map fun g => g.sem e D n) := by
  simp only [G.sem, G.den, GL.den_eq]

/-- C20: `chain` returns outputs exactly when all its parts do, one after the other. -/
theorem C20_chain_gives {gs : GL S N ε α} {os : List α} (hi : Valid e i) :
    Gives e D n (.chain gs) en i os es rec j ↔ GivesAll e D n en gs.toList i os es rec j := by
  rw [gives_iff hi, chain_sem, qConcat_gives, givesAll_iff hi]
  constructor
  · exact fun h => h.1
  · exact fun h => ⟨h, givesAllO_flag h⟩

/-- C20: `chain` fails exactly when one of its parts does; it reports the failure of the first
one that does, and goes back to the start. -/
theorem C20_chain_fails {gs : GL S N ε α} (hi : Valid e i)
    (hr : ∀ g, gs.toList.head? = some g → Rewinds e D n g en i) :
    ParsesAt e D n (.chain gs) en i (.failed x es) j ↔
      j = i ∧ FirstFails e D n en gs.toList i x es := by
  rw [parsesAt_iff hi, chain_sem, qConcat_failed, firstFails_iff hi]
  cases hl : gs.toList with
  | nil => simp [FirstFailsO]
  | cons g gs' =>
    have hrw := rewindsAt_of hi (hr g (by rw [hl]; rfl))
    simp only [List.map_cons, FirstFailsO]
    constructor
    · rintro ⟨q, qs', h0, h⟩
      cases h0
      rcases h with h | ⟨o, es1, r1, k, h1, rfl, h2⟩
      · exact ⟨hrw _ _ _ h, .inl ⟨j, h⟩⟩
      · exact ⟨rfl, .inr ⟨o, es1, r1, k, h1, h2⟩⟩
    · rintro ⟨rfl, ⟨k, h⟩ | ⟨o, es1, r1, k, h1, h2⟩⟩
      · have := hrw _ _ _ h
        subst this
        exact ⟨_, _, rfl, .inl h⟩
      · exact ⟨_, _, rfl, .inr ⟨o, es1, r1, k, h1, rfl, h2⟩⟩

/-- `just(1)` then `just(2)` recovering with 9 then `just(3)`, on `[1, 7, 3]`: `just(2)` recovers
by skipping a token. -/
def exChain : GL exSig exNames (simpleErr exSig) Nat :=
  .cons (.just 1) (.cons (.toRecover (.just 2) (.ret (.skip .attemptTo) 9)) (.cons (.just 3) .nil))

example : Gives (exEnv [1, 7, 3]) exNoDefs 20 (.chain exChain) true 0 [1, 9, 3]
      [.expectedFound [some 2] (some 7) (.span (1, 2))] true 3 ∧
    ParsesAt (exEnv [1, 7, 3]) exNoDefs 20 (.chain exChain) false 0
      (.failed 1 [.expectedFound [some 2] (some 7) (.span (1, 2))]) 0 ∧
    ∀ g, exChain.toList.head? = some g → Rewinds (exEnv [1, 7, 3]) exNoDefs 20 g false 0 := by
  refine ⟨.inr ⟨rfl, exParsesAt (by decide +kernel)⟩, exParsesAt (by decide +kernel), ?_⟩
  intro g hg
  cases hg
  exact rewinds_of_clean Valid.zero (fun k => k.elim) (by simp [G.All, cleanL, G.TryMapNotRecovered])

example : Gives (exEnv [1, 2, 3]) exNoDefs 20 (.delimitedBy (.just 1) (.just 2) (.just 3) : ExG Nat)
      false 0 2 [] false 3 ∧
    Gives (exEnv [1, 2, 3]) exNoDefs 20
      (.then_ (.just 1) (.thenIgnore (.just 2) (.just 3)) : ExG (Nat × Nat)) false 0 (1, 2) [] false 3 ∧
    Gives (exEnv [1, 2, 1]) exNoDefs 20 (.paddedBy (.just 1) (.just 2) : ExG Nat) false 0 2 [] false 3 ∧
    ParsesAt (exEnv [1, 2, 4]) exNoDefs 20 (.ignoreThen (.just 1) (.thenIgnore (.just 2) (.just 3)) : ExG Nat)
      false 0 (.failed 2 [.expectedFound [some 3] (some 4) (.span (2, 3))]) 0 :=
  ⟨.inl ⟨rfl, rfl, exParsesAt (by decide +kernel)⟩, .inl ⟨rfl, rfl, exParsesAt (by decide +kernel)⟩,
   .inl ⟨rfl, rfl, exParsesAt (by decide +kernel)⟩, exParsesAt (by decide +kernel)⟩

end PPC
