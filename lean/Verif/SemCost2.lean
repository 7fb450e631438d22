import Verif.SemCost
import Verif.SemPangram4

/-!
# The number of calls of the parsers of grammar files: lemmas
-/

namespace PPC

section

variable {S : Sig} {N : Names S} {e : Env S} {D : Defs S N} {ε : ErrTy S} {α β : Type} {m i j K K' : Nat} {en : Bool}

/-- If the parser is done within the bound, then it makes at least `K` calls from position `i`. -/
def LowG (e : Env S) (D : Defs S N) (m : Nat) (g : G S N ε α) (en : Bool) (i K : Nat) : Prop :=
  g.sem e D m en i ≠ .oof → Low e (g.prog D m) en i K

theorem LowG.boxed {g : G S N ε α} (h : LowG e D m g en i K) : LowG e D m (.boxed g) en i K := h

theorem LowG.map {f : α → β} {g : G S N ε α} (h : LowG e D m g en i K) : LowG e D m (.map f g) en i K := by
  intro hs
  have h1 : g.sem e D m en i ≠ .oof := by
    intro h1
    apply hs
    unfold G.sem at *
    rw [G.den, qMap, h1]
    rfl
  exact (h h1).bind

theorem LowG.call {k : N.K} {g : G S N (N.err k) (N.out k)} (hg : D k = some g)
    (h : ∀ m, LowG e D m g en i K) : LowG e D m (.call k) en i K := by
  intro hs
  cases m with
  | zero => exact (hs rfl).elim
  | succ m =>
    have h1 : (G.call k).sem e D (m + 1) en i = g.sem e D m en i := by
      unfold G.sem
      rw [G.den, callSem, hg]
    have h2 : (G.call k).prog D (m + 1) en = g.prog D m en := by
      unfold G.prog
      rw [G.denote, callRec, hg]
    rw [h1] at hs
    intro c hw hi
    rw [h2]
    exact h m hs c hw hi

theorem LowG.then_left {a : G S N ε α} {b : G S N ε β} (h : LowG e D m a en i K) :
    LowG e D m (.then_ a b) en i (1 + K) := by
  intro hs
  refine (h fun h1 => hs ?_).concat2
  unfold G.sem at *
  rw [G.den, qConcat2, h1]
  rfl

theorem LowG.thenIgnore_left {a : G S N ε α} {b : G S N ε β} (h : LowG e D m a en i K) :
    LowG e D m (.thenIgnore a b) en i (1 + K) := by
  intro hs
  refine (h fun h1 => hs ?_).concat2
  unfold G.sem at *
  rw [G.den, qConcat2, h1]
  rfl

theorem LowG.then_right {a : G S N ε α} {b : G S N ε β} {x : α} (h : LowG e D m a en i K)
    (ha : a.sem e D m en i ≠ .oof → a.sem e D m en i = .ok (.success x, j)) (h' : LowG e D m b en j K') :
    LowG e D m (.then_ a b) en i (K + K') := by
  intro hs
  have h1 : a.sem e D m en i ≠ .oof := by
    intro h1
    apply hs
    unfold G.sem at *
    rw [G.den, qConcat2, h1]
    rfl
  have h2 : b.sem e D m en j ≠ .oof := by
    intro h2
    apply hs
    have h3 := ha h1
    unfold G.sem at *
    rw [G.den, qConcat2, h3]
    show concatLastSem en i _ (b.den e (callSem e D m) m) none j = _
    rw [concatLastSem, h2]
    rfl
  exact Low.concat2_right (G.prog_ref D m a) (h h1) (ha h1) (h' h2)

theorem LowG.or_left {a b : G S N ε α} (h : LowG e D m a false i K) : LowG e D m (.or a b) en i K := by
  intro hs
  refine Low.or_left (h fun h1 => hs ?_)
  unfold G.sem at *
  rw [G.den, qAlternate, altFirstSem, h1]
  rfl

theorem LowG.or_right {a b : G S N ε α} (h : LowG e D m a false i K)
    (ha : a.sem e D m false i ≠ .oof → FailsNR (a.sem e D m) i) (h' : LowG e D m b false i K') :
    LowG e D m (.or a b) en i (K + K') := by
  intro hs
  have h1 : a.sem e D m false i ≠ .oof := by
    intro h1
    apply hs
    unfold G.sem at *
    rw [G.den, qAlternate, altFirstSem, h1]
    rfl
  obtain ⟨x, es, h3⟩ := ha h1
  have h2 : b.sem e D m false i ≠ .oof := by
    intro h2
    apply hs
    unfold G.sem at *
    rw [G.den, qAlternate, altFirstSem, h3]
    show (altFirstSem [b.den e (callSem e D m) m] _ i >>= _) = _
    rw [altFirstSem, h2]
    rfl
  exact Low.or_right (G.prog_ref D m a) (h h1) h3 (h' h2)

theorem LowG.repeated {g : G S N ε α} {cfg : RepCfg} (hm : cfg.atMax 0 = false)
    (h : LowG e D m g (en && decide (0 < cfg.minimum)) i K) : LowG e D m (.repeated cfg g) en i K := by
  intro hs
  cases m with
  | zero => exact (hs rfl).elim
  | succ m =>
    refine Low.repeated hm (h fun h1 => hs ?_)
    unfold G.sem at *
    rw [G.den, qRepeat, repLoopSem]
    simp only [List.length_nil, hm, Bool.and_false, Bool.false_eq_true, if_false]
    unfold repItemSem
    simp only [List.length_nil, hm, Bool.and_false, Bool.false_eq_true, if_false, h1]
    rfl

/-- What a parse that is done within some bound returns is what the grammar derives. -/
theorem Accepts.sem_eq (hD : D.Plain) {g : G S N ε α} (hg : g.All (plainL S N)) {o : α} (h : Accepts e D g i o j)
    (hs : g.sem e D m false i ≠ .oof) : g.sem e D m false i = .ok (.success o, j) := by
  obtain ⟨n, h⟩ := h.sound hD hg
  rw [← G.sem_mono e D (Nat.le_max_left m n) g false i hs]
  exact h _ (Nat.le_max_right m n)

theorem Rejects.sem_fails (hD : D.Plain) {g : G S N ε α} (hg : g.All (plainL S N)) (ht : g.Tidy) (h : Rejects e D g i)
    (hs : g.sem e D m false i ≠ .oof) : FailsNR (g.sem e D m) i := by
  obtain ⟨n, h⟩ := h.sound hD hg
  obtain ⟨x, es, j, h⟩ := h _ (Nat.le_max_right m n)
  have h1 : g.sem e D m false i = .ok (.failed x es, j) := by
    rw [← G.sem_mono e D (Nat.le_max_left m n) g false i hs]
    exact h
  exact FailsAny.stays ⟨x, es, j, h1⟩ (G.sem_rw hD m g hg ht)

end

namespace Pangram

variable {Sp : Type} {e : Env (tokSig Sp)} {d : Sp} {i j m K : Nat}

local notation "pats" => TerminalPatterns.default d

/-- `n` pairs of parentheses around a symbol start at position `i`. -/
def NestAt (e : Env (tokSig Sp)) : Nat → Nat → Prop
  | 0, i => Next e i .symbol
  | n + 1, i => Next e i .lp ∧ NestAt e n (i + 1) ∧ Next e (i + 2 * n + 2) .rp

theorem Next.pt {x : TokenType} (h : Next e i x) : ∃ o : Pt x Sp, o.Complete ∧ Reads e i o.leaves (i + 1) := by
  obtain ⟨t, h1, h2⟩ := h
  exact ⟨⟨some ⟨t, i⟩⟩, ⟨_, rfl, h2⟩, h1, rfl, rfl⟩

theorem NestAt.tree : ∀ {n i : Nat}, NestAt e n i →
    ∃ x : PtSingular Sp, x.Complete ∧ Reads e i x.leaves (i + 2 * n + 1)
  | 0, i, h => by
    obtain ⟨o, h1, h2⟩ := Next.pt h
    exact ⟨.symbol o, .symbol h1, by rw [PtSingular.leaves]; exact h2⟩
  | n + 1, i, ⟨h1, h2, h3⟩ => by
    obtain ⟨l, h4, h5⟩ := Next.pt h1
    obtain ⟨x, h6, h7⟩ := h2.tree
    obtain ⟨r, h8, h9⟩ := Next.pt h3
    refine ⟨.nested l (.mk (.mk [.one x]) []) r,
      .nested h4 (.mk (.mk (by simp) (.cons (.one h6) .nil)) .nil) h8, ?_⟩
    simp only [PtSingular.leaves, PtAlternation.leaves, PtConcatenation.leaves, repsLeaves, PtRepetition.leaves,
      barsLeaves, List.append_nil]
    refine reads_append.2 ⟨_, reads_append.2 ⟨_, h5, h7⟩, ?_⟩
    rw [show i + 1 + 2 * n + 1 = i + 2 * n + 2 by omega]
    exact h9

theorem NestAt.accepts {n i : Nat} (h : NestAt e n i) : ∃ x, Acc d e .singular i x (i + 2 * n + 1) := by
  obtain ⟨x, h1, h2⟩ := h.tree
  exact ⟨x, singular_complete x h1 h2⟩

theorem singular_plain : (G.call (N := names Sp) .singular).All (plainL (tokSig Sp) (names Sp)) := by
  simp [G.All, plainL, G.Plain]

theorem suffixed_plain {x : TokenType} {f : PtSingular Sp → Pt x Sp → PtRepetition Sp} :
    (suffixedDef pats x f).All (plainL (tokSig Sp) (names Sp)) ∧ (suffixedDef pats x f).Tidy := by
  simp [suffixedDef, G.All, plainL, G.Plain, G.Tidy, ref, terminal, Build.oneOf]

/-- What follows the parentheses is not a suffix. -/
theorem low_repetition {n : Nat} (h : NestAt e n i) (hf : Free e (i + 2 * n + 1) suffixes)
    (hs : ∀ m, LowG e (defs pats) m (.call (N := names Sp) .singular) false i K) {en : Bool} :
    LowG e (defs pats) m (.call (N := names Sp) .repetition) en i (4 * K) := by
  obtain ⟨x, hx⟩ := h.accepts (d := d)
  have hx' : ∀ (k : TokenType) (f : PtSingular Sp → Pt k Sp → PtRepetition Sp), k ∈ suffixes →
      Rejects e (defs pats) (suffixedDef pats k f) i := fun k f hk => rej_suffix hx (hf k hk)
  have hl : ∀ (m : Nat) (k : TokenType) (f : PtSingular Sp → Pt k Sp → PtRepetition Sp),
      LowG e (defs pats) m (suffixedDef pats k f) false i K := fun m k f hs' =>
    (LowG.map (.boxed (.map (.then_left (.map (hs m))))) hs').mono (by omega)
  refine LowG.call (g := repetitionDef pats) rfl fun m => ?_
  have h1 := LowG.or_right (b := suffixedDef pats .ast .any) (en := false) (hl m .qst .maybe)
    ((hx' .qst .maybe (by simp [suffixes])).sem_fails defs_plain suffixed_plain.1 suffixed_plain.2) (hl m .ast .any)
  have h2 := LowG.or_right (b := suffixedDef pats .pls .many) (en := false) h1
    ((Rejects.or (hx' .qst .maybe (by simp [suffixes])) (hx' .ast .any (by simp [suffixes]))).sem_fails defs_plain
      ⟨suffixed_plain.2, suffixed_plain.1, suffixed_plain.1⟩ suffixed_plain.2) (hl m .pls .many)
  have h3 := LowG.or_right (b := .map .one (ref .singular)) (en := en) h2
    ((Rejects.or (Rejects.or (hx' .qst .maybe (by simp [suffixes])) (hx' .ast .any (by simp [suffixes])))
      (hx' .pls .many (by simp [suffixes]))).sem_fails defs_plain
      ⟨suffixed_plain.2, ⟨suffixed_plain.2, suffixed_plain.1, suffixed_plain.1⟩, suffixed_plain.1⟩ suffixed_plain.2) (.map (.map (hs m)))
  exact fun hs' => (h3 hs').mono (by omega)

theorem low_alternation {en : Bool}
    (hs : ∀ m en, LowG e (defs pats) m (.call (N := names Sp) .repetition) en i K) :
    LowG e (defs pats) m (.call (N := names Sp) .alternation) en i K := by
  refine LowG.call (g := alternationDef pats) rfl fun m hs' => ?_
  have h1 : LowG e (defs pats) m (alternationDef pats) en i (1 + K) :=
    .boxed (.map (.boxed (.map (.then_left (.map (.call (g := concatenationDef) rfl fun m => ?_))))))
  · exact (h1 hs').mono (by omega)
  exact .boxed (.map (.boxed (.repeated rfl (.map (hs m _)))))

theorem NestAt.low : ∀ {n i : Nat}, NestAt e n i → ∀ m,
    LowG e (defs pats) m (.call (N := names Sp) .singular) false i (4 ^ n)
  | 0, i, h, m => by
    refine LowG.call (g := singularDef pats) rfl fun m => ?_
    refine .boxed (.or_left (.or_left (.or_left (.or_left (.map (.boxed (.map ?_)))))))
    exact fun hs => (LowG.then_left (K := 0) (fun _ _ _ _ => Nat.zero_le _) hs).mono (by omega)
  | n + 1, i, ⟨h1, h2, h3⟩, m => by
    refine LowG.call (g := singularDef pats) rfl fun m => ?_
    refine .boxed (.or_left (.or_left (.or_left (.or_left (.map (.boxed (.map ?_)))))))
    obtain ⟨l, h4, h5⟩ := Next.pt h1
    have h6 : LowG e (defs pats) m (.then_ (terminal pats .lp) (ref .alternation)) false i (0 + 4 * 4 ^ n) := by
      refine LowG.then_right (x := l) (j := i + 1) (fun _ _ _ _ => Nat.zero_le _)
        ((acc_terminal.2 ⟨h4, h5⟩).sem_eq defs_plain (by simp [G.All, plainL, G.Plain, terminal, Build.oneOf])) ?_
      refine .map (low_alternation fun m en => low_repetition h2 ?_ (fun m => h2.low m))
      rw [show i + 1 + 2 * n + 1 = i + 2 * n + 2 by omega]
      exact h3.free (by simp [suffixes])
    exact fun hs => (LowG.then_left h6 hs).mono (by rw [Nat.pow_succ]; omega)

/-- The whole input. -/
theorem low_grammar {n : Nat} (h1 : Next e 0 .symbol) (h2 : Next e 1 .colEqEq) (h3 : NestAt e n 2)
    (h4 : Next e (2 * n + 3) .sem) :
    LowG e (defs pats) m (parser (Sp := Sp) .grammar) true 0 (4 ^ (n + 1)) := by
  obtain ⟨s, h5, h6⟩ := Next.pt h1
  obtain ⟨c, h7, h8⟩ := Next.pt h2
  refine .boxed fun hs => (LowG.thenIgnore_left (K := 4 ^ (n + 1)) ?_ hs).mono (by omega)
  refine LowG.call (g := grammarDef) rfl fun m => ?_
  refine .boxed (.map (.boxed (.repeated rfl (.map ?_))))
  refine LowG.call (g := ruleDef pats) rfl fun m => ?_
  refine .boxed (.or_left (.or_left (.map (.boxed (.map ?_)))))
  have h9 : Accepts e (defs pats) (.then_ (.then_ (optional (terminal pats .doc)) (terminal pats .symbol))
      (terminal pats .colEqEq)) 0 ((none, s), c) 2 := by
    refine .then_ (.then_ (i := 0) (j := 0) (k := 1) ?_ (acc_terminal.2 ⟨h5, h6⟩)) (acc_terminal.2 ⟨h7, h8⟩)
    exact acc_optional.2 (.inr ⟨rfl, rfl, rej_terminal.2 (h1.ne (by decide))⟩)
  have h10 : LowG e (defs pats) m (.then_ (.then_ (.then_ (optional (terminal pats .doc)) (terminal pats .symbol))
      (terminal pats .colEqEq)) (ref .alternation)) false 0 (0 + 4 * 4 ^ n) := by
    refine LowG.then_right (x := ((none, s), c)) (j := 2) (fun _ _ _ _ => Nat.zero_le _)
      (h9.sem_eq defs_plain (by simp [G.All, plainL, G.Plain, G.Tidy, terminal, optional, Build.oneOf])) ?_
    refine .map (low_alternation fun m en => low_repetition h3 ?_ (fun m => h3.low m))
    rw [show 2 + 2 * n + 1 = 2 * n + 3 by omega]
    exact h4.free (by simp [suffixes])
  exact fun hs => (LowG.then_left h10 hs).mono (by rw [Nat.pow_succ]; omega)

end Pangram

end PPC
