import Verif.PropsFlag
import Verif.SemPrefix

/-!
# C60: recovery only adds errors

The errors reported without recovery are the first errors reported with recovery. This holds where recovery is used
in sequences (`G.InSequence` in SpecPrefix.lean) and the parse recovers. It does not hold in general: a sequence
forgets what was recovered when a later part fails, and a choice reports only the alternative that recovers.
-/

namespace PPC

variable {S : Sig} {N : Names S} {e : Env S} {D : Defs S N} {ε : ErrTy S} {α : Type} {g : G S N ε α}
  {i j : Nat} {F : N.K → Prop} {o : α} {es : List ε.E}

/-- C60 (partial: recovery in sequences only, and the parse recovers): a parse that recovers fails when recovery is
disabled, and reports the errors of that failure first, unchanged. -/
theorem C60_recovered_partial (hF : RecFreeNames F D) (hD : D.All (inSeqL F)) (hg : g.All (inSeqL F))
    (hi : Valid e i) (h : Finishes e D g true i (.recovered o es) j) :
    ∃ k first l more, Finishes e D g false i (.failed k first) l ∧ es = first ++ more := by
  obtain ⟨n, h1⟩ := h
  obtain ⟨k, first, l, h2, more, h3⟩ := (G.sem_fe hF hD n hg).re _ _ _ _ ((parsesAt_iff hi).1 h1)
  exact ⟨k, first, l, more, ⟨n, (parsesAt_iff hi).2 h2⟩, h3.symm⟩

/-- C60 (partial: as before): a parse that succeeds with recovery enabled succeeds in the same way when it is
disabled. -/
theorem C60_success_partial (hF : RecFreeNames F D) (hD : D.All (inSeqL F)) (hg : g.All (inSeqL F))
    (hi : Valid e i) (h : Finishes e D g true i (.success o) j) : Finishes e D g false i (.success o) j := by
  obtain ⟨n, h1⟩ := h
  exact ⟨n, (parsesAt_iff hi).2 ((G.sem_fe hF hD n hg).su _ _ _ ((parsesAt_iff hi).1 h1))⟩

/-- C60 (partial: one `to_recover` only): also if a strategy gives up, the errors of the failure come first, and the
position of the failure is the same. -/
theorem C60_gives_up_partial {cs : CS S N ε α} {x : Nat} (hF : RecFreeNames F D) (hg : g.All (noRecL F))
    (hs : cs.All (inSeqL F)) (hi : Valid e i) (h : Finishes e D (.toRecover g cs) true i (.failed x es) j) :
    ∃ first more, Finishes e D (.toRecover g cs) false i (.failed x first) j ∧ es = first ++ more := by
  obtain ⟨n, h1⟩ := h
  have hq : RF (g.sem e D n) := G.rf (callSem_rf hF n) n g hg
  have h2 := (parsesAt_iff hi).1 h1
  have h0 : ∀ en, (G.toRecover g cs).sem e D n en i = qToRecover (g.sem e D n) (cs.den e (callSem e D n) n) en i :=
    fun en => by rw [G.sem, G.den]; rfl
  rw [h0] at h2
  simp only [qToRecover, Out.bind_eq_ok] at h2
  obtain ⟨⟨r, k⟩, h3, h4⟩ := h2
  rw [hq.eq i] at h3
  cases r with
  | success a => cases h4
  | recovered a es' => cases h4
  | failed y es' =>
    simp only [Bool.not_true, Bool.false_eq_true, if_false, Out.bind_eq_ok] at h4
    obtain ⟨fa, -, ⟨⟨oo, fa', es''⟩, l⟩, h6, h7⟩ := h4
    obtain ⟨more, h8⟩ := CS.ap n cs hs _ _ _ _ _ _ _ _ _ h6
    cases oo <;> cases h7
    exact ⟨es', more, ⟨n, (parsesAt_iff hi).2 (by rw [h0, qToRecover, h3]; rfl)⟩, h8.symm⟩

/-- The scanner of the crate only appends errors, so strategies that skip nested delimiters meet the condition. -/
theorem C60_nested_delimiters_append (types : List (S.I × S.I)) : (nestedDelimiters ε types).Appends :=
  nestedDelimiters_appends ε types

/-- A concrete case: a 1 and a 2, both recovered. -/
def exBoth : ExG (Nat × Nat) :=
  .then_ (.toRecover (.just 1) (.ret .attemptTo 0)) (.toRecover (.just 2) (.ret .attemptTo 0))

example : exNoDefs.All (inSeqL fun _ => True) ∧ RecFreeNames (fun _ => True) exNoDefs ∧
    exBoth.All (inSeqL fun _ => True) ∧
    Finishes (exEnv [3]) exNoDefs exBoth true 0 (.recovered (0, 0)
      [.expectedFound [some 1] (some 3) (.span (0, 1)), .expectedFound [some 2] (some 3) (.span (0, 1))]) 0 ∧
    Finishes (exEnv [3]) exNoDefs exBoth false 0 (.failed 0 [.expectedFound [some 1] (some 3) (.span (0, 1))]) 0 ∧
    Finishes (exEnv [1, 2]) exNoDefs exBoth true 0 (.success (1, 2)) 2 := by
  refine ⟨fun k => k.elim, fun k => k.elim, ?_, ⟨20, exParsesAt (by decide +kernel)⟩,
    ⟨20, exParsesAt (by decide +kernel)⟩, ⟨20, exParsesAt (by decide +kernel)⟩⟩
  simp [exBoth, G.All, CS.All, IS.All, inSeqL, G.InSequence, IS.Appends, noRecL, G.NoRecovery]

/-- A concrete case of a strategy that gives up, after an error of its own. -/
example : Finishes (exEnv [3]) exNoDefs
      (.toRecover (.just 1) (.orFail (.pushError .attemptTo fun _ => .custom "no 1" (.span (0, 1)))) : ExG Nat) true 0
      (.failed 0 [.expectedFound [some 1] (some 3) (.span (0, 1)), .custom "no 1" (.span (0, 1))]) 0 ∧
    (.orFail (.pushError .attemptTo fun _ => .custom "no 1" (.span (0, 1))) : CS exSig exNames (simpleErr exSig) Nat).All
      (inSeqL fun _ => True) :=
  ⟨⟨20, exParsesAt (by decide +kernel)⟩, by simp [CS.All, IS.All, inSeqL, IS.Appends]⟩

/-- C60 does not hold for sequences that fail: what was recovered before is not reported. On 3, a 1 and a 2 are expected
to follow each other. Without recovery, the missing 1 is reported. With recovery of the 1 the parse fails all the same,
and only the missing 2 is reported. -/
theorem C60_sequence_fails :
    Finishes (exEnv [3]) exNoDefs
      (.then_ (.toRecover (.just 1) (.ret .attemptTo 0)) (.just 2) : ExG (Nat × Nat)) false 0
      (.failed 0 [.expectedFound [some 1] (some 3) (.span (0, 1))]) 0 ∧
    Finishes (exEnv [3]) exNoDefs
      (.then_ (.toRecover (.just 1) (.ret .attemptTo 0)) (.just 2) : ExG (Nat × Nat)) true 0
      (.failed 0 [.expectedFound [some 2] (some 3) (.span (0, 1))]) 0 :=
  ⟨⟨20, exParsesAt (by decide +kernel)⟩, ⟨20, exParsesAt (by decide +kernel)⟩⟩

/-- C60 does not hold for choices: only the alternative that recovers is reported. -/
theorem C60_choice_fails :
    Finishes (exEnv [3]) exNoDefs
      (.or (.toRecover (.just 1) (.ret .attemptTo 0)) (.just 2) : ExG Nat) false 0
      (.failed 0 [.expectedFound [some 1, some 2] (some 3) (.span (0, 1))]) 0 ∧
    Finishes (exEnv [3]) exNoDefs
      (.or (.toRecover (.just 1) (.ret .attemptTo 0)) (.just 2) : ExG Nat) true 0
      (.recovered 0 [.expectedFound [some 1] (some 3) (.span (0, 1))]) 0 :=
  ⟨⟨20, exParsesAt (by decide +kernel)⟩, ⟨20, exParsesAt (by decide +kernel)⟩⟩

end PPC
