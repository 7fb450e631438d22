import Verif.PropsRecursion
import Verif.SemHide

/-!
# C15: parsers without recovery

A parser that uses no recovery (`to_recover`, `try_map` that recovers, and recursive parsers that may do
so) is not affected by `enable_recovery`.
-/

namespace PPC

variable {S : Sig} {N : Names S} {e : Env S} {D : Defs S N} {ε : ErrTy S} {α : Type} {g : G S N ε α}
  {i j : Nat} {r : Res α ε.E} {F : N.K → Prop}

/-- C15: without recovery in the grammar, enabling recovery changes nothing: results, panics and end
positions are the same. -/
theorem C15_no_recovery_same (hF : RecFreeNames F D) (hg : g.All (noRecL F)) (hi : Valid e i) :
    (Finishes e D g true i r j ↔ Finishes e D g false i r j) ∧
      ∀ msg, Crashes e D g true i msg ↔ Crashes e D g false i msg := by
  have h : ∀ n, g.sem e D n true i = g.sem e D n false i :=
    fun n => (G.rf (callSem_rf hF n) n g hg).eq i
  refine ⟨⟨?_, ?_⟩, fun msg => ⟨?_, ?_⟩⟩ <;> rintro ⟨n, h1⟩ <;> refine ⟨n, ?_⟩
  · exact (parsesAt_iff hi).2 ((h n).symm.trans ((parsesAt_iff hi).1 h1))
  · exact (parsesAt_iff hi).2 ((h n).trans ((parsesAt_iff hi).1 h1))
  · exact (panicsAt_iff hi).2 ((h n).symm.trans ((panicsAt_iff hi).1 h1))
  · exact (panicsAt_iff hi).2 ((h n).trans ((panicsAt_iff hi).1 h1))

/-- C15: without recovery in the grammar, nothing is ever recovered. -/
theorem C15_no_recovery_never_recovers (hF : RecFreeNames F D) (hg : g.All (noRecL F)) (hi : Valid e i)
    {en : Bool} {a : α} {es : List ε.E} : ¬Finishes e D g en i (.recovered a es) j := by
  rintro ⟨n, h1⟩
  have h : RF (g.sem e D n) := G.rf (callSem_rf hF n) n g hg
  have h2 := (parsesAt_iff hi).1 h1
  cases en with
  | false => exact h.nr _ _ _ _ h2
  | true => exact h.nr _ _ _ _ ((h.eq i).symm.trans h2)

/-- A concrete case: balanced parentheses (1 and 2) around a 0, without recovery. -/
def exBalanced : Defs exSig exRecNames := fun _ =>
  some (.or (.map (fun x => x.2 + 1) (.thenIgnore (.then_ (.just 1) (.call ())) (.just 2))) (.map (fun _ => 0) (.just 0)))

example : RecFreeNames (fun _ => True) exBalanced ∧ (.call () : G exSig exRecNames _ Nat).All (noRecL fun _ => True) ∧
    Finishes (exEnv [1, 1, 0, 2, 2]) exBalanced (.call ()) true 0 (.success 2) 5 ∧
    ∃ es, Finishes (exEnv [1, 1, 0, 2, 3]) exBalanced (.call ()) true 0 (.failed 4 es) 0 := by
  refine ⟨?_, by simp [G.All, noRecL, G.NoRecovery], ⟨20, exParsesAt (by decide +kernel)⟩, ?_⟩
  · intro k g _ h
    cases h
    simp [G.All, noRecL, G.NoRecovery]
  · exact ⟨[.expectedFound [some 2] (some 3) (.span (4, 5))], 20, exParsesAt (by decide +kernel)⟩

end PPC
