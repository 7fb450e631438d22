import Verif.SemJson3
import Verif.SemPanicOff
import Verif.PropsPeg
import Verif.PropsTerm

/-!
# The JSON grammar meets the conditions of the general theorems: lemmas
-/

namespace PPC.Json

open PPC

variable {F : Type} {parseF : String → Option F}

theorem checkChar_errs (a : UInt32) (sp : charSig.Span) :
    checkChar a sp ≠ .err [] ∧ ∀ o, checkChar a sp ≠ .recovered o [] := by
  unfold checkChar
  split <;> simp

theorem numberOf_errs (a : ((Bool × String) × Option String) × Option (Bool × String)) (sp : charSig.Span) :
    numberOf parseF a sp ≠ .err [] ∧ ∀ o, numberOf parseF a sp ≠ .recovered o [] := by
  obtain ⟨⟨⟨b, s⟩, f⟩, x⟩ := a
  unfold numberOf
  simp only
  split
  · cases parseF s <;> simp
  · cases parseI128 s <;> simp

theorem defs_plain : (defs parseF).Plain := by
  intro k g hk
  cases hk
  rw [choice_eq, object_eq, array_eq]
  unfold keyValuePair string
  rw [key_eq, null_eq, boolTrue_eq, boolFalse_eq, whitespace_eq]
  unfold charP
  rw [escape_eq]
  unfold hexEscape number sign fraction
  rw [integerNlz_eq, integerLz_eq, exponent_eq, exponentSign_eq, integerLz_eq]
  unfold value
  refine ⟨?_, ?_⟩
  · simp only [G.All, GL.All, plainL, G.Plain, G.Tidy, GL.InitTidy, and_true, true_and]
    simp [checkChar_errs, numberOf_errs]
  · simp [G.Tidy]

theorem defs_calm : (defs parseF).All (calmOffL _ _) := by
  intro k g hk
  cases hk
  rw [choice_eq, object_eq, array_eq]
  unfold keyValuePair string
  rw [key_eq, null_eq, boolTrue_eq, boolFalse_eq, whitespace_eq]
  unfold charP
  rw [escape_eq]
  unfold hexEscape number sign fraction
  rw [integerNlz_eq, integerLz_eq, exponent_eq, exponentSign_eq, integerLz_eq]
  unfold value
  simp only [G.All, GL.All, calmOffL, G.CalmOff, GL.length, and_true, true_and]
  exact ⟨by decide, ⟨by decide, checkChar_errs⟩, ⟨by decide, checkChar_errs⟩, numberOf_errs⟩

theorem defs_coherent : (defs parseF).All (coherentL fun _ => False) := by
  intro k g hk
  cases hk
  rw [choice_eq, object_eq, array_eq]
  unfold keyValuePair string
  rw [key_eq, null_eq, boolTrue_eq, boolFalse_eq, whitespace_eq]
  unfold charP
  rw [escape_eq]
  unfold hexEscape number sign fraction
  rw [integerNlz_eq, integerLz_eq, exponent_eq, exponentSign_eq, integerLz_eq]
  unfold value
  simp [G.All, GL.All, coherentL, G.Coherent, noRecL, G.NoRecovery]

theorem defs_progress : (defs parseF).All (progressL _ _ fun _ _ => false) := by
  intro k g hk
  cases hk
  rw [choice_eq, object_eq, array_eq]
  unfold keyValuePair string
  rw [key_eq, null_eq, boolTrue_eq, boolFalse_eq, whitespace_eq]
  unfold charP
  rw [escape_eq]
  unfold hexEscape number sign fraction
  rw [integerNlz_eq, integerLz_eq, exponent_eq, exponentSign_eq, integerLz_eq]
  unfold value
  simp [G.All, GL.All, progressL, G.Progresses, G.mayEmpty, GL.anyEmpty]

theorem defs_nullable : Nullable (defs parseF) fun _ _ => false := by
  intro k g en hk
  cases hk
  rw [choice_eq, object_eq, array_eq]
  unfold keyValuePair string
  rw [key_eq, null_eq, boolTrue_eq, boolFalse_eq, whitespace_eq]
  unfold charP
  rw [escape_eq]
  unfold hexEscape number sign fraction
  rw [integerNlz_eq, integerLz_eq, exponent_eq, exponentSign_eq, integerLz_eq]
  unfold value
  simp [G.mayEmpty, GL.anyEmpty]

theorem defs_not_left_recursive : NoLeftRecursion (defs parseF) fun _ _ => false := by
  refine ⟨fun x => ⟨x, ?_⟩⟩
  rintro y ⟨g, hk, hc⟩
  cases hk
  exfalso
  revert hc
  rw [choice_eq, object_eq, array_eq]
  unfold keyValuePair string
  rw [key_eq, null_eq, boolTrue_eq, boolFalse_eq, whitespace_eq]
  unfold charP
  rw [escape_eq]
  unfold hexEscape number sign fraction
  rw [integerNlz_eq, integerLz_eq, exponent_eq, exponentSign_eq, integerLz_eq]
  unfold value
  simp [G.MayCall, GL.MayCallAny, G.mayEmpty, GL.anyEmpty]

end PPC.Json
