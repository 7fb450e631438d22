import Verif.SemDepth
import Verif.SemJson4
import Verif.SemPangram4
import Verif.SpecJson

/-!
# Nested calls of the JSON parser and of the parsers of grammar files: lemmas for C56
-/

namespace PPC.Json

open PPC

variable {F : Type} {parseF : String → Option F} {e : Env charSig} {m i : Nat} {en : Bool}
  {ρ : QEnv charSig (names F)}

theorem ws_deep (h0 : e.source i = some '[') : (whitespace F).den e ρ (m + 1) en i = .ok (.success [], i) := by
  have h : (Build.oneOf " \n\r\t" : P F Char).den e ρ (m + 1) (en && decide (0 < 0)) i =
      .ok (mismatch e (voidErr charSig) ([' ', '\n', '\r', '\t'].map some) i, i) := by
    show (G.den e ρ (m + 1) (.oneOf [' ', '\n', '\r', '\t'] : P F Char)) _ i = _
    rw [G.den, qOneOf, h0]
    rfl
  show (G.repeated _ _ : P F (List Char)).den e ρ (m + 1) en i = _
  rw [G.den, qRepeat, repLoopSem]
  unfold repItemSem
  simp only [RepCfg.atMax, List.length_nil]
  erw [h]
  rfl

theorem array_deep (h0 : e.source i = some '[') (hρ : ∀ en, ρ () en (i + 1) = .oof) :
    (array : P F (Value F)).den e ρ m en i = .oof := by
  have h1 : (G.just '[' : P F Char).den e ρ m en i = .ok (.success '[', i + 1) := by
    rw [G.den, qJust, h0]
    rfl
  have h2 : ((value.separatedWith (.just ',' : P F Char)).parser : P F (List (Value F))).den e ρ m false (i + 1) = .oof := by
    show (G.separatedBy _ _ _ : P F (List (Value F))).den e ρ m false (i + 1) = _
    rw [G.den, qRepeat]
    cases m with
    | zero => rfl
    | succ m =>
      rw [repLoopSem]
      unfold repItemSem
      simp only [G.separatedWith, RepCfg.atMax, Bool.false_eq_true, if_false, List.length_nil, Bool.and_false]
      have h3 : ∀ en, (value : P F (Value F)).den e ρ (m + 1) en (i + 1) = .oof := by
        intro en
        rw [value, G.den]
        exact hρ en
      rw [h3]
      rfl
  have h4 : (G.or (value.separatedWith (.just ',' : P F Char)).parser (.to (whitespace F) []) :
      P F (List (Value F))).den e ρ m en (i + 1) = .oof := by
    rw [G.den, qAlternate, altFirstSem, h2]
    rfl
  rw [array, G.den, G.den, qMap, G.den, qConcat3, h1]
  show (concatMidSem en i _ _ _ none (i + 1) >>= _) = _
  unfold concatMidSem
  rw [h4]
  rfl

theorem object_deep (h0 : e.source i = some '[') :
    ∃ es, (object : P F (Value F)).den e ρ m false i = .ok (.failed i es, i) := by
  have h1 : (G.just '{' : P F Char).den e ρ m false i = .ok (mismatch e (voidErr charSig) [some '{'] i, i) := by
    rw [G.den, qJust, h0]
    rfl
  rw [object, G.den, G.den, qMap, G.den, qConcat3, h1]
  exact ⟨_, rfl⟩

theorem choice_deep (h0 : e.source i = some '[') (hρ : ∀ en, ρ () en (i + 1) = .oof) :
    (choice parseF : P F (Value F)).den e ρ m en i = .oof := by
  obtain ⟨es, h1⟩ := object_deep (F := F) (ρ := ρ) (m := m) h0
  show (G.alters (.cons (.boxed object) (.cons (.boxed array) _)) : P F (Value F)).den e ρ m en i = _
  rw [G.den, qAlternate, GL.den, altFirstSem, G.den, h1]
  show (altFirstSem _ _ i >>= _) = _
  rw [GL.den, altFirstSem, G.den, array_deep h0 hρ]
  rfl

theorem value_deep (h0 : e.source i = some '[') (hρ : ∀ en, ρ () en (i + 1) = .oof) :
    (G.withError (.paddedBy (whitespace F) (choice parseF)) : G charSig (names F) (voidErr charSig) (Value F)).den e ρ m en i
      = .oof := by
  rw [G.den, G.den, qConcat3]
  cases m with
  | zero => rfl
  | succ m =>
    rw [ws_deep h0]
    show concatMidSem en i _ _ _ none i = _
    unfold concatMidSem
    rw [choice_deep h0 hρ]
    rfl

theorem nested_depth : ∀ (d i : Nat) (en : Bool), (∀ x, x < d → e.source (i + x) = some '[') →
    depthSem e (defs parseF) m d () en i = .oof
  | 0, _, _, _ => rfl
  | d + 1, i, en, h => by
    show (G.withError _ : G charSig (names F) (voidErr charSig) (Value F)).den e _ m en i = .oof
    refine value_deep (h 0 (by omega)) fun en => nested_depth d (i + 1) en fun x hx => ?_
    have := h (x + 1) (by omega)
    rwa [show i + (x + 1) = i + 1 + x by omega] at this

theorem defs_ranked : Ranked (defs parseF) (fun _ _ => false) (fun _ _ => 0) 1 where
  below _ _ := by omega
  down b k b' k' g hk hc := by
    cases hk
    exfalso
    revert hc
    rw [choice_eq, object_eq, array_eq]
    unfold keyValuePair string
    rw [key_eq, null_eq, boolTrue_eq, boolFalse_eq, whitespace_eq]
    unfold charP
    rw [escape_eq]
    unfold hexEscape number sign fraction
    rw [integerNlz_eq, integerLz_eq, exponent_eq, exponentSign_eq, integerLz_eq]
    unfold value
    simp [G.MayCall, GL.MayCallAny, G.mayEmpty, GL.anyEmpty]

/-- `n + 1` arrays in one another. -/
def nested : Nat → Value F
  | 0 => .array []
  | n + 1 => .array [nested n]

theorem nested_text (d : Dialect F) : ∀ n, Text d (nested n) (List.replicate (n + 1) '[' ++ List.replicate (n + 1) ']')
  | 0 => .emptyArray (w := []) (fun _ h => by cases h) fun h => (h rfl).elim
  | n + 1 => by
    have h : Padded d (nested n) ([] ++ ((List.replicate (n + 1) '[' ++ List.replicate (n + 1) ']') ++ [])) :=
      .mk (fun _ h => by cases h) (nested_text d n) (fun _ h => by cases h)
    have h1 := Text.array (.one h)
    have h2 : List.replicate (n + 1 + 1) '[' ++ List.replicate (n + 1 + 1) ']' =
        '[' :: ([] ++ ((List.replicate (n + 1) '[' ++ List.replicate (n + 1) ']') ++ []) ++ [']']) := by
      rw [List.replicate_succ (n := n + 1) (a := '['), List.replicate_succ' (n := n + 1) (a := ']')]
      simp
    rw [h2]
    exact h1

theorem nested_padded (d : Dialect F) (n : Nat) :
    Padded d (nested n) (List.replicate (n + 1) '[' ++ List.replicate (n + 1) ']') := by
  have h := Padded.mk (d := d) (v := nested n) (w := []) (w' := []) (fun _ h => by cases h) (nested_text d n)
    (fun _ h => by cases h)
  simpa using h

end PPC.Json

namespace PPC.Pangram

open PPC

variable {Sp : Type} {patterns : TerminalPatterns Sp}

theorem defs_ranked : Ranked (defs patterns) (fun _ _ => false) (fun _ k => depth k) 5 where
  below _ k := by cases k <;> simp [depth]
  down b k b' k' g hk hc := by
    revert hc
    cases k <;> cases hk <;> unfold_def <;> simp [G.MayCall, G.mayEmpty] <;>
    (first
      | (intros; subst_vars; decide)
      | (rintro (⟨_, rfl⟩ | ⟨_, rfl⟩) <;> decide)
      | (rintro (⟨_, rfl⟩ | ⟨_, ⟨_, rfl⟩ | ⟨_, rfl⟩⟩) <;> decide))

end PPC.Pangram
