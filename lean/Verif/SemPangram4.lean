import Verif.SemPangram3
import Verif.PropsPeg
import Verif.PropsTerm
import Verif.PropsApi
import Verif.SemHide

/-!
# The grammar of grammar files meets the conditions of the general theorems: lemmas
-/

namespace PPC.Pangram

open PPC

variable {Sp : Type} {patterns : TerminalPatterns Sp}

theorem grammarDef_eq : grammarDef (Sp := Sp) = .boxed (.map (fun x => ⟨x⟩) (.boxed
    (.repeated ⟨1, none, false, false⟩ (ref .rule)))) := rfl

theorem concatenationDef_eq : concatenationDef (Sp := Sp) = .boxed (.map (fun x => .mk x) (.boxed
    (.repeated ⟨1, none, false, false⟩ (ref .repetition)))) := rfl

theorem row_eq {x : NT} : (G.boxed (ref x).repeatedWith.parser : P Sp _) =
    .boxed (.repeated ⟨0, none, false, false⟩ (ref x)) := rfl

theorem bars_eq {g : P Sp (Pt .bar Sp × PtConcatenation Sp)} : g.repeatedWith.parser =
    .repeated ⟨0, none, false, false⟩ g := rfl

theorem terminal_eq {x : TokenType} : terminal patterns x =
    .boxed (.mapWithSpan (Pt.new x) (.oneOf [patterns.pattern x])) := rfl

/-- Unfolds the definition of a recursive parser. -/
macro "unfold_def" : tactic => `(tactic|
  (try unfold ruleDef tokenRuleDef whitespaceRuleDef grammarRuleDef
   try unfold alternationDef
   try unfold firstAlterDef
   try unfold subseqAlterDef
   try unfold alterNameDef
   try unfold repetitionDef suffixedDef
   try unfold singularDef nestedDef
   try rw [grammarDef_eq]
   try rw [concatenationDef_eq]
   try rw [row_eq]
   try rw [bars_eq]
   try simp only [terminal_eq]
   try unfold optional
   try unfold ref))

theorem defs_plain : (defs patterns).Plain := by
  intro k g hk
  cases k <;> cases hk <;> unfold_def <;>
    simp [G.All, plainL, G.Plain, G.Tidy]

theorem defs_noRec : (defs patterns).All (noRecL fun _ => True) := by
  intro k g hk
  cases k <;> cases hk <;> unfold_def <;>
    simp [G.All, noRecL, G.NoRecovery]

theorem defs_safe : (defs patterns).All (safeL fun _ => True) := by
  intro k g hk
  cases k <;> cases hk <;> unfold_def <;>
    simp [G.All, safeL, G.Safe, noRecL, G.NoRecovery]

theorem defs_progress : (defs patterns).All (progressL _ _ fun _ _ => false) := by
  intro k g hk
  cases k <;> cases hk <;> unfold_def <;>
    simp [G.All, progressL, G.Progresses, G.mayEmpty]

theorem defs_nullable : Nullable (defs patterns) fun _ _ => false := by
  intro k g en hk
  cases k <;> cases hk <;> unfold_def <;>
    simp [G.mayEmpty]

/-- How many recursive parsers may be entered, at most, before a token is consumed. -/
def depth : NT → Nat
  | .grammar => 4
  | .alternation => 3
  | .concatenation => 2
  | .repetition => 1
  | _ => 0

theorem defs_not_left_recursive : NoLeftRecursion (defs patterns) fun _ _ => false := by
  refine Subrelation.wf (r := InvImage (· < ·) fun x => depth x.2) ?_ (InvImage.wf _ Nat.lt_wfRel.wf)
  rintro ⟨b, x⟩ ⟨en, k⟩ ⟨g, hk, hc⟩
  revert hc
  cases k <;> cases hk <;> unfold_def <;> simp [G.MayCall, G.mayEmpty, InvImage] <;>
    (first
      | (intros; subst_vars; decide)
      | (rintro (⟨_, rfl⟩ | ⟨_, rfl⟩) <;> decide)
      | (rintro (⟨_, rfl⟩ | ⟨_, ⟨_, rfl⟩ | ⟨_, rfl⟩⟩) <;> decide))

/-! ## The whole input -/

variable {e : Env (tokSig Sp)} {i j : Nat} {d : Sp}

theorem reads_tokEnv {ts : List (TerminalToken TokenType Sp)} : ∀ {l : List (TokenData Sp)} {i j : Nat},
    Reads (tokEnv ts) i l j → i ≤ ts.length → j = i + l.length ∧ j ≤ ts.length ∧
      l = (numbered i (ts.drop i)).take l.length
  | [], i, j, h, hi => by
    cases h
    exact ⟨by simp, hi, by simp⟩
  | d :: l, i, j, ⟨h1, h2, h3⟩, hi => by
    obtain ⟨hl, h1⟩ := List.getElem?_eq_some_iff.1 (show ts[i]? = some d.token from h1)
    obtain ⟨h4, h5, h6⟩ := reads_tokEnv h3 hl
    refine ⟨by simp; omega, h5, ?_⟩
    rw [List.drop_eq_getElem_cons hl, numbered, List.length_cons, List.take_succ_cons, ← h6, h1, ← h2]

theorem numbered_length (i : Nat) : ∀ (ts : List (TerminalToken TokenType Sp)), (numbered i ts).length = ts.length
  | [] => rfl
  | t :: ts => by simp [numbered, numbered_length (i + 1) ts]

theorem reads_numbered : ∀ {ts : List (TerminalToken TokenType Sp)} {i : Nat},
    (∀ a t, ts[a]? = some t → e.source (i + a) = some t) → Reads e i (numbered i ts) (i + ts.length)
  | [], i, _ => rfl
  | t :: ts, i, h => by
    refine ⟨h 0 t rfl, rfl, ?_⟩
    have := reads_numbered (ts := ts) (i := i + 1) fun a u hu => by
      rw [Nat.add_assoc, Nat.add_comm 1 a]
      exact h (a + 1) u (by simpa using hu)
    rw [List.length_cons]
    rwa [Nat.add_assoc, Nat.add_comm 1] at this

theorem reads_all {ts : List (TerminalToken TokenType Sp)} {l : List (TokenData Sp)} :
    Reads (tokEnv ts) 0 l j ∧ (tokEnv ts).source j = none ↔ l = numbered 0 ts ∧ j = ts.length := by
  constructor
  · rintro ⟨h1, h2⟩
    obtain ⟨h3, h4, h5⟩ := reads_tokEnv h1 (Nat.zero_le _)
    have h6 : ts.length ≤ j := List.getElem?_eq_none_iff.1 h2
    have h7 : l.length = (numbered 0 ts).length := by rw [numbered_length]; omega
    rw [h7] at h5
    exact ⟨by simpa using h5, by omega⟩
  · rintro ⟨rfl, rfl⟩
    refine ⟨by simpa using reads_numbered (e := tokEnv ts) (ts := ts) (i := 0) (by simp [tokEnv]), ?_⟩
    exact List.getElem?_eq_none (Nat.le_refl _)

/-- What the parsers accept, on a whole input. -/
theorem accepts_all {n : NT} {x : NT.out Sp n} {ts : List (TerminalToken TokenType Sp)} :
    Accepts (tokEnv ts) (defs (TerminalPatterns.default d)) (parser n) 0 x j ↔
      Complete x ∧ leaves x = numbered 0 ts ∧ j = ts.length := by
  unfold parser
  rw [acc_boxed, accepts_iff]
  constructor
  · rintro ⟨k, y, h1, h2⟩
    obtain ⟨h3, rfl⟩ := accepts_iff.1 h2
    obtain ⟨h4, h5⟩ := nt_sound h1
    exact ⟨h4, reads_all.1 ⟨h5, h3⟩⟩
  · rintro ⟨h1, h2⟩
    obtain ⟨h3, h4⟩ := reads_all.2 h2
    exact ⟨j, (), nt_complete h1 h3 (free_end h4), .eof h4⟩

theorem parser_plain {n : NT} : (parser (Sp := Sp) n).All (plainL _ _) := by simp [parser, G.All, plainL, G.Plain]
theorem parser_tidy {n : NT} : (parser (Sp := Sp) n).Tidy := by simp [parser, G.Tidy]
theorem parser_noRec {n : NT} : (parser (Sp := Sp) n).All (noRecL fun _ => True) := by
  simp [parser, G.All, noRecL, G.NoRecovery]
theorem parser_safe {n : NT} : (parser (Sp := Sp) n).All (safeL fun _ => True) := by simp [parser, G.All, safeL, G.Safe]
theorem parser_progress {n : NT} : (parser (Sp := Sp) n).All (progressL _ _ fun _ _ => false) := by
  simp [parser, G.All, progressL, G.Progresses]

theorem rec_free : RecFreeNames (fun _ => True) (defs patterns) := fun k g _ h => defs_noRec k g h

theorem defs_defined (k : (names Sp).K) : (defs patterns k).isSome := by
  cases k <;> rfl

end PPC.Pangram
