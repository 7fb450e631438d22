import Verif.SemCost8
import Verif.SemCost9
import Verif.PropsCost

/-!
# C51, C52: more about the work of a parse
-/

namespace PPC

/-! ## C51: what `map_err_with_span` can do -/

/-- All tokens, of which there are too many:
`filter(|_| true).repeated().try_map(|xs, _| Err(vec![(); 2.pow(xs.len())])).map_err_with_span(|e, _| e)`. -/
def exFlood : G exSig exNames (voidErr exSig) Unit :=
  .mapErrWithSpan (fun _ _ => ()) (.tryMap (fun xs _ => .err (List.replicate (2 ^ xs.length) ()))
    (.repeated {} (.filter fun _ => true) : G exSig exNames (voidErr exSig) (List Nat)))

/-- It is not recursive (there are no recursive parsers in `exNames`), it does not recover, and its loop makes progress. -/
example : exFlood.All (noRecL fun _ => False) ∧ exFlood.All (progressL exSig exNames fun _ _ => true) ∧ exFlood.loops = 1 := by
  refine ⟨?_, ?_, rfl⟩
  · simp [exFlood, G.All, noRecL, G.NoRecovery]
  · simp [exFlood, G.All, progressL, G.Progresses, G.mayEmpty]

theorem flood_sem {L n : Nat} {e : Env exSig} (hL : Length e L) (hn : L < n) (D : Defs exSig exNames) (en : Bool) :
    (G.tryMap (fun xs _ => .err (List.replicate (2 ^ xs.length) ()))
      (.repeated {} (.filter fun _ => true) : G exSig exNames (voidErr exSig) (List Nat)) :
        G exSig exNames (voidErr exSig) Unit).sem e D n en 0 = .ok (.failed 0 (List.replicate (2 ^ L) ()), 0) := by
  obtain ⟨xs, h1, h2⟩ := anyLoop (ε := voidErr exSig) (p := fun _ => true) (fun _ => rfl) (en := en) (start := 0) hL L n [] 0 (by omega) hn
  show qTryMap e _ (qRepeat n {} (qFilter e _ _) none) en 0 = _
  unfold qTryMap qRepeat
  rw [h2]
  simp only [Out.ok_bind, tryMapStep, List.nil_append, h1]
  rw [if_neg]
  simp

/-- **C51**, the negation for `map_err_with_span`: it makes a call for every error of its argument, and a function that the
user gives to `try_map` can return any number of them. No polynomial bounds the number of calls of this parser, which is
not recursive. -/
theorem C51_map_err_with_span_fails (al : Alloc) : ¬∃ c k : Nat, ∀ (ts : List Nat) (n : Nat) (r : Res Unit Unit),
    parseWithRecovery (exFlood.prog exNoDefs n) al (fun i => ts[i]?) () = .ok r →
    parseCalls (exFlood.prog exNoDefs n) al (fun i => ts[i]?) () ≤ c * (ts.length + 1) ^ k := by
  rintro ⟨c, k, h⟩
  obtain ⟨n, hn⟩ := Pangram.exponential c k
  have hL : Length (S := exSig) ⟨fun i => (List.replicate (2 * n + 4) 0)[i]?, ()⟩ (2 * n + 4) :=
    ⟨fun i hi => by simp [hi], by simp⟩
  have h1 := flood_sem hL (Nat.lt_succ_self _) exNoDefs true
  have h2 : exFlood.sem ⟨fun i => (List.replicate (2 * n + 4) 0)[i]?, ()⟩ exNoDefs (2 * n + 4 + 1) true 0 =
      .ok (.failed 0 ((List.replicate (2 ^ (2 * n + 4)) ()).map fun _ => ()), 0) := by
    refine (show _ = Out.bind _ _ from rfl : exFlood.sem _ _ _ _ _ = _).trans ((congrArg (fun o => Out.bind o _) h1).trans rfl)
  have hs := Sim.init (S := exSig) ⟨fun i => (List.replicate (2 * n + 4) 0)[i]?, ()⟩ al
  have h3 := h (List.replicate (2 * n + 4) 0) (2 * n + 4 + 1) _ ((parseWithRecovery_sem (S := exSig) (e := ⟨fun i => (List.replicate (2 * n + 4) 0)[i]?, ()⟩) exNoDefs _ exFlood al).trans (congrArg (Out.map Prod.fst) h2))
  have h4 := low_mapErrWithSpan (f := fun _ _ => ()) (G.prog_ref exNoDefs (2 * n + 4 + 1) _) (G.prog_ref exNoDefs (2 * n + 4 + 1) exFlood) h1
    Cursor.init hs.wf rfl
  have h5 := Nat.le_trans (Nat.le_trans h4 (Nat.le_of_eq (G.calls_stream exNoDefs (2 * n + 4 + 1) exFlood true hs).symm)) h3
  rw [List.length_replicate, List.length_replicate] at h5
  have h6 : 4 ^ (n + 1) ≤ 2 ^ (2 * n + 4) := by
    rw [show 4 = 2 ^ 2 from rfl, ← Nat.pow_mul]
    exact Nat.pow_le_pow_right (by omega) (by omega)
  omega

end PPC

namespace PPC.Json

open PPC

variable {F : Type}

/-- **C52.** The JSON parser is recursive, but the number of calls on the stream is bounded by a constant times the
number of characters, for every text, valid or not, whether the parse returns, panics or is cut off, for every function
`parseF` for floating point numbers and for every allocator. This is for the parser of the code, `json`, and for the
parser that expects the end of the text after the value, `document`. -/
theorem C52_linear (parseF : String → Option F) (n : Nat) (al : Alloc) (text : List Char) :
    parseCalls (json.prog (defs parseF) n) al (fun i => text[i]?) () ≤ 12200 * (text.length + 1) ∧
    parseCalls (document.prog (defs parseF) n) al (fun i => text[i]?) () ≤ 12200 * (text.length + 1) := by
  have hL : Length (S := charSig) ⟨fun i => text[i]?, ()⟩ text.length := ⟨fun i hi => by simp [hi], by simp⟩
  have hs := Sim.init (S := charSig) ⟨fun i => text[i]?, ()⟩ al
  constructor
  · refine Nat.le_trans (Nat.le_of_eq (G.calls_stream (defs parseF) n json true hs)) ?_
    exact (json_up hL n true).le (by omega) _ hs.wf
  · refine Nat.le_trans (Nat.le_of_eq (G.calls_stream (defs parseF) n document true hs)) ?_
    exact document_up hL n true _ hs.wf

/-- The numbers of calls for `[1]`, `[[1]]`, `[[[1]]]` and `[[[[1]]]]`. -/
example : ([['[', '1', ']'], ['[', '[', '1', ']', ']'], ['[', '[', '[', '1', ']', ']', ']'],
    ['[', '[', '[', '[', '1', ']', ']', ']', ']']].map fun text =>
      parseCalls (document.prog (defs fun _ => (none : Option Unit)) 20) rustAlloc (fun i => text[i]?) ()) = [114, 144, 174, 204] := by
  decide +kernel

/-- The same for `[1}`, `[[1]}`, `[[[1]]}` and `[[[[1]]]}`, which are rejected. -/
example : ([['[', '1', '}'], ['[', '[', '1', ']', '}'], ['[', '[', '[', '1', ']', ']', '}'],
    ['[', '[', '[', '[', '1', ']', ']', ']', '}']].map fun text =>
      parseCalls (document.prog (defs fun _ => (none : Option Unit)) 20) rustAlloc (fun i => text[i]?) ()) =
    [306, 366, 426, 486] := by
  decide +kernel

end PPC.Json
