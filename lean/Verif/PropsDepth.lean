import Verif.SemDepth2
import Verif.PropsJson
import Verif.PropsPangram

/-!
# C56: how deeply the calls of recursive parsers are nested

A recursive parser that is entered stays on the call stack until it returns. `FinishesIn d` and `CrashesIn d`
(`Verif.SpecDepth`) say that a parse gets to its end without more than `d` such calls in one another.
-/

namespace PPC

variable {S : Sig} {N : Names S} {e : Env S} {D : Defs S N} {ε : ErrTy S} {α : Type} {g : G S N ε α} {en : Bool}
  {i d d' : Nat} {ν : Bool → N.K → Bool} {rank : Bool → N.K → Nat} {R L : Nat}

/-- A parse that ends within some depth has the result it has without any bound on the depth. -/
theorem FinishesIn.finishes (hi : Valid e i) {r : Res α ε.E} {j : Nat} (h : FinishesIn d e D g en i r j) :
    Finishes e D g en i r j := by
  obtain ⟨m, h⟩ := (finishesIn_iff hi).1 h
  refine ⟨m + d, (parsesAt_iff hi).2 ?_⟩
  rw [depth_sem (Nat.le_refl _) (by rw [h]; simp), h]

theorem CrashesIn.crashes (hi : Valid e i) {msg : String} (h : CrashesIn d e D g en i msg) :
    Crashes e D g en i msg := by
  obtain ⟨m, h⟩ := (crashesIn_iff hi).1 h
  refine ⟨m + d, (panicsAt_iff hi).2 ?_⟩
  rw [depth_sem (Nat.le_refl _) (by rw [h]; simp), h]

/-- **C56.** The bound on the depth does not change results: a parse returns (or panics) exactly if it does so within
some depth. -/
theorem C56_some_depth (hi : Valid e i) :
    (∀ r j, Finishes e D g en i r j ↔ ∃ d, FinishesIn d e D g en i r j) ∧
      ∀ msg, Crashes e D g en i msg ↔ ∃ d, CrashesIn d e D g en i msg := by
  refine ⟨fun r j => ⟨?_, fun ⟨d, h⟩ => h.finishes hi⟩, fun msg => ⟨?_, fun ⟨d, h⟩ => h.crashes hi⟩⟩
  · rintro ⟨n, h⟩
    have h1 := (parsesAt_iff hi).1 h
    exact ⟨n, (finishesIn_iff hi).2 ⟨n, by rw [sem_depth (Nat.le_refl _) (Nat.le_refl _) (by rw [h1]; simp), h1]⟩⟩
  · rintro ⟨n, h⟩
    have h1 := (panicsAt_iff hi).1 h
    exact ⟨n, (crashesIn_iff hi).2 ⟨n, by rw [sem_depth (Nat.le_refl _) (Nat.le_refl _) (by rw [h1]; simp), h1]⟩⟩

/-- **C56.** Room for more calls does not change the outcome. -/
theorem C56_more_room (hi : Valid e i) (hd : d ≤ d') :
    (∀ r j, FinishesIn d e D g en i r j → FinishesIn d' e D g en i r j) ∧
      ∀ msg, CrashesIn d e D g en i msg → CrashesIn d' e D g en i msg := by
  refine ⟨fun r j h => ?_, fun msg h => ?_⟩
  · obtain ⟨m, h⟩ := (finishesIn_iff hi).1 h
    exact (finishesIn_iff hi).2 ⟨m, by rw [depth_more (Nat.le_refl _) hd (by rw [h]; simp), h]⟩
  · obtain ⟨m, h⟩ := (crashesIn_iff hi).1 h
    exact (crashesIn_iff hi).2 ⟨m, by rw [depth_more (Nat.le_refl _) hd (by rw [h]; simp), h]⟩

/-- **C56.** If at most `R` recursive parsers can be entered before a token is consumed, then a parse of an input with
`L` tokens nests at most `(L - i + 1) * R` calls: with room for that many it has the outcome that it has without a
bound. -/
theorem C56_ranked (hL : e.source L = none) (hν : Nullable D ν) (hD : D.All (progressL S N ν))
    (hR : Ranked D ν rank R) (hg : g.All (progressL S N ν)) (hi : Valid e i) (hd : (L - i + 1) * R ≤ d) :
    (∀ r j, FinishesIn d e D g en i r j ↔ Finishes e D g en i r j) ∧
      (∀ msg, CrashesIn d e D g en i msg ↔ Crashes e D g en i msg) ∧ ¬NeedsMore d e D g en i := by
  obtain ⟨L', hle, hL'⟩ := Length.exists hL
  have hcv := G.converges_depth (d := d) hL' hν hD hR hg en (hL'.le.1 hi) fun b k => by
    have h1 := hR.below b k
    have h2 := Nat.mul_le_mul_right R (show L' - i ≤ L - i by omega)
    rw [Nat.add_mul, Nat.one_mul] at hd
    omega
  obtain ⟨v, hv, m, hm⟩ := hcv
  have hm : g.den e (depthSem e D m d) m en i = v := hm m (Nat.le_refl _)
  have hs : ∀ n, m + d ≤ n → g.sem e D n en i = v := fun n hn => by rw [depth_sem hn (by rw [hm]; exact hv), hm]
  refine ⟨fun r j => ⟨fun h => h.finishes hi, ?_⟩, fun msg => ⟨fun h => h.crashes hi, ?_⟩, ?_⟩
  · rintro ⟨n, h⟩
    have h1 := (parsesAt_iff hi).1 (C33_bound_irrelevant hi (Nat.le_max_left n (m + d)) h)
    rw [hs _ (Nat.le_max_right _ _)] at h1
    exact (finishesIn_iff hi).2 ⟨m, by rw [hm, h1]⟩
  · rintro ⟨n, h⟩
    have h1 := (panicsAt_iff hi).1 (C33_bound_irrelevant_panic hi (Nat.le_max_left n (m + d)) h)
    rw [hs _ (Nat.le_max_right _ _)] at h1
    exact (crashesIn_iff hi).2 ⟨m, by rw [hm, h1]⟩
  · rintro ⟨h1, h2⟩
    cases v with
    | ok x => exact h1 x.1 x.2 ((finishesIn_iff hi).2 ⟨m, hm⟩)
    | panic msg => exact h2 msg ((crashesIn_iff hi).2 ⟨m, hm⟩)
    | oof => exact hv rfl
    | stuck => exact G.sem_not_stuck D (m + d) g en hi (hs _ (Nat.le_refl _))

/-- **C56.** For a grammar without left recursion and without endless repetition, with recursive parsers `ks`, the
depth is linear in the length of the input: at most twice the number of recursive parsers for every token that is left
and for the end of the input. -/
theorem C56_linear (ks : List N.K) (hks : ∀ k, k ∈ ks) (hL : e.source L = none) (hν : Nullable D ν)
    (hlr : NoLeftRecursion D ν) (hD : D.All (progressL S N ν)) (hg : g.All (progressL S N ν)) (hi : Valid e i)
    (hd : 2 * ks.length * (L - i + 1) ≤ d) :
    (∀ r j, FinishesIn d e D g en i r j ↔ Finishes e D g en i r j) ∧
      (∀ msg, CrashesIn d e D g en i msg ↔ Crashes e D g en i msg) ∧ ¬NeedsMore d e D g en i := by
  obtain ⟨rank, hR⟩ := Ranked.of_list ks hks hlr
  exact C56_ranked hL hν hD hR hg hi (by rw [Nat.mul_comm]; exact hd)

/-- A concrete case: lists of nested brackets, with recovery. -/
example (xs : List Nat) : ∃ r j, FinishesIn (2 * (xs.length + 1)) (exEnv xs) exNested
    (.separatedBy { allowTrailing := true } exNestedG (.just 3)) true 0 r j := by
  obtain ⟨h1, h2, h3, h4⟩ := exNested_terminates
  have h := C56_linear (d := 2 * (xs.length + 1)) (en := true) [()] (fun _ => by simp)
    (show (exEnv xs).source xs.length = none by simp) h1 h2 h3 h4 Valid.zero (by simp)
  have hF : ∃ r j, Finishes (exEnv xs) exNested
      (.separatedBy { allowTrailing := true } exNestedG (.just 3)) true 0 r j := by
    refine C35_returns (F := fun _ => False) (L := xs.length) (by simp) h1 h2 h3 h4
      (fun k g h => h.elim) ?_ (fun _ => rfl) (by simp [G.All, safeL, G.Safe]) Valid.zero
    intro k g h
    cases h
    simp only [G.All, CS.All, IS.All, safeL, G.Safe, IS.Safe, and_true, true_and]
    exact nestedDelimiters_neverPanics _ _
  obtain ⟨r, j, hF⟩ := hF
  exact ⟨r, j, (h.1 r j).2 hF⟩

/-- **C56.** Without recursive parsers nothing is nested. -/
theorem C56_no_recursion (hK : N.K → False) (hi : Valid e i) :
    (∀ r j, FinishesIn 0 e D g en i r j ↔ Finishes e D g en i r j) ∧
      ∀ msg, CrashesIn 0 e D g en i msg ↔ Crashes e D g en i msg := by
  have h : ∀ n m d, g.den e (depthSem e D m d) n en i = g.sem e D n en i := by
    intro n m d
    have h : depthSem e D m d = callSem e D n := funext fun k => (hK k).elim
    rw [h]; rfl
  refine ⟨fun r j => ?_, fun msg => ?_⟩
  · rw [finishesIn_iff hi]
    exact exists_congr fun n => by rw [h, ← parsesAt_iff hi]
  · rw [crashesIn_iff hi]
    exact exists_congr fun n => by rw [h, ← panicsAt_iff hi]

end PPC

namespace PPC.Json

open PPC

variable {F : Type}

/-- **C56.** A parse of a JSON text nests at most one call for every character and one more. -/
theorem C56_json (parseF : String → Option F) (xs : List Char) (en : Bool) :
    (∀ r j, FinishesIn (xs.length + 1) (charEnv xs) (defs parseF) document en 0 r j ↔
        Finishes (charEnv xs) (defs parseF) document en 0 r j) ∧
      (∀ msg, CrashesIn (xs.length + 1) (charEnv xs) (defs parseF) document en 0 msg ↔
        Crashes (charEnv xs) (defs parseF) document en 0 msg) ∧
      ¬NeedsMore (xs.length + 1) (charEnv xs) (defs parseF) document en 0 :=
  C56_ranked (List.getElem?_eq_none (Nat.le_refl _)) defs_nullable defs_progress defs_ranked document_progress .zero
    (by omega)

/-- **C56.** There is no fixed depth that is enough for all JSON texts: `n` brackets `[` followed by `n` brackets `]` are
a JSON text that the parser accepts, and it takes more than `n` nested calls. -/
theorem C56_json_nested (parseF : String → Option F) (n : Nat) (hn : 0 < n) :
    let xs := List.replicate n '[' ++ List.replicate n ']'
    (∃ v, Finishes (charEnv xs) (defs parseF) document false 0 (.success v) xs.length) ∧
      ∀ d, d ≤ n → ∀ en, NeedsMore d (charEnv xs) (defs parseF) document en 0 := by
  intro xs
  obtain ⟨n, rfl⟩ : ∃ k, n = k + 1 := ⟨n - 1, by omega⟩
  refine ⟨⟨nested n, C44_accepts.2 ⟨nested_padded _ n, rfl⟩⟩, fun d hd en => ?_⟩
  have h : ∀ m, document.den (charEnv xs) (depthSem (charEnv xs) (defs parseF) m d) m en 0 = .oof := by
    intro m
    have h1 := nested_depth (e := charEnv xs) (parseF := parseF) (m := m) d 0 en fun x hx => by
      show xs[0 + x]? = some '['
      rw [Nat.zero_add, List.getElem?_append_left (by rw [List.length_replicate]; omega), List.getElem?_replicate,
        if_pos (by omega)]
    have h2 : (G.call () : P F (Value F)).den (charEnv xs) (depthSem (charEnv xs) (defs parseF) m d) m en 0 = .oof := by
      rw [G.den]
      exact h1
    rw [document, G.den, qConcat2, json, h2]
    rfl
  refine ⟨fun r j h1 => ?_, fun msg h1 => ?_⟩
  · obtain ⟨m, h1⟩ := (finishesIn_iff .zero).1 h1
    rw [h m] at h1; cases h1
  · obtain ⟨m, h1⟩ := (crashesIn_iff .zero).1 h1
    rw [h m] at h1; cases h1

/-- A concrete case: `[[]]` takes more than two nested calls, and five are enough. -/
example (parseF : String → Option F) :
    NeedsMore 2 (charEnv ['[', '[', ']', ']']) (defs parseF) document true 0 ∧
      ∃ v, FinishesIn 5 (charEnv ['[', '[', ']', ']']) (defs parseF) document false 0 (.success v) 4 := by
  obtain ⟨⟨v, h1⟩, h2⟩ := C56_json_nested parseF 2 (by omega)
  exact ⟨h2 2 (Nat.le_refl _) true, v, ((C56_json parseF ['[', '[', ']', ']'] false).1 _ _).2 h1⟩

end PPC.Json

namespace PPC.Pangram

open PPC

variable {Sp : Type}

/-- **C56.** A parse of the tokens of a grammar file nests at most five calls for every token and five more. -/
theorem C56_grammar_files (d : Sp) (k : NT) (ts : List (TerminalToken TokenType Sp)) (en : Bool) :
    (∃ x j, FinishesIn (5 * (ts.length + 1)) (tokEnv ts) (defs (.default d)) (parser k) en 0 (.success x) j) ∨
      ∃ n es, FinishesIn (5 * (ts.length + 1)) (tokEnv ts) (defs (.default d)) (parser k) en 0 (.failed n es) 0 := by
  have h := C56_ranked (d := 5 * (ts.length + 1)) (en := en) (g := parser k) (L := ts.length) (i := 0) tokEnv_end
    (defs_nullable (patterns := .default d)) defs_progress defs_ranked parser_progress .zero (by omega)
  rcases C45_returns d k ts en with ⟨x, j, h1⟩ | ⟨n, es, h1⟩
  · exact .inl ⟨x, j, (h.1 _ _).2 h1⟩
  · exact .inr ⟨n, es, (h.1 _ _).2 h1⟩

end PPC.Pangram
