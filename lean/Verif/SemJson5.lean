import Verif.SemJson4
import Verif.PropsApi
import Verif.PropsParser

/-!
# JSON documents and streams: lemmas
-/

namespace PPC.Json

open PPC

variable {F : Type} {parseF : String → Option F} {e : Env charSig} {i j : Nat} {v : Value F}

theorem reads_charEnv {xs : List Char} : ∀ {t : List Char} {i j : Nat},
    Reads (charEnv xs) i t j → j = i + t.length ∧ t = (xs.drop i).take t.length := by
  intro t
  induction t with
  | nil => intro i j h; cases h; simp
  | cons c t ih =>
    rintro i j ⟨h1, h2⟩
    obtain ⟨h3, h4⟩ := ih h2
    refine ⟨by simp; omega, ?_⟩
    obtain ⟨hl, h1⟩ := List.getElem?_eq_some_iff.1 (show xs[i]? = some c from h1)
    rw [List.drop_eq_getElem_cons hl, h1, List.length_cons, List.take_succ_cons, ← h4]

theorem reads_of : ∀ {t : List Char} {i : Nat}, (∀ a c, t[a]? = some c → e.source (i + a) = some c) →
    Reads e i t (i + t.length)
  | [], _, _ => rfl
  | c :: t, i, h => by
    refine ⟨h 0 c rfl, ?_⟩
    have := reads_of (t := t) (i := i + 1) fun a d hd => by
      rw [Nat.add_assoc, Nat.add_comm 1 a]
      exact h (a + 1) d (by simpa using hd)
    rw [List.length_cons]
    rwa [Nat.add_assoc, Nat.add_comm 1] at this

theorem reads_all {xs t : List Char} : Reads (charEnv xs) 0 t j ∧ (charEnv xs).source j = none ↔
    t = xs ∧ j = xs.length := by
  constructor
  · rintro ⟨h1, h2⟩
    obtain ⟨h3, h4⟩ := reads_charEnv h1
    have h5 : xs.length ≤ j := List.getElem?_eq_none_iff.1 h2
    have h6 : t.length ≤ xs.length := by
      have := congrArg List.length h4
      simp at this
      omega
    have h7 : t.length = xs.length := by omega
    rw [h7] at h4
    exact ⟨by simpa using h4, by omega⟩
  · rintro ⟨rfl, rfl⟩
    refine ⟨by simpa using reads_of (e := charEnv t) (t := t) (i := 0) (by simp), ?_⟩
    exact List.getElem?_eq_none (Nat.le_refl _)

theorem acc_document : Accepts e (defs parseF) document i v j ↔
    Accepts e (defs parseF) json i v j ∧ e.source j = none := by
  unfold document
  rw [acc_thenIgnore]
  constructor
  · rintro ⟨k, _, h1, h2⟩
    obtain ⟨h, rfl⟩ := accepts_iff.1 h2
    exact ⟨h1, h⟩
  · rintro ⟨h1, h2⟩
    exact ⟨j, (), h1, accepts_iff.2 ⟨h2, rfl⟩⟩

/-- What the parser accepts, on a whole text. -/
theorem accepts_document {xs : List Char} : Accepts (charEnv xs) (defs parseF) document 0 v j ↔
    Padded (actual parseF) v xs ∧ j = xs.length := by
  rw [acc_document]
  constructor
  · rintro ⟨h1, h2⟩
    obtain ⟨t, h3, h4⟩ := json_sound _ (Nat.le_refl _) h1
    obtain ⟨rfl, rfl⟩ := reads_all.1 ⟨h4, h2⟩
    exact ⟨h3, rfl⟩
  · rintro ⟨h1, rfl⟩
    obtain ⟨h2, h3⟩ := (reads_all (xs := xs)).2 ⟨rfl, rfl⟩
    refine ⟨padded_acc h1 h2 ?_, h3⟩
    rw [h3]
    intro x hx
    cases hx

theorem json_plain : (json (F := F)).All (plainL _ _) := by simp [json, G.All, plainL, G.Plain]
theorem json_tidy : (json (F := F)).Tidy := by simp [json, G.Tidy]
theorem json_calm : (json (F := F)).All (calmOffL _ _) := by simp [json, G.All, calmOffL, G.CalmOff]
theorem json_coherent : (json (F := F)).All (coherentL fun _ => False) := by
  simp [json, G.All, coherentL, G.Coherent]
theorem json_progress : (json (F := F)).All (progressL _ _ fun _ _ => false) := by
  simp [json, G.All, progressL, G.Progresses]

theorem document_plain : (document (F := F)).All (plainL _ _) := by
  simp [document, json, G.All, plainL, G.Plain]
theorem document_tidy : (document (F := F)).Tidy := by simp [document, json, G.Tidy]
theorem document_calm : (document (F := F)).All (calmOffL _ _) := by
  simp [document, json, G.All, calmOffL, G.CalmOff]
theorem document_coherent : (document (F := F)).All (coherentL fun _ => False) := by
  simp [document, json, G.All, coherentL, G.Coherent]
theorem document_progress : (document (F := F)).All (progressL _ _ fun _ _ => false) := by
  simp [document, json, G.All, progressL, G.Progresses]

theorem defs_defined (k : (names F).K) : (defs parseF k).isSome := rfl

theorem no_names : RecFreeNames (fun _ => False) (defs parseF) := fun _ _ h => h.elim

/-- With recovery disabled the parse of a finite text ends without a panic. -/
theorem returns_off {α : Type} {g : P F α} {L : Nat} (hL : e.source L = none) (hi : Valid e i)
    (hg : g.All (calmOffL _ _)) (hp : g.All (progressL _ _ fun _ _ => false)) :
    ∃ r j, Finishes e (defs parseF) g false i r j := by
  rcases C35_terminates (en := false) hL defs_nullable defs_not_left_recursive defs_progress hp hi with h | ⟨m, n, h⟩
  · exact h
  · exact (G.sem_npf defs_calm defs_defined n g hg i m ((panicsAt_iff hi).1 h)).elim

theorem success_on {α : Type} {g : P F α} {a : α} (hi : Valid e i)
    (h : Finishes e (defs parseF) g false i (.success a) j) : Finishes e (defs parseF) g true i (.success a) j := by
  obtain ⟨n, h⟩ := h
  exact ⟨n, (parsesAt_iff hi).2 (G.sem_sm _ n g i a j ((parsesAt_iff hi).1 h))⟩

/-- Success with recovery enabled is success with recovery disabled. -/
theorem success_off {α : Type} {g : P F α} {a : α} {L : Nat} (hL : e.source L = none) (hi : Valid e i)
    (hg : g.All (calmOffL _ _)) (hp : g.All (progressL _ _ fun _ _ => false))
    (hc : g.All (coherentL fun _ => False)) (h : Finishes e (defs parseF) g true i (.success a) j) :
    Finishes e (defs parseF) g false i (.success a) j := by
  obtain ⟨r, k, n, h1⟩ := returns_off hL hi hg hp
  obtain ⟨m, h2⟩ := h
  have h3 := C33_bound_irrelevant hi (Nat.le_max_left n m) h1
  have h4 := C33_bound_irrelevant hi (Nat.le_max_right n m) h2
  rw [parsesAt_iff hi] at h3 h4
  cases r with
  | success b =>
    have := G.sem_sm _ _ g i b k h3
    rw [h4] at this
    cases this
    exact ⟨n, h1⟩
  | failed x es => exact (G.sem_fn no_names defs_coherent _ g hc _ _ _ _ h3 _ _ h4).elim
  | recovered b es => exact (G.sem_nr _ _ g _ _ _ _ h3).elim

end PPC.Json
