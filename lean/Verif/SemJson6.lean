import Verif.SemJson5

/-!
# Dialects of JSON, and values without floats: lemmas
-/

namespace PPC.Json

open PPC

variable {F : Type}

/-- Every text of the first dialect is one of the second, with the same value. -/
structure Dialect.Le (d d' : Dialect F) : Prop where
  raw : ∀ {c}, d.raw c → d'.raw c
  unicode : ∀ {a b c x y}, d.unicode a b c x y → d'.unicode a b c x y
  numeral : ∀ {neg t frac exp v}, d.numeral neg t frac exp = some v → d'.numeral neg t frac exp = some v
  blank : d.blank → d'.blank

theorem CharText.le {d d' : Dialect F} (h : d.Le d') {c : Char} {t : List Char} (ht : CharText d c t) :
    CharText d' c t := by
  cases ht with
  | raw h1 => exact .raw (h.raw h1)
  | unicode h1 => exact .unicode (h.unicode h1)
  | _ => constructor

theorem CharsText.le {d d' : Dialect F} (h : d.Le d') {c : List Char} {t : List Char} (ht : CharsText d c t) :
    CharsText d' c t := by
  induction ht with
  | nil => exact .nil
  | cons h1 _ ih => exact .cons (h1.le h) ih

theorem StringText.le {d d' : Dialect F} (h : d.Le d') {s : String} {t : List Char} (ht : StringText d s t) :
    StringText d' s t := by
  cases ht with
  | mk h1 => exact .mk (h1.le h)

theorem NumberText.le {d d' : Dialect F} (h : d.Le d') {v : Value F} {t : List Char} (ht : NumberText d v t) :
    NumberText d' v t := by
  cases ht with
  | mk h1 h2 h3 h4 h5 => exact .mk h1 h2 h3 h4 (h.numeral h5)

mutual

theorem Text.le {F : Type} {d d' : Dialect F} (h : d.Le d') {v : Value F} {t : List Char} :
    Text d v t → Text d' v t
  | .null => .null
  | .true => .true
  | .false => .false
  | .number hn => .number (hn.le h)
  | .string hs => .string (hs.le h)
  | .emptyObject hw hb => .emptyObject hw fun hne => h.blank (hb hne)
  | .object hm => .object (hm.le h)
  | .emptyArray hw hb => .emptyArray hw fun hne => h.blank (hb hne)
  | .array he => .array (he.le h)

theorem Padded.le {F : Type} {d d' : Dialect F} (h : d.Le d') {v : Value F} {t : List Char} :
    Padded d v t → Padded d' v t
  | .mk hw ht hw' => .mk hw (ht.le h) hw'

theorem Elements.le {F : Type} {d d' : Dialect F} (h : d.Le d') {vs : List (Value F)} {t : List Char} :
    Elements d vs t → Elements d' vs t
  | .one hp => .one (hp.le h)
  | .more hp he => .more (hp.le h) (he.le h)

theorem Member.le {F : Type} {d d' : Dialect F} (h : d.Le d') {kv : String × Value F} {t : List Char} :
    Member d kv t → Member d' kv t
  | .mk hw hs hw' hp => .mk hw (hs.le h) hw' (hp.le h)

theorem Members.le {F : Type} {d d' : Dialect F} (h : d.Le d') {kvs : List (String × Value F)} {t : List Char} :
    Members d kvs t → Members d' kvs t
  | .one hm => .one (hm.le h)
  | .more hm hs => .more (hm.le h) (hs.le h)

end

theorem common_le_rfc (real : Bool → List Char → Option (List Char) → Option (Bool × List Char) → F) :
    (common F).Le (rfc real) where
  raw h := h
  unicode h := h.2
  numeral := by
    intro neg t frac exp v h
    cases frac <;> cases exp <;> simp only [common] at h
    · split at h
      · exact h
      · cases h
    all_goals cases h
  blank h := h.elim

theorem range_digit {c : Char} (h : '0' ≤ c ∧ c ≤ '9') : Digit c := by
  have h1 : 48 ≤ c.toNat := h.1
  have h2 : c.toNat ≤ 57 := h.2
  have : c = Char.ofNat c.toNat := (Char.ofNat_toNat c).symm
  have h3 : c.toNat = 48 ∨ c.toNat = 49 ∨ c.toNat = 50 ∨ c.toNat = 51 ∨ c.toNat = 52 ∨ c.toNat = 53 ∨
    c.toNat = 54 ∨ c.toNat = 55 ∨ c.toNat = 56 ∨ c.toNat = 57 := by omega
  unfold Digit
  rcases h3 with h3 | h3 | h3 | h3 | h3 | h3 | h3 | h3 | h3 | h3 <;> rw [h3] at this <;> rw [this] <;> simp

theorem misread_letter {c : Char} {p : Nat} (h : hexDigit c = some p) (hc : ¬ Digit c) :
    misreadDigit c = some (p : Int) ∧ p < 16 := by
  unfold hexDigit at h
  unfold misreadDigit
  rw [if_neg fun h => hc (range_digit h)] at h ⊢
  split at h
  · next h1 =>
    rw [if_pos h1]
    have h2 : 97 ≤ c.toNat := h1.1
    have h3 : c.toNat ≤ 102 := h1.2
    have h4 : 'a'.toNat = 97 := rfl
    cases h
    exact ⟨by congr 1; omega, by omega⟩
  · next h1 =>
    rw [if_neg h1]
    split at h
    · next h1 =>
      rw [if_pos h1]
      have h2 : 65 ≤ c.toNat := h1.1
      have h3 : c.toNat ≤ 70 := h1.2
      have h4 : 'A'.toNat = 65 := rfl
      cases h
      exact ⟨by congr 1; omega, by omega⟩
    · cases h

theorem common_le_actual (parseF : String → Option F) : (common F).Le (actual parseF) where
  raw h := ⟨h.1, h.2.1⟩
  unicode := by
    rintro a b c x y ⟨hl, p, q, r, s, ha, hb, hc, hx, hy⟩
    obtain ⟨ha, _⟩ := misread_letter ha (hl a (by simp))
    obtain ⟨hb, _⟩ := misread_letter hb (hl b (by simp))
    obtain ⟨hc, _⟩ := misread_letter hc (hl c (by simp))
    obtain ⟨hx, _⟩ := misread_letter hx (hl x (by simp))
    exact ⟨_, _, _, _, ha, hb, hc, hx, by omega⟩
  numeral := by
    intro neg t frac exp v h
    cases frac <;> cases exp <;> simp only [common] at h
    · exact h
    all_goals cases h
  blank h := h.elim

/-! ## Every character of an RFC text is printable or whitespace -/

def Plainly (c : Char) : Prop := ' ' ≤ c ∨ IsWs c

theorem ws_plainly {w : List Char} (h : Ws w) : ∀ c ∈ w, Plainly c := fun c hc => .inr (h c hc)

theorem digit_plainly {c : Char} (h : Digit c) : ' ' ≤ c := by
  unfold Digit at h
  rcases h with rfl | rfl | rfl | rfl | rfl | rfl | rfl | rfl | rfl | rfl <;> decide

theorem digits_plainly {t : List Char} (h : Digits t) : ∀ c ∈ t, Plainly c :=
  fun c hc => .inl (digit_plainly (h.2 c hc))

theorem hex_plainly {c : Char} {p : Nat} (h : hexDigit c = some p) : ' ' ≤ c := by
  have h32 : ' '.toNat = 32 := rfl
  show ' '.toNat ≤ c.toNat
  unfold hexDigit at h
  split at h
  · next h1 => have : 48 ≤ c.toNat := h1.1; omega
  · split at h
    · next h1 => have : 97 ≤ c.toNat := h1.1; omega
    · split at h
      · next h1 => have : 65 ≤ c.toNat := h1.1; omega
      · cases h

theorem list_plainly {t : List Char} (h : t.all (fun c => decide (' ' ≤ c)) = true) : ∀ c ∈ t, Plainly c := by
  intro c hc
  have := List.all_eq_true.1 h c hc
  exact .inl (by simpa using this)

theorem append_plainly {s t : List Char} (hs : ∀ c ∈ s, Plainly c) (ht : ∀ c ∈ t, Plainly c) :
    ∀ c ∈ s ++ t, Plainly c := by
  intro c hc
  rcases List.mem_append.1 hc with h | h
  · exact hs c h
  · exact ht c h

theorem cons_plainly {a : Char} {t : List Char} (ha : ' ' ≤ a) (ht : ∀ c ∈ t, Plainly c) :
    ∀ c ∈ a :: t, Plainly c := by
  intro c hc
  rcases List.mem_cons.1 hc with rfl | h
  · exact .inl ha
  · exact ht c h

section
variable {real : Bool → List Char → Option (List Char) → Option (Bool × List Char) → F}

theorem CharText.plainly {c : Char} {t : List Char} (h : CharText (rfc real) c t) : ∀ c ∈ t, Plainly c := by
  cases h with
  | raw h => exact cons_plainly h.2.2 (by simp)
  | unicode h =>
    obtain ⟨p, q, r, s, ha, hb, hc, hx, -⟩ := h
    exact cons_plainly (by decide) (cons_plainly (by decide) (cons_plainly (hex_plainly ha) (cons_plainly
      (hex_plainly hb) (cons_plainly (hex_plainly hc) (cons_plainly (hex_plainly hx) (by simp))))))
  | _ => exact list_plainly (by decide)

theorem CharsText.plainly {c : List Char} {t : List Char} (h : CharsText (rfc real) c t) : ∀ c ∈ t, Plainly c := by
  induction h with
  | nil => simp
  | cons h1 _ ih => exact append_plainly h1.plainly ih

theorem StringText.plainly {s : String} {t : List Char} (h : StringText (rfc real) s t) : ∀ c ∈ t, Plainly c := by
  cases h with
  | mk h => exact cons_plainly (by decide) (append_plainly h.plainly (list_plainly (by decide)))

theorem NumberText.plainly {d : Dialect F} {v : Value F} {t : List Char} (h : NumberText d v t) : ∀ c ∈ t, Plainly c := by
  obtain ⟨hs, hi, hf, hx, -⟩ := h
  rename_i neg _ _ _ _ _ _
  refine append_plainly ?_ (append_plainly ?_ (append_plainly ?_ ?_))
  · subst hs
    cases neg
    · simp
    · exact list_plainly (by decide)
  · rcases hi with rfl | ⟨hd, -⟩
    · exact list_plainly (by decide)
    · exact digits_plainly hd
  · cases hf with
    | none => simp
    | some hd => exact cons_plainly (by decide) (digits_plainly hd)
  · cases hx with
    | none => simp
    | some hc hs hd =>
      refine cons_plainly (by rcases hc with rfl | rfl <;> decide) (append_plainly ?_ (digits_plainly hd))
      cases hs <;> exact list_plainly (by decide)

end

mutual

theorem Text.plainly {F : Type} {real : Bool → List Char → Option (List Char) → Option (Bool × List Char) → F}
    {v : Value F} {t : List Char} : Text (rfc real) v t → ∀ c ∈ t, Plainly c
  | .null => list_plainly (by decide)
  | .true => list_plainly (by decide)
  | .false => list_plainly (by decide)
  | .number hn => hn.plainly
  | .string hs => hs.plainly
  | .emptyObject hw _ => cons_plainly (by decide) (append_plainly (ws_plainly hw) (list_plainly (by decide)))
  | .object hm => cons_plainly (by decide) (append_plainly hm.plainly (list_plainly (by decide)))
  | .emptyArray hw _ => cons_plainly (by decide) (append_plainly (ws_plainly hw) (list_plainly (by decide)))
  | .array he => cons_plainly (by decide) (append_plainly he.plainly (list_plainly (by decide)))

theorem Padded.plainly {F : Type} {real : Bool → List Char → Option (List Char) → Option (Bool × List Char) → F}
    {v : Value F} {t : List Char} : Padded (rfc real) v t → ∀ c ∈ t, Plainly c
  | .mk hw ht hw' => append_plainly (ws_plainly hw) (append_plainly ht.plainly (ws_plainly hw'))

theorem Elements.plainly {F : Type} {real : Bool → List Char → Option (List Char) → Option (Bool × List Char) → F}
    {vs : List (Value F)} {t : List Char} : Elements (rfc real) vs t → ∀ c ∈ t, Plainly c
  | .one hp => hp.plainly
  | .more hp he => append_plainly hp.plainly (cons_plainly (by decide) he.plainly)

theorem Member.plainly {F : Type} {real : Bool → List Char → Option (List Char) → Option (Bool × List Char) → F}
    {kv : String × Value F} {t : List Char} : Member (rfc real) kv t → ∀ c ∈ t, Plainly c
  | .mk hw hs hw' hp => append_plainly (ws_plainly hw) (append_plainly hs.plainly (append_plainly (ws_plainly hw')
      (cons_plainly (by decide) hp.plainly)))

theorem Members.plainly {F : Type} {real : Bool → List Char → Option (List Char) → Option (Bool × List Char) → F}
    {kvs : List (String × Value F)} {t : List Char} : Members (rfc real) kvs t → ∀ c ∈ t, Plainly c
  | .one hm => hm.plainly
  | .more hm hs => append_plainly hm.plainly (cons_plainly (by decide) hs.plainly)

end

/-! ## Every value without floats has a text -/

theorem charText_exists (parseF : String → Option F) (c : Char) : ∃ t, CharText (actual parseF) c t := by
  by_cases h : c = '"'
  · subst h; exact ⟨_, .quote⟩
  by_cases h' : c = '\\'
  · subst h'; exact ⟨_, .backslash⟩
  exact ⟨_, .raw ⟨h, h'⟩⟩

theorem charsText_exists (parseF : String → Option F) : ∀ cs : List Char, ∃ t, CharsText (actual parseF) cs t
  | [] => ⟨_, .nil⟩
  | c :: cs => by
    obtain ⟨t, h⟩ := charText_exists parseF c
    obtain ⟨ts, h'⟩ := charsText_exists parseF cs
    exact ⟨_, .cons h h'⟩

theorem stringText_exists (parseF : String → Option F) (s : String) : ∃ t, StringText (actual parseF) s t := by
  obtain ⟨t, h⟩ := charsText_exists parseF s.toList
  have := StringText.mk h
  rw [String.ofList_toList] at this
  exact ⟨_, this⟩

theorem digit_exists : ∀ d < 10, ∃ c, Digit c ∧ c.toNat - '0'.toNat = d ∧ (d ≠ 0 → c ≠ '0')
  | 0, _ => ⟨'0', by simp [Digit], rfl, by decide⟩
  | 1, _ => ⟨'1', by simp [Digit], rfl, by decide⟩
  | 2, _ => ⟨'2', by simp [Digit], rfl, by decide⟩
  | 3, _ => ⟨'3', by simp [Digit], rfl, by decide⟩
  | 4, _ => ⟨'4', by simp [Digit], rfl, by decide⟩
  | 5, _ => ⟨'5', by simp [Digit], rfl, by decide⟩
  | 6, _ => ⟨'6', by simp [Digit], rfl, by decide⟩
  | 7, _ => ⟨'7', by simp [Digit], rfl, by decide⟩
  | 8, _ => ⟨'8', by simp [Digit], rfl, by decide⟩
  | 9, _ => ⟨'9', by simp [Digit], rfl, by decide⟩
  | n + 10, h => by omega

theorem digits_exist (n : Nat) (hn : n ≠ 0) : ∃ t, Digits t ∧ t.head? ≠ some '0' ∧ decimal t = n := by
  induction n using Nat.strongRecOn with
  | _ n ih =>
    obtain ⟨c, h1, h2, h3⟩ := digit_exists (n % 10) (Nat.mod_lt _ (by decide))
    by_cases h : n < 10
    · have h4 : n % 10 = n := Nat.mod_eq_of_lt h
      rw [h4] at h2 h3
      refine ⟨[c], ⟨by simp, by simpa using h1⟩, by simpa using h3 hn, ?_⟩
      simpa [decimal] using h2
    · obtain ⟨t, ⟨h4, h5⟩, h6, h7⟩ := ih (n / 10) (by omega) (by omega)
      refine ⟨t ++ [c], ⟨by simp, ?_⟩, ?_, ?_⟩
      · intro d hd
        rcases List.mem_append.1 hd with hd | hd
        · exact h5 d hd
        · rw [List.mem_singleton.1 hd]; exact h1
      · cases t with
        | nil => exact (h4 rfl).elim
        | cons a t => simpa using h6
      · unfold decimal at h7 ⊢
        rw [List.foldl_append, h7, List.foldl_cons, List.foldl_nil, h2]
        omega

theorem intPart_exists (n : Nat) : ∃ t, IntPart t ∧ decimal t = n := by
  by_cases h : n = 0
  · exact ⟨['0'], .inl rfl, by subst h; decide⟩
  · obtain ⟨t, h1, h2, h3⟩ := digits_exist n h
    exact ⟨t, .inr ⟨h1, h2⟩, h3⟩

theorem pad {d : Dialect F} {v : Value F} {t : List Char} (h : Text d v t) : Padded d v t := by
  have := Padded.mk (w := []) (w' := []) (by intro c hc; cases hc) h (by intro c hc; cases hc)
  simpa using this

theorem elements_exist {d : Dialect F} : ∀ {vs : List (Value F)}, vs ≠ [] → (∀ v ∈ vs, ∃ t, Text d v t) →
    ∃ t, Elements d vs t
  | [], h, _ => (h rfl).elim
  | [v], _, h => by
    obtain ⟨t, h⟩ := h v (by simp)
    exact ⟨t, .one (pad h)⟩
  | v :: w :: vs, _, h => by
    obtain ⟨t, h1⟩ := h v (by simp)
    obtain ⟨ts, h2⟩ := elements_exist (vs := w :: vs) (by simp) fun x hx => h x (by simp [List.mem_cons.1 hx])
    exact ⟨_, .more (pad h1) h2⟩

theorem members_exist {parseF : String → Option F} : ∀ {kvs : List (String × Value F)}, kvs ≠ [] →
    (∀ kv ∈ kvs, ∃ t, Text (actual parseF) kv.2 t) → ∃ t, Members (actual parseF) kvs t := by
  have one : ∀ kv : String × Value F, (∃ t, Text (actual parseF) kv.2 t) → ∃ t, Member (actual parseF) kv t := by
    rintro ⟨k, v⟩ ⟨t, h⟩
    obtain ⟨s, hs⟩ := stringText_exists parseF k
    exact ⟨_, .mk (w := []) (w' := []) (by intro c hc; cases hc) hs (by intro c hc; cases hc) (pad h)⟩
  intro kvs
  induction kvs with
  | nil => intro h; exact (h rfl).elim
  | cons kv kvs ih =>
    intro _ h
    obtain ⟨t, h1⟩ := one kv (h kv (by simp))
    by_cases hk : kvs = []
    · subst hk; exact ⟨t, .one h1⟩
    · obtain ⟨ts, h2⟩ := ih hk fun x hx => h x (by simp [hx])
      exact ⟨_, .more h1 h2⟩

theorem int_text (parseF : String → Option F) {n : Int} (hn : n.natAbs < 2 ^ 127) :
    ∃ t, Text (actual parseF) (.int n) t := by
  obtain ⟨t, h1, h2⟩ := intPart_exists n.natAbs
  refine ⟨_, .number (.mk (neg := decide (n < 0)) rfl h1 .none .none ?_)⟩
  simp only [actual, h2, if_pos hn]
  congr 2
  by_cases h : n < 0
  · simp only [h, decide_true, if_true]; omega
  · simp only [h, decide_false, Bool.false_eq_true, if_false]; omega

theorem simple_text (parseF : String → Option F) {v : Value F} (h : Simple v) : ∃ t, Text (actual parseF) v t := by
  induction h with
  | null => exact ⟨_, .null⟩
  | bool b =>
    cases b
    · exact ⟨_, .false⟩
    · exact ⟨_, .true⟩
  | int h => exact int_text parseF h
  | string s =>
    obtain ⟨t, h⟩ := stringText_exists parseF s
    exact ⟨t, .string h⟩
  | @object kvs _ ih =>
    by_cases hk : kvs = []
    · subst hk
      exact ⟨_, .emptyObject (w := []) (by intro c hc; cases hc) (by simp)⟩
    · obtain ⟨t, h⟩ := members_exist hk ih
      exact ⟨_, .object h⟩
  | @array vs _ ih =>
    by_cases hk : vs = []
    · subst hk
      exact ⟨_, .emptyArray (w := []) (by intro c hc; cases hc) (by simp)⟩
    · obtain ⟨t, h⟩ := elements_exist hk ih
      exact ⟨_, .array h⟩

/-! ## Streams -/

theorem text_ne_nil {d : Dialect F} {v : Value F} {t : List Char} (h : Padded d v t) : t ≠ [] := by
  cases h with
  | mk _ h _ =>
    obtain ⟨c, t', rfl, -⟩ := text_head h
    simp

variable {e : Env charSig} {parseF : String → Option F} {i j : Nat}

/-- Reading a text somewhere gives its value, whether recovery is enabled or not. -/
theorem json_at {v : Value F} {t : List Char} (hi : Valid e i) (ht : Padded (actual parseF) v t)
    (h : Reads e i t j) (hj : Apart t (e.source j)) (en : Bool) :
    Finishes e (defs parseF) json en i (.success v) j := by
  have := (C34_accepts defs_plain json_plain hi).2 (padded_acc ht h hj)
  cases en
  · exact this
  · exact success_on hi this

theorem answers_mono {α : Type} {g : P F α} {rs : List (Option (Res α (voidErr charSig).E))} {n m : Nat} (hi : Valid e i)
    (hn : n ≤ m) (h : Answers e (defs parseF) n g i rs j) : Answers e (defs parseF) m g i rs j := by
  induction h with
  | nil => exact .nil _
  | result h1 h2 _ ih =>
    have h3 := C33_bound_irrelevant hi hn h2
    exact .result h1 h3 (ih (G.sem_valid _ _ _ _ hi ((parsesAt_iff hi).1 h2)).2.1)
  | eof h1 _ ih => exact .eof h1 (ih hi)

theorem answers_cons {v : Value F} {t : List Char} {rs : List (Option (Res (Value F) Unit))} {l : Nat}
    (hi : Valid e i) (ht : Padded (actual parseF) v t) (h : Reads e i t j) (hj : Apart t (e.source j))
    (hr : Valid e j → ∃ n, Answers e (defs parseF) n json j rs l) :
    ∃ n, Answers e (defs parseF) n json i (some (.success v) :: rs) l := by
  obtain ⟨n, h1⟩ := json_at hi ht h hj true
  have hv := (G.sem_valid _ _ _ _ hi ((parsesAt_iff hi).1 h1)).2.1
  obtain ⟨m, h2⟩ := hr hv
  have hs : ∃ c, e.source i = some c := by
    have := text_ne_nil ht
    cases t with
    | nil => exact (this rfl).elim
    | cons c t => exact ⟨c, h.1⟩
  obtain ⟨c, hs⟩ := hs
  exact ⟨max n m, .result hs (C33_bound_irrelevant hi (Nat.le_max_left n m) h1)
    (answers_mono hv (Nat.le_max_right n m) h2)⟩

theorem answers_none (hj : e.source j = none) (n : Nat) : ∀ m, Answers e (defs parseF) n json j
    (List.replicate m none) j
  | 0 => .nil j
  | m + 1 => .eof hj (answers_none hj n m)

theorem answers_texts {vs : List (Value F)} {ts : List Char} (h : Texts (actual parseF) vs ts) :
    ∀ {i : Nat}, Valid e i → Reads e i ts j → e.source j = none → ∀ m, ∃ n, Answers e (defs parseF) n json i
      (vs.map (fun v => some (.success v)) ++ List.replicate m none) j := by
  induction h with
  | nil =>
    intro i hi hr hj m
    cases hr
    exact ⟨0, answers_none hj 0 m⟩
  | @cons v vs t ts hp _ ha ih =>
    intro i hi hr hj m
    obtain ⟨k, h1, h2⟩ := reads_append.1 hr
    refine answers_cons hi hp h1 ?_ fun hk => ih hk h2 hj m
    cases ts with
    | nil => cases h2; rw [hj]; exact ha
    | cons c ts => rw [h2.1]; exact ha

theorem reads_cycle {xs : List Char} (hx : xs ≠ []) (k : Nat) (he : ∀ a, e.source a = xs[a % xs.length]?) :
    Reads e (k * xs.length) xs ((k + 1) * xs.length) := by
  have := reads_of (e := e) (t := xs) (i := k * xs.length) fun a c h => by
    have hl := (List.getElem?_eq_some_iff.1 h).1
    rw [he, Nat.mul_add_mod_self_right, Nat.mod_eq_of_lt hl, h]
  rwa [Nat.succ_mul]

theorem answers_cycle {xs : List Char} {v : Value F} (ht : Padded (actual parseF) v xs) (ha : Apart xs xs.head?)
    (he : ∀ a, e.source a = xs[a % xs.length]?) : ∀ (m k : Nat), Valid e (k * xs.length) → ∃ n l,
      Answers e (defs parseF) n json (k * xs.length) (List.replicate m (some (.success v))) l
  | 0, k, _ => ⟨0, _, .nil _⟩
  | m + 1, k, hk => by
    have hr := reads_cycle (text_ne_nil ht) k he
    have hv : Valid e ((k + 1) * xs.length) := by
      obtain ⟨n, h⟩ := json_at (e := e) (en := true) hk ht hr (by
        rw [he, Nat.mul_mod_left, ← List.head?_eq_getElem?]; exact ha)
      exact (G.sem_valid _ _ _ _ hk ((parsesAt_iff hk).1 h)).2.1
    obtain ⟨n, l, h⟩ := answers_cycle ht ha he m (k + 1) hv
    obtain ⟨n', h'⟩ := answers_cons hk ht hr (by
        rw [he, Nat.mul_mod_left, ← List.head?_eq_getElem?]; exact ha) fun _ => ⟨n, h⟩
    exact ⟨n', l, h'⟩

end PPC.Json
