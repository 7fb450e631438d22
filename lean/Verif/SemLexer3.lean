import Verif.SemLexer2

/-!
# The tokenizer finds the right tokens
-/

namespace PPC.Pangram

open Re

/-! ## Bytes and characters -/

theorem bytes_pos {w : List Char} (h : w ≠ []) : 0 < bytes w := by
  cases w with
  | nil => exact (h rfl).elim
  | cons c w =>
    have := Char.utf8Size_pos c
    simp only [bytes, List.map_cons, List.sum_cons]
    omega

theorem bytes_mono {p s q t : List Char} (h : p ++ s = q ++ t) (hl : p.length ≤ q.length) : bytes p ≤ bytes q := by
  obtain ⟨x, rfl⟩ : p <+: q := List.prefix_of_prefix_length_le ⟨s, rfl⟩ ⟨t, h.symm⟩ hl
  rw [bytes_append]; omega

theorem length_mono {p s q t : List Char} (h : p ++ s = q ++ t) (hb : bytes p ≤ bytes q) : p.length ≤ q.length := by
  by_cases hl : p.length ≤ q.length
  · exact hl
  · obtain ⟨x, rfl⟩ : q <+: p := List.prefix_of_prefix_length_le ⟨t, h.symm⟩ ⟨s, rfl⟩ (by omega)
    rw [bytes_append] at hb
    by_cases hx : x = []
    · subst hx; simp
    · have := bytes_pos hx; omega

theorem eq_of_bytes {p s q t : List Char} (h : p ++ s = q ++ t) (hb : bytes p = bytes q) : p = q := by
  have h1 := length_mono h (by omega)
  have h2 := length_mono h.symm (by omega)
  exact (List.append_inj h (by omega)).1

/-! ## Each expression finds the longest word of its class -/

/-- `n` is the length of the longest word of class `c` at the start of `t`, or 0. -/
def LongestWord (c : TokenClass TokenType) (t : List Char) (n : Nat) : Prop :=
  (∃ p s, t = p ++ s ∧ Word c p ∧ n = bytes p ∧ ∀ p' s', t = p' ++ s' → Word c p' → p'.length ≤ p.length) ∨
    ((∀ p s, t = p ++ s → ¬ Word c p) ∧ n = 0)

theorem LongestWord.of_greedy {r : Re} {c : TokenClass TokenType} (hg : Greedy r) (hl : ∀ w, Lang r w ↔ Word c w)
    (t : List Char) : LongestWord c t (r.matcher t) := by
  rcases matcher_longest hg t with ⟨p, s, h1, h2, h3, h4⟩ | ⟨h1, h2⟩
  · exact .inl ⟨p, s, h1, (hl p).1 h2, h3, fun p' s' h5 h6 => h4 p' s' h5 ((hl p').2 h6)⟩
  · exact .inr ⟨fun p s h3 h4 => h1 p s h3 ((hl p).2 h4), h2⟩

theorem compile_token (k : TokenType) : compile k.regex = (tokenRe k).matcher := by
  rw [compile, parse_token]

theorem compile_whitespace : compile TokenType.whitespace = whitespaceRe.matcher := by
  rw [compile, parse_whitespace]

theorem longest_token (k : TokenType) (t : List Char) : LongestWord (.normal k) t (compile k.regex t) := by
  rw [compile_token]
  exact .of_greedy (greedy_token k) (fun _ => lang_token k) t

theorem longest_whitespace (t : List Char) : LongestWord .whitespace t (compile TokenType.whitespace t) := by
  rw [compile_whitespace]
  exact .of_greedy greedy_whitespace (fun _ => lang_whitespace) t

/-- The expressions of the tokenizer with their classes. -/
def regexes : List (Matcher × TokenClass TokenType) :=
  TokenType.all.map (fun k => (compile k.regex, .normal k)) ++ [(compile TokenType.whitespace, .whitespace)]

theorem mem_all (k : TokenType) : k ∈ TokenType.all := by cases k <;> decide

theorem regexes_longest {r : Matcher × TokenClass TokenType} (h : r ∈ regexes) (t : List Char) :
    LongestWord r.2 t (r.1 t) := by
  rcases List.mem_append.1 h with h | h
  · obtain ⟨k, _, rfl⟩ := List.mem_map.1 h
    exact longest_token k t
  · rw [List.mem_singleton] at h
    simp only [h]
    exact longest_whitespace t

theorem regexes_prefix {r : Matcher × TokenClass TokenType} (h : r ∈ regexes) : r.1.Prefix := by
  rcases List.mem_append.1 h with h | h
  · obtain ⟨k, _, rfl⟩ := List.mem_map.1 h
    simp only [compile_token]
    exact matcher_prefix _
  · rw [List.mem_singleton] at h; subst h
    simp only [compile_whitespace]
    exact matcher_prefix _

theorem regexes_classes : regexes.map Prod.snd = TokenType.all.map TokenClass.normal ++ [.whitespace] := by
  simp [regexes]

theorem regexes_mem {c : TokenClass TokenType} {w : List Char} (h : Word c w) : ∃ m, (m, c) ∈ regexes := by
  cases c with
  | normal k => exact ⟨_, List.mem_append.2 (.inl (List.mem_map.2 ⟨k, mem_all k, rfl⟩))⟩
  | whitespace => exact ⟨_, List.mem_append.2 (.inr (List.mem_singleton.2 rfl))⟩
  | error => exact h.elim

theorem regexes_nodup : (regexes.map Prod.snd).Nodup := by
  rw [regexes_classes]; decide

theorem LongestWord.le {c : TokenClass TokenType} {t : List Char} {n : Nat} (h : LongestWord c t n)
    {v s : List Char} (hv : Word c v) (ht : t = v ++ s) : bytes v ≤ n := by
  rcases h with ⟨p, s', h1, h2, rfl, h4⟩ | ⟨h1, _⟩
  · exact bytes_mono (ht.symm.trans h1) (h4 v s ht hv)
  · exact (h1 v s ht hv).elim

/-- The choice of the tokenizer is the right token. -/
theorem firstLongest_iff {rest w s : List Char} (hr : rest = w ++ s) (cls : TokenClass TokenType) :
    FirstLongest regexes rest cls (bytes w) ↔ RightToken rest cls w ∧ (cls = .error → bytes w = 1) := by
  constructor
  · rintro (⟨before, m, after, h1, h2, h3, h4, h5⟩ | ⟨h1, rfl, h3⟩)
    · have hm : (m, cls) ∈ regexes := by rw [h1]; simp
      have hl := regexes_longest hm rest
      simp only at hl
      rcases hl with ⟨p, s', g1, g2, g3, g4⟩ | ⟨_, g2⟩
      · have hpw : p = w := eq_of_bytes (g1.symm.trans hr) (by rw [← g3, h2])
        subst hpw
        have hmax : ∀ r ∈ regexes, r.1 rest ≤ bytes p := by
          intro r hr'
          rw [h1] at hr'
          rcases List.mem_append.1 hr' with h | h
          · have := h4 r h; omega
          · rcases List.mem_cons.1 h with rfl | h
            · simp only; omega
            · have := h5 r h; omega
        refine ⟨⟨⟨s', g1.symm⟩, .inl ⟨g2, fun c v hv hp => ?_⟩⟩, fun hc => ?_⟩
        · obtain ⟨s'', hs⟩ := hp
          obtain ⟨mc, hmc⟩ := regexes_mem hv
          have h6 := (regexes_longest hmc rest).le hv hs.symm
          have h7 := hmax _ hmc
          simp only at h6 h7
          exact length_mono (hs.trans g1) (by omega)
        · rw [hc] at g2; exact g2.elim
      · omega
    · refine ⟨⟨⟨s, hr.symm⟩, .inr ⟨rfl, ?_, fun c v hv hp => ?_⟩⟩, fun _ => h3⟩
      · cases w with
        | nil => simp [bytes] at h3
        | cons a w =>
          have := Char.utf8Size_pos a
          simp only [bytes, List.map_cons, List.sum_cons] at h3
          by_cases hw : w = []
          · subst hw; rfl
          · have := bytes_pos hw
            simp only [bytes] at this
            omega
      · obtain ⟨s'', hs⟩ := hp
        obtain ⟨mc, hmc⟩ := regexes_mem hv
        have h6 := (regexes_longest hmc rest).le hv hs.symm
        have h7 := h1 _ hmc
        have := bytes_pos (word_ne_nil hv)
        simp only at h6 h7
        omega
  · rintro ⟨⟨_, ⟨h1, h2⟩ | ⟨rfl, h1, h2⟩⟩, h3⟩
    · left
      obtain ⟨m, hm⟩ := regexes_mem h1
      obtain ⟨before, after, hs⟩ := List.append_of_mem hm
      have hlen : m rest = bytes w := by
        rcases regexes_longest hm rest with ⟨p, s', g1, g2, g3, g4⟩ | ⟨g1, _⟩
        · simp only at g2 g3 g4
          have h4 := h2 cls p g2 ⟨s', g1.symm⟩
          have h5 := g4 w s hr h1
          rw [g3, (List.append_inj (g1.symm.trans hr) (by omega)).1]
        · exact (g1 w s hr h1).elim
      have hpos := bytes_pos (word_ne_nil h1)
      have hlt : ∀ r ∈ regexes, r.2 ≠ cls → r.1 rest < bytes w := by
        intro r hr' hne
        rcases regexes_longest hr' rest with ⟨p, s', g1, g2, g3, g4⟩ | ⟨_, g2⟩
        · rw [g3]
          have h4 := h2 r.2 p g2 ⟨s', g1.symm⟩
          have h5 := bytes_mono (g1.symm.trans hr) h4
          by_cases h6 : bytes p = bytes w
          · have := eq_of_bytes (g1.symm.trans hr) h6
            subst this
            exact (hne (word_disjoint g2 h1)).elim
          · omega
        · omega
      have hnd := regexes_nodup
      rw [hs, List.map_append, List.map_cons, List.nodup_append] at hnd
      refine ⟨before, m, after, hs, hlen.symm, by omega, fun r hr' => ?_, fun r hr' => ?_⟩
      · rw [hlen]
        refine hlt r (by rw [hs]; simp [hr']) fun h => ?_
        exact hnd.2.2 r.2 (List.mem_map.2 ⟨r, hr', rfl⟩) cls (by simp) h
      · rw [hlen]
        refine Nat.le_of_lt (hlt r (by rw [hs]; simp [hr']) fun h => ?_)
        have := (List.nodup_cons.1 hnd.2.1).1
        exact this (List.mem_map.2 ⟨r, hr', h⟩)
    · right
      refine ⟨fun r hr' => ?_, rfl, h3 rfl⟩
      rcases regexes_longest hr' rest with ⟨p, s', g1, g2, g3, g4⟩ | ⟨_, g2⟩
      · exact (h2 r.2 p g2 ⟨s', g1.symm⟩).elim
      · exact g2

/-! ## Right tokens are unique -/

theorem RightToken.ne_nil {rest w : List Char} {c : TokenClass TokenType} (h : RightToken rest c w) : w ≠ [] := by
  rcases h with ⟨_, ⟨h1, _⟩ | ⟨_, h1, _⟩⟩
  · exact word_ne_nil h1
  · intro h; rw [h] at h1; cases h1

theorem RightToken.unique {rest w v : List Char} {c d : TokenClass TokenType} (h : RightToken rest c w)
    (h' : RightToken rest d v) : c = d ∧ w = v := by
  obtain ⟨⟨s, hs⟩, h⟩ := h
  obtain ⟨⟨s', hs'⟩, h'⟩ := h'
  have hvw : w.length = v.length → w = v := fun hl => (List.append_inj (hs.trans hs'.symm) hl).1
  rcases h with ⟨h1, h2⟩ | ⟨rfl, h1, h2⟩
  · rcases h' with ⟨h3, h4⟩ | ⟨_, _, h4⟩
    · have h5 := h2 d v h3 ⟨s', hs'⟩
      have h6 := h4 c w h1 ⟨s, hs⟩
      have h7 := hvw (by omega)
      subst h7
      exact ⟨word_disjoint h1 h3, rfl⟩
    · exact (h4 c w h1 ⟨s, hs⟩).elim
  · rcases h' with ⟨h3, _⟩ | ⟨rfl, h3, _⟩
    · exact (h2 d v h3 ⟨s', hs'⟩).elim
    · exact ⟨rfl, hvw (by omega)⟩

theorem RightTokens.text {t rest : List Char} {ps : List (TokenClass TokenType × List Char)}
    (h : RightTokens t ps rest) : t = (ps.map Prod.snd).flatten ++ rest := by
  induction h with
  | nil => simp
  | cons _ _ ih => simp only [List.map_cons, List.flatten_cons, List.append_assoc]; rw [← ih]

/-- Two readings of the same text: one is the beginning of the other. -/
theorem RightTokens.compare {t rest : List Char} {ps : List (TokenClass TokenType × List Char)}
    (h : RightTokens t ps rest) : ∀ {qs : List (TokenClass TokenType × List Char)} {rest' : List Char},
    RightTokens t qs rest' → ps.length ≤ qs.length → ∃ qs', qs = ps ++ qs' ∧ RightTokens rest qs' rest' := by
  induction h with
  | nil => intro qs rest' h _; exact ⟨qs, rfl, h⟩
  | @cons c w t rest ps h1 _ ih =>
    intro qs rest' h hl
    generalize ht : w ++ t = t0 at h
    cases h with
    | nil => simp at hl
    | @cons d v t' _ qs h3 h4 =>
      have hu := (ht ▸ h1).unique h3
      obtain ⟨rfl, rfl⟩ := hu
      have := List.append_cancel_left ht
      subst this
      obtain ⟨qs', h5, h6⟩ := ih h4 (by simpa using hl)
      exact ⟨qs', by rw [h5]; rfl, h6⟩

theorem RightTokens.end_unique {t : List Char} {ps qs : List (TokenClass TokenType × List Char)}
    (h : RightTokens t ps []) (h' : RightTokens t qs []) : ps = qs := by
  have hnil : ∀ {qs' : List (TokenClass TokenType × List Char)}, RightTokens [] qs' [] → qs' = [] := by
    intro qs' h
    have := h.text
    generalize ht : ([] : List Char) = t0 at h
    cases h with
    | nil => rfl
    | cons h1 _ =>
      have := List.append_eq_nil_iff.1 ht.symm
      exact (h1.ne_nil this.1).elim
  rcases Nat.le_total ps.length qs.length with hl | hl
  · obtain ⟨x, h1, h2⟩ := h.compare h' hl
    rw [h1, hnil h2, List.append_nil]
  · obtain ⟨x, h1, h2⟩ := h'.compare h hl
    rw [h1, hnil h2, List.append_nil]

/-! ## Words that are written one after the other -/

theorem symbolChar_kind {c : Char} (h : SymbolChar c) : kind c = .letter ∨ kind c = .dash ∨ kind c = .other := by
  rcases h with h | h | rfl
  · exact .inl (kind_letter h)
  · right; right
    obtain ⟨h1, h2⟩ := h
    have hn : ∀ {d : Char}, (¬ '0' ≤ d ∨ ¬ d ≤ '9') → c ≠ d := by
      rintro d hd rfl
      rcases hd with hd | hd
      · exact hd h1
      · exact hd h2
    have hl : ¬ ('a' ≤ c ∧ c ≤ 'z') := by
      rintro ⟨h3, _⟩
      exact absurd (Char.le_trans h3 h2) (by decide)
    simp [kind, hn (d := ':') (by decide), hn (d := ';') (by decide), hn (d := '_') (by decide), hl,
      hn (d := '|') (by decide), hn (d := '-') (by decide), hn (d := '?') (by decide), hn (d := '*') (by decide),
      hn (d := '+') (by decide), hn (d := '(') (by decide), hn (d := ')') (by decide), hn (d := '\'') (by decide),
      hn (d := '"') (by decide), hn (d := '[') (by decide), hn (d := '#') (by decide), hn (d := '/') (by decide),
      hn (d := ' ') (by decide), hn (d := '\t') (by decide), hn (d := '\n') (by decide), hn (d := '\r') (by decide)]
  · right; left; decide

/-- Words all of whose characters satisfy a condition that the next character does not. -/
theorem not_longer {P : Char → Prop} {w v s s' : List Char} (h : w ++ s = v ++ s')
    (hv : ∀ c ∈ v, P c) (hs : ∀ c, s.head? = some c → ¬ P c) : v.length ≤ w.length := by
  by_cases hl : v.length ≤ w.length
  · exact hl
  · obtain ⟨x, rfl⟩ : w <+: v := List.prefix_of_prefix_length_le ⟨s, rfl⟩ ⟨s', h.symm⟩ (by omega)
    cases x with
    | nil => simp at hl
    | cons c x =>
      rw [List.append_assoc] at h
      have h1 := List.append_cancel_left h
      exact (hs c (by rw [h1]; rfl) (hv c (by simp))).elim

theorem symbol_chars {w : List Char} (h : SymbolWord w) : ∀ c ∈ w, SymbolChar c := by
  obtain ⟨c, cs, rfl, h1, h2⟩ := h
  intro d hd
  rcases List.mem_cons.1 hd with rfl | hd
  · exact .inl h1
  · exact h2 d hd

theorem right_of_written {c : TokenClass TokenType} {w s : List Char} (hw : Word c w)
    (hs : MayPrecede c w s.head?) : RightToken (w ++ s) c w := by
  refine ⟨⟨s, rfl⟩, .inl ⟨hw, fun d v hv hp => ?_⟩⟩
  obtain ⟨s', he⟩ := hp
  rcases same_class hw hv he.symm with rfl | ⟨rfl, rfl, _⟩ | ⟨rfl, rfl, rfl⟩
  · cases c with
    | error => exact hw.elim
    | normal k =>
      by_cases hk : k = .symbol
      · subst hk
        exact not_longer he.symm (symbol_chars hv) hs
      · rw [prefixFree_word hk _ _ _ _ he hv hw]
        exact Nat.le_refl _
    | whitespace =>
      rcases hw with hw | hw
      · rcases hv with hv | ⟨h1, h2⟩
        · rw [prefixFree_comment _ _ _ _ he hv hw]; exact Nat.le_refl _
        · obtain ⟨b, _, _, rfl⟩ := hw
          cases v with
          | nil => simp
          | cons x v =>
            simp at he
            have := h2 x (by simp)
            rw [he.1] at this
            rcases this with h | h | h | h <;> exact absurd h (by decide)
      · rcases hv with ⟨b, _, _, rfl⟩ | hv
        · obtain ⟨h1, h2⟩ := hw
          cases w with
          | nil => exact (h1 rfl).elim
          | cons x w =>
            simp at he
            have := h2 x (by simp)
            rw [← he.1] at this
            rcases this with h | h | h | h <;> exact absurd h (by decide)
        · exact not_longer he.symm hv.2 (hs.2 hw)
  · exact (hs.1 rfl).elim
  · obtain ⟨b, _, rfl⟩ := hw
    simp [emptyComment]

theorem Written.right {ps : List (TokenClass TokenType × List Char)} (h : Written ps) :
    RightTokens (ps.map Prod.snd).flatten ps [] := by
  induction h with
  | nil => exact .nil
  | cons h1 h2 _ ih =>
    simp only [List.map_cons, List.flatten_cons]
    exact .cons (right_of_written h1 h2) ih

end PPC.Pangram
