import Verif.Tokenizer
import Verif.Location

/-!
# The tokenizer (C38, C39)
-/

namespace PPC

variable {S : Sig} {T : Type} {conv : List Char → S.I}

/-! ## Specification -/

/-- The text of a list of tokens. -/
def tokenText (xs : List (Token S T)) : List Char := (xs.map Token.text).flatten

/-- The first longest match: `cls` belongs to an expression whose match is longest, and to the first
such expression; `len` is the length of the match. If nothing matches, it is an error of one byte. -/
def FirstLongest (rs : List (Matcher × TokenClass T)) (rest : List Char) (cls : TokenClass T) (len : Nat) : Prop :=
  (∃ (before : List (Matcher × TokenClass T)) (m : Matcher) (after : List (Matcher × TokenClass T)),
      rs = before ++ (m, cls) :: after ∧ len = m rest ∧ 0 < m rest ∧
      (∀ r ∈ before, r.1 rest < m rest) ∧ ∀ r ∈ after, r.1 rest ≤ m rest) ∨
  ((∀ r ∈ rs, r.1 rest = 0) ∧ cls = .error ∧ len = 1)

/-- The tracker after the given texts. -/
def trackTexts (conv : List Char → S.I) (l : S.L) (xs : List (List Char)) : S.L :=
  xs.foldl (fun l x => S.advance l (conv x)) l

/-- What the regular expression engine guarantees: the match is a prefix of the text. -/
def Matcher.Prefix (m : Matcher) : Prop := ∀ t, ∃ p s, t = p ++ s ∧ bytes p = m t

/-- The tokenizer that is left after `k` tokens, with these tokens. -/
def Tokenizer.take (conv : List Char → S.I) : Nat → Tokenizer S T → Out (List (Token S T) × Tokenizer S T)
  | 0, t => .ok ([], t)
  | k + 1, t => do
    match ← t.next conv with
    | (none, t) => .ok ([], t)
    | (some x, t) =>
      let r ← t.take conv k
      .ok (x :: r.1, r.2)

/-! ## Lemmas -/

theorem bytes_append (a b : List Char) : bytes (a ++ b) = bytes a + bytes b := by
  simp [bytes]

theorem splitBytes_some {n : Nat} : ∀ {t a b : List Char}, splitBytes t n = some (a, b) → t = a ++ b ∧ bytes a = n := by
  induction n using Nat.strongRecOn with
  | _ n ih =>
    intro t a b h
    cases n with
    | zero =>
      rw [splitBytes] at h
      cases h
      exact ⟨rfl, rfl⟩
    | succ n =>
      cases t with
      | nil => rw [splitBytes] at h; cases h
      | cons c t =>
        rw [splitBytes] at h
        split at h
        · rename_i hc
          have hpos := c.utf8Size_pos
          cases h1 : splitBytes t (n + 1 - c.utf8Size) with
          | none => rw [h1] at h; cases h
          | some x =>
            rw [h1] at h
            cases h
            obtain ⟨h2, h3⟩ := ih (n + 1 - c.utf8Size) (by omega) h1
            refine ⟨by rw [h2]; rfl, ?_⟩
            show bytes (c :: x.1) = n + 1
            have : bytes (c :: x.1) = c.utf8Size + bytes x.1 := by simp [bytes]
            omega
        · cases h

theorem splitBytes_append : ∀ (a b : List Char), splitBytes (a ++ b) (bytes a) = some (a, b)
  | [], b => by cases b <;> rfl
  | c :: a, b => by
    have hpos := c.utf8Size_pos
    have h1 : bytes (c :: a) = c.utf8Size + bytes a := by simp [bytes]
    have h2 : bytes (c :: a) = (c.utf8Size + bytes a - 1) + 1 := by omega
    rw [h2, List.cons_append, splitBytes, if_pos (by omega)]
    have h3 : c.utf8Size + bytes a - 1 + 1 - c.utf8Size = bytes a := by omega
    rw [h3, splitBytes_append a b]

/-- The loop over the expressions keeps the first longest match. -/
theorem fold_first (rest : List Char) (rs : List (Matcher × TokenClass T)) :
    ∀ best : TokenClass T × Nat,
      (rs.foldl (longerMatch rest) best = best ∧ ∀ r ∈ rs, r.1 rest ≤ best.2) ∨
      ∃ (before : List (Matcher × TokenClass T)) (m : Matcher) (cls : TokenClass T)
        (after : List (Matcher × TokenClass T)), rs = before ++ (m, cls) :: after ∧ best.2 < m rest ∧
        rs.foldl (longerMatch rest) best = (cls, m rest) ∧
        (∀ r ∈ before, r.1 rest < m rest) ∧ ∀ r ∈ after, r.1 rest ≤ m rest := by
  induction rs with
  | nil => intro best; exact .inl ⟨rfl, fun r h => by cases h⟩
  | cons r rs ih =>
    intro best
    rw [List.foldl_cons]
    by_cases h : best.2 < r.1 rest
    · have hl : longerMatch rest best r = (r.2, r.1 rest) := if_pos h
      rw [hl]
      rcases ih (r.2, r.1 rest) with ⟨h1, h2⟩ | ⟨bf, m, cls, af, h1, h2, h3, h4, h5⟩
      · exact .inr ⟨[], r.1, r.2, rs, rfl, h, h1, (fun r h => by cases h), h2⟩
      · refine .inr ⟨r :: bf, m, cls, af, by rw [h1]; rfl, Nat.lt_trans h h2, h3, ?_, h5⟩
        intro x hx
        rcases List.mem_cons.1 hx with rfl | hx
        · exact h2
        · exact h4 x hx
    · have hl : longerMatch rest best r = best := if_neg h
      rw [hl]
      rcases ih best with ⟨h1, h2⟩ | ⟨bf, m, cls, af, h1, h2, h3, h4, h5⟩
      · refine .inl ⟨h1, fun x hx => ?_⟩
        rcases List.mem_cons.1 hx with rfl | hx
        · omega
        · exact h2 x hx
      · refine .inr ⟨r :: bf, m, cls, af, by rw [h1]; rfl, h2, h3, ?_, h5⟩
        intro x hx
        rcases List.mem_cons.1 hx with rfl | hx
        · omega
        · exact h4 x hx

/-- One step of the tokenizer on a text that is not empty. -/
theorem next_some {t t' : Tokenizer S T} {x : Token S T} (h : t.next conv = .ok (some x, t')) :
    t.remain = x.text ++ t'.remain ∧ x.text ≠ [] ∧ FirstLongest t.regexes t.remain x.cls (bytes x.text) ∧
    t'.regexes = t.regexes ∧ t'.index = t.index + 1 ∧ t'.location = S.advance t.location (conv x.text) ∧
    x.span = S.spanningTo t.location t.index t'.location t'.index := by
  unfold Tokenizer.next at h
  split at h
  · cases h
  · simp only at h
    have hf := fold_first t.remain t.regexes (.error, 0)
    generalize hb : t.regexes.foldl (longerMatch t.remain) (.error, 0) = best at h hf
    cases h1 : splitBytes t.remain (if best.2 = 0 then 1 else best.2) with
    | none => rw [h1] at h; cases h
    | some y =>
      rw [h1] at h
      obtain ⟨h2, h3⟩ := splitBytes_some h1
      have := Out.ok.inj h
      cases this
      refine ⟨h2, ?_, ?_, rfl, rfl, rfl, rfl⟩
      · intro h4
        simp only at h4
        rw [h4] at h3
        simp only [bytes, List.map_nil, List.sum_nil] at h3
        split at h3 <;> omega
      · simp only
        rw [h3]
        rcases hf with ⟨h4, h5⟩ | ⟨bf, m, cls, af, h4, h5, h6, h7, h8⟩
        · subst h4
          exact .inr ⟨fun r hr => Nat.le_zero.1 (h5 r hr), rfl, rfl⟩
        · subst h6
          simp only at h5
          refine .inl ⟨bf, m, af, h4, ?_, h5, h7, h8⟩
          simp only
          rw [if_neg (by omega)]

theorem next_none {t t' : Tokenizer S T} (h : t.next conv = .ok (none, t')) : t.remain = [] ∧ t' = t := by
  unfold Tokenizer.next at h
  split at h
  · rename_i he
    have := Out.ok.inj h
    cases this
    exact ⟨List.isEmpty_iff.1 he, rfl⟩
  · simp only at h
    split at h
    · cases h
    · have := Out.ok.inj h
      cases this

/-! ## C38 -/

/-- Everything about a run of the tokenizer at once. -/
theorem collect_spec {n : Nat} : ∀ {t : Tokenizer S T} {xs : List (Token S T)}, t.collect conv n = .ok xs →
    tokenText xs = t.remain ∧ ∀ k x, xs[k]? = some x →
      x.text ≠ [] ∧ FirstLongest t.regexes (tokenText (xs.drop k)) x.cls (bytes x.text) ∧
      x.span = S.spanningTo (trackTexts conv t.location ((xs.take k).map Token.text)) (t.index + k)
        (trackTexts conv t.location ((xs.take (k + 1)).map Token.text)) (t.index + (k + 1)) := by
  induction n with
  | zero => intro t xs h; cases h
  | succ n ih =>
    intro t xs h
    rw [Tokenizer.collect] at h
    cases h1 : t.next conv with
    | ok y =>
      rw [h1] at h
      obtain ⟨o, t'⟩ := y
      cases o with
      | none =>
        have := Out.ok.inj h
        subst this
        obtain ⟨h2, -⟩ := next_none h1
        exact ⟨by rw [h2]; rfl, fun k x hx => by cases hx⟩
      | some x =>
        rw [Out.ok_bind] at h
        simp only at h
        cases h2 : t'.collect conv n with
        | ok ys =>
          rw [h2] at h
          have := Out.ok.inj h
          subst this
          obtain ⟨h3, h4⟩ := ih h2
          obtain ⟨n1, n2, n3, n4, n5, n6, n7⟩ := next_some h1
          have htext : tokenText (x :: ys) = t.remain := by
            rw [n1, ← h3]; simp [tokenText]
          refine ⟨htext, fun k z hz => ?_⟩
          cases k with
          | zero =>
            simp only [List.getElem?_cons_zero, Option.some.injEq] at hz
            subst hz
            refine ⟨n2, ?_, ?_⟩
            · rw [List.drop_zero, htext]; exact n3
            · simpa [trackTexts, n5, n6] using n7
          | succ k =>
            rw [List.getElem?_cons_succ] at hz
            obtain ⟨h5, h6, h7⟩ := h4 k z hz
            refine ⟨h5, ?_, ?_⟩
            · rw [List.drop_succ_cons, ← n4]; exact h6
            · rw [h7, n5, n6]
              simp only [List.take_succ_cons, List.map_cons, trackTexts, List.foldl_cons]
              rw [show t.index + 1 + k = t.index + (k + 1) by omega,
                show t.index + 1 + (k + 1) = t.index + (k + 1 + 1) by omega]
        | panic m => rw [h2] at h; cases h
        | oof => rw [h2] at h; cases h
        | stuck => rw [h2] at h; cases h
    | panic m => rw [h1] at h; cases h
    | oof => rw [h1] at h; cases h
    | stuck => rw [h1] at h; cases h

/-- C38: nothing is lost and nothing is added: the texts of the tokens, in order, are the input, and
no token is empty. -/
theorem C38_lossless {all : List T} {regex : T → Matcher} {ws : Matcher} {loc : S.L} {text : List Char}
    {n : Nat} {xs : List (Token S T)} (h : (Tokenizer.new all regex ws loc text).collect conv n = .ok xs) :
    (xs.map Token.text).flatten = text ∧ ∀ x ∈ xs, x.text ≠ [] := by
  obtain ⟨h1, h2⟩ := collect_spec h
  refine ⟨h1, fun x hx => ?_⟩
  obtain ⟨k, hk⟩ := List.getElem?_of_mem hx
  exact (h2 k x hk).1

/-- C38: each token is the first longest match at its place: its class is that of the first among the
token types, in the order of their definition with whitespace last, whose match with the text from
there on is longest, and its text is that match; if nothing matches, it is an error token of one
byte. -/
theorem C38_first_longest {all : List T} {regex : T → Matcher} {ws : Matcher} {loc : S.L} {text : List Char}
    {n : Nat} {xs : List (Token S T)} (h : (Tokenizer.new all regex ws loc text).collect conv n = .ok xs)
    {before after : List (Token S T)} {x : Token S T} (hx : xs = before ++ x :: after) :
    FirstLongest (all.map (fun t => (regex t, .normal t)) ++ [(ws, .whitespace)])
      (((x :: after).map Token.text).flatten) x.cls (bytes x.text) := by
  have := (collect_spec h).2 before.length x (by simp [hx])
  have h2 := this.2.1
  rw [hx, List.drop_left] at h2
  exact h2

/-- C38: the spans are consecutive, one index for each token, and the tracker sees the texts in
order. -/
theorem C38_spans {all : List T} {regex : T → Matcher} {ws : Matcher} {loc : S.L} {text : List Char}
    {n : Nat} {xs : List (Token S T)} (h : (Tokenizer.new all regex ws loc text).collect conv n = .ok xs)
    {before after : List (Token S T)} {x : Token S T} (hx : xs = before ++ x :: after) :
    x.span = S.spanningTo (trackTexts conv loc (before.map Token.text)) before.length
      (trackTexts conv loc ((before ++ [x]).map Token.text)) (before.length + 1) := by
  have := ((collect_spec h).2 before.length x (by simp [hx])).2.2
  rw [hx, List.take_left, show before ++ x :: after = (before ++ [x]) ++ after by simp,
    List.take_left' (by simp)] at this
  simpa [Tokenizer.new] using this

theorem fold_lt {rest : List Char} {M : Nat} : ∀ (rs : List (Matcher × TokenClass T)) (best : TokenClass T × Nat),
    best.2 < M → (∀ r ∈ rs, r.1 rest < M) → (rs.foldl (longerMatch rest) best).2 < M
  | [], _, h, _ => h
  | r :: rs, best, h, hr => by
    refine fold_lt rs _ ?_ fun x hx => hr x (List.mem_cons_of_mem _ hx)
    unfold longerMatch
    split
    · exact hr r List.mem_cons_self
    · exact h

theorem fold_le {rest : List Char} : ∀ (rs : List (Matcher × TokenClass T)) (best : TokenClass T × Nat),
    (∀ r ∈ rs, r.1 rest ≤ best.2) → rs.foldl (longerMatch rest) best = best
  | [], _, _ => rfl
  | r :: rs, best, hr => by
    have h1 : longerMatch rest best r = best := by
      have := hr r List.mem_cons_self
      exact if_neg (by omega)
    rw [List.foldl_cons, h1]
    exact fold_le rs best fun x hx => hr x (List.mem_cons_of_mem _ hx)

theorem FirstLongest.fold {rs : List (Matcher × TokenClass T)} {rest : List Char} {cls : TokenClass T} {len : Nat}
    (h : FirstLongest rs rest cls len) : (rs.foldl (longerMatch rest) (.error, 0)).1 = cls ∧
      (if (rs.foldl (longerMatch rest) (.error, 0)).2 = 0 then 1
        else (rs.foldl (longerMatch rest) (.error, 0)).2) = len := by
  rcases h with ⟨bf, m, af, rfl, rfl, h1, h2, h3⟩ | ⟨h1, rfl, rfl⟩
  · rw [List.foldl_append, List.foldl_cons]
    have h4 := fold_lt bf (.error, 0) h1 h2
    have h5 : longerMatch rest (bf.foldl (longerMatch rest) (.error, 0)) (m, cls) = (cls, m rest) := if_pos h4
    rw [h5, fold_le af _ h3]
    exact ⟨rfl, if_neg (by simp only; omega)⟩
  · rw [fold_le rs _ fun r hr => by rw [h1 r hr]; exact Nat.zero_le _]
    exact ⟨rfl, rfl⟩

theorem collect_of_spec {n : Nat} : ∀ {t : Tokenizer S T} (xs : List (Token S T)), xs.length < n →
    tokenText xs = t.remain → (∀ k x, xs[k]? = some x →
      x.text ≠ [] ∧ FirstLongest t.regexes (tokenText (xs.drop k)) x.cls (bytes x.text) ∧
      x.span = S.spanningTo (trackTexts conv t.location ((xs.take k).map Token.text)) (t.index + k)
        (trackTexts conv t.location ((xs.take (k + 1)).map Token.text)) (t.index + (k + 1))) →
    t.collect conv n = .ok xs := by
  induction n with
  | zero => intro t xs h; omega
  | succ n ih =>
    intro t xs hn ht hx
    rw [Tokenizer.collect]
    cases xs with
    | nil =>
      have : t.next conv = .ok (none, t) := by
        unfold Tokenizer.next
        rw [← ht]; rfl
      rw [this]; rfl
    | cons x xs =>
      obtain ⟨h1, h2, h3⟩ := hx 0 x rfl
      rw [List.drop_zero, ht] at h2
      have h4 := h2.fold
      have ht' : t.remain = x.text ++ tokenText xs := by rw [← ht]; simp [tokenText]
      have hnext : t.next conv = .ok (some x, { t with
          location := S.advance t.location (conv x.text), index := t.index + 1, remain := tokenText xs }) := by
        unfold Tokenizer.next
        rw [if_neg (by rw [ht']; simp [h1])]
        simp only
        rw [h4.2]
        have h5 : splitBytes t.remain (bytes x.text) = some (x.text, tokenText xs) := by
          rw [ht']; exact splitBytes_append _ _
        rw [h5]
        simp only
        rw [h4.1]
        congr 2
        obtain ⟨a, b, c⟩ := x
        simp only [Option.some.injEq, Token.mk.injEq, true_and]
        simpa [trackTexts] using h3.symm
      rw [hnext, Out.ok_bind]
      simp only
      have h6 := ih (t := { t with
          location := S.advance t.location (conv x.text), index := t.index + 1, remain := tokenText xs }) xs
        (by simp only [List.length_cons] at hn; omega) rfl (by
          intro k y hy
          obtain ⟨g1, g2, g3⟩ := hx (k + 1) y (by rw [List.getElem?_cons_succ]; exact hy)
          refine ⟨g1, g2, ?_⟩
          rw [g3]
          simp only [List.take_succ_cons, List.map_cons, trackTexts, List.foldl_cons]
          rw [show t.index + 1 + k = t.index + (k + 1) by omega,
            show t.index + 1 + (k + 1) = t.index + (k + 1 + 1) by omega])
      rw [h6]; rfl

/-- C38: these properties say everything: if some list of tokens has them, it is what the tokenizer
returns. -/
theorem C38_determined {all : List T} {regex : T → Matcher} {ws : Matcher} {loc : S.L} {text : List Char}
    {n : Nat} {xs : List (Token S T)} (hn : xs.length < n) (h1 : (xs.map Token.text).flatten = text)
    (h2 : ∀ before x after, xs = before ++ x :: after → x.text ≠ [] ∧
      FirstLongest (all.map (fun t => (regex t, .normal t)) ++ [(ws, .whitespace)])
        (((x :: after).map Token.text).flatten) x.cls (bytes x.text) ∧
      x.span = S.spanningTo (trackTexts conv loc (before.map Token.text)) before.length
        (trackTexts conv loc ((before ++ [x]).map Token.text)) (before.length + 1)) :
    (Tokenizer.new all regex ws loc text).collect conv n = .ok xs := by
  refine collect_of_spec xs hn h1 fun k x hx => ?_
  have hlt : k < xs.length := (List.getElem?_eq_some_iff.1 hx).1
  have hx' : xs[k] = x := (List.getElem?_eq_some_iff.1 hx).2
  have hsplit : xs = xs.take k ++ x :: xs.drop (k + 1) := by
    rw [← hx', List.getElem_cons_drop, List.take_append_drop]
  have hd : xs.drop k = x :: xs.drop (k + 1) := by rw [← hx', List.getElem_cons_drop]
  have htk : xs.take (k + 1) = xs.take k ++ [x] := by rw [← hx', List.take_append_getElem]
  obtain ⟨g1, g2, g3⟩ := h2 _ _ _ hsplit
  have hlen : (xs.take k).length = k := by rw [List.length_take]; omega
  refine ⟨g1, ?_, ?_⟩
  · rw [hd]; exact g2
  · rw [htk, g3, hlen]
    simp [Tokenizer.new]

theorem collect_not_oof {n : Nat} : ∀ {t : Tokenizer S T}, t.remain.length < n → t.collect conv n ≠ .oof := by
  induction n with
  | zero => intro t h; omega
  | succ n ih =>
    intro t h
    rw [Tokenizer.collect]
    cases h1 : t.next conv with
    | ok y =>
      obtain ⟨o, t'⟩ := y
      cases o with
      | none => simp
      | some x =>
        obtain ⟨n1, n2, -⟩ := next_some h1
        have hlen : t'.remain.length < n := by
          have := congrArg List.length n1
          rw [List.length_append] at this
          have := List.length_pos_iff.2 n2
          omega
        have := ih hlen
        cases h2 : t'.collect conv n <;> simp_all
    | panic m => simp
    | oof =>
      unfold Tokenizer.next at h1
      split at h1
      · cases h1
      · simp only at h1
        split at h1 <;> cases h1
    | stuck => simp

theorem next_not_stuck (t : Tokenizer S T) : t.next conv ≠ .stuck := by
  unfold Tokenizer.next
  split
  · simp
  · simp only
    split <;> simp

theorem collect_not_stuck (n : Nat) : ∀ t : Tokenizer S T, t.collect conv n ≠ .stuck := by
  induction n with
  | zero => intro t; simp [Tokenizer.collect]
  | succ n ih =>
    intro t
    rw [Tokenizer.collect]
    cases h1 : t.next conv with
    | ok y =>
      obtain ⟨o, t'⟩ := y
      cases o with
      | none => simp
      | some x =>
        have := ih t'
        cases h2 : t'.collect conv n <;> simp_all
    | panic m => simp
    | oof => simp
    | stuck => exact (next_not_stuck t h1).elim

/-- C38: tokenizing ends, after at most one step for each character: with tokens, or with a panic. -/
theorem C38_terminates (all : List T) (regex : T → Matcher) (ws : Matcher) (loc : S.L) (text : List Char)
    (n : Nat) (hn : text.length < n) :
    (∃ xs, (Tokenizer.new all regex ws loc text).collect conv n = .ok xs) ∨
      ∃ m, (Tokenizer.new all regex ws loc text).collect conv n = .panic m := by
  have h1 : (Tokenizer.new all regex ws loc text).collect conv n ≠ .oof := collect_not_oof hn
  have h2 := collect_not_stuck (conv := conv) n (Tokenizer.new all regex ws loc text)
  cases h : (Tokenizer.new all regex ws loc text).collect conv n with
  | ok xs => exact .inl ⟨xs, rfl⟩
  | panic m => exact .inr ⟨m, rfl⟩
  | oof => exact (h1 h).elim
  | stuck => exact (h2 h).elim

/-- C38: the parser gets the normal tokens, in order, with their texts and spans; every error token
is reported, with its first character; whitespace is dropped. -/
theorem C38_filter (xs : List (Token S T)) :
    (filterTokens xs).1 = xs.filterMap (fun x =>
      match x.cls with
      | .normal t => some ⟨t, some x.text, x.span⟩
      | _ => none) ∧
    (filterTokens xs).2 = xs.filterMap (fun x =>
      match x.cls with
      | .error => some ⟨x.text.head?.getD '?', x.span⟩
      | _ => none) := by
  induction xs with
  | nil => exact ⟨rfl, rfl⟩
  | cons x xs ih =>
    obtain ⟨cls, text, span⟩ := x
    cases cls <;>
      simp [filterTokens, Token.intoGrammarInput, Token.intoError, TokenClass.tokenType, TokenClass.isError,
        ih.1, ih.2]

/-! ## C39 -/

theorem splitBytes_one {c : Char} {t : List Char} : splitBytes (c :: t) 1 = none ↔ 1 < c.utf8Size := by
  have hpos := c.utf8Size_pos
  rw [splitBytes]
  by_cases h : c.utf8Size ≤ 1
  · rw [if_pos (by omega)]
    have h1 : 0 + 1 - c.utf8Size = 0 := by omega
    rw [h1]
    have : splitBytes t 0 = some ([], t) := by cases t <;> rfl
    rw [this]
    simp only [reduceCtorEq, false_iff]
    omega
  · rw [if_neg (by omega)]
    simp only [true_iff]
    omega

theorem next_panic (t : Tokenizer S T) (hp : ∀ r ∈ t.regexes, r.1.Prefix) (m : String) :
    t.next conv = .panic m → ∃ c rest, t.remain = c :: rest ∧ 1 < c.utf8Size ∧ ∀ r ∈ t.regexes, r.1 t.remain = 0 := by
  intro h
  unfold Tokenizer.next at h
  split at h
  · cases h
  · rename_i he
    simp only at h
    have hf := fold_first t.remain t.regexes (.error, 0)
    generalize hb : t.regexes.foldl (longerMatch t.remain) (.error, 0) = best at h hf
    rcases hf with ⟨h4, h5⟩ | ⟨bf, mm, cls, af, h4, h5, h6, h7, h8⟩
    · subst h4
      cases hr : t.remain with
      | nil => rw [hr] at he; exact (he rfl).elim
      | cons c rest =>
        refine ⟨c, rest, rfl, ?_, fun r hr' => by rw [← hr]; exact Nat.le_zero.1 (h5 r hr')⟩
        split at h
        · rename_i hs
          rw [hr] at hs
          exact splitBytes_one.1 hs
        · cases h
    · subst h6
      simp only at h5
      obtain ⟨p, s, h9, h10⟩ := hp (mm, cls) (by rw [h4]; simp) t.remain
      simp only at h10
      have : splitBytes t.remain (if mm t.remain = 0 then 1 else mm t.remain) = some (p, s) := by
        rw [if_neg (by omega), ← h10]
        conv => lhs; arg 1; rw [h9]
        exact splitBytes_append p s
      rw [this] at h
      cases h

theorem next_panics (t : Tokenizer S T) {c : Char} {rest : List Char} (hr : t.remain = c :: rest)
    (hc : 1 < c.utf8Size) (hn : ∀ r ∈ t.regexes, r.1 t.remain = 0) : ∃ m, t.next conv = .panic m := by
  unfold Tokenizer.next
  rw [if_neg (by rw [hr]; simp)]
  simp only
  have hf := fold_first t.remain t.regexes (.error, 0)
  generalize hb : t.regexes.foldl (longerMatch t.remain) (.error, 0) = best at hf ⊢
  rcases hf with ⟨h4, h5⟩ | ⟨bf, mm, cls, af, h4, h5, h6, h7, h8⟩
  · subst h4
    have : splitBytes t.remain 1 = none := by rw [hr]; exact splitBytes_one.2 hc
    refine ⟨"byte index is not a char boundary", ?_⟩
    simp only [if_true, this]
  · have := hn (mm, cls) (by rw [h4]; simp)
    simp only at this h5
    omega

theorem collect_panic (n : Nat) : ∀ (t : Tokenizer S T), (∀ r ∈ t.regexes, r.1.Prefix) → t.remain.length < n →
    ((∃ m, t.collect conv n = .panic m) ↔ ∃ k xs t' c rest, t.take conv k = .ok (xs, t') ∧
      t'.remain = c :: rest ∧ 1 < c.utf8Size ∧ ∀ r ∈ t.regexes, r.1 t'.remain = 0) := by
  induction n with
  | zero => intro t _ h; omega
  | succ n ih =>
    intro t hp hlen
    rw [Tokenizer.collect]
    cases h1 : t.next conv with
    | ok y =>
      obtain ⟨o, t'⟩ := y
      cases o with
      | none =>
        constructor
        · rintro ⟨m, h⟩; cases h
        · rintro ⟨k, xs, t2, c, rest, h2, h3, h4, h5⟩
          obtain ⟨h6, rfl⟩ := next_none h1
          have : t2 = t' := by
            cases k with
            | zero => cases h2; rfl
            | succ k => rw [Tokenizer.take, h1] at h2; cases h2; rfl
          subst this
          rw [h6] at h3; cases h3
      | some x =>
        obtain ⟨n1, n2, -, n4, -⟩ := next_some h1
        have hlen' : t'.remain.length < n := by
          have := congrArg List.length n1
          rw [List.length_append] at this
          have := List.length_pos_iff.2 n2
          omega
        have := ih t' (by rw [n4]; exact hp) hlen'
        constructor
        · rintro ⟨m, h⟩
          have h2 : t'.collect conv n = .panic m := by
            rw [Out.ok_bind] at h
            simp only at h
            cases h2 : t'.collect conv n <;> rw [h2] at h
            · cases h
            · cases h; rfl
            · cases h
            · cases h
          obtain ⟨k, xs, t2, c, rest, h3, h4, h5, h6⟩ := this.1 ⟨m, h2⟩
          refine ⟨k + 1, x :: xs, t2, c, rest, ?_, h4, h5, by rw [← n4]; exact h6⟩
          rw [Tokenizer.take, h1, Out.ok_bind]
          simp only
          rw [h3]; rfl
        · rintro ⟨k, xs, t2, c, rest, h3, h4, h5, h6⟩
          cases k with
          | zero =>
            cases h3
            obtain ⟨m, hm⟩ := next_panics (conv := conv) t h4 h5 h6
            rw [hm] at h1; cases h1
          | succ k =>
            rw [Tokenizer.take, h1, Out.ok_bind] at h3
            simp only at h3
            cases h7 : t'.take conv k with
            | ok r =>
              rw [h7] at h3
              have := Out.ok.inj h3
              cases this
              obtain ⟨m, hm⟩ := (ih t' (by rw [n4]; exact hp) hlen').2
                ⟨k, r.1, r.2, c, rest, h7, h4, h5, by rw [n4]; exact h6⟩
              exact ⟨m, by rw [Out.ok_bind]; simp only; rw [hm]; rfl⟩
            | panic m => rw [h7] at h3; cases h3
            | oof => rw [h7] at h3; cases h3
            | stuck => rw [h7] at h3; cases h3
    | panic m =>
      constructor
      · intro _
        obtain ⟨c, rest, h2, h3, h4⟩ := next_panic t hp m h1
        exact ⟨0, [], t, c, rest, rfl, h2, h3, h4⟩
      · intro _; exact ⟨m, rfl⟩
    | oof =>
      unfold Tokenizer.next at h1
      split at h1
      · cases h1
      · simp only at h1
        split at h1 <;> cases h1
    | stuck => exact (next_not_stuck t h1).elim

/-- C39, exactly when it fails: the tokenizer panics if and only if it gets to a character that takes
more than one byte at which no expression matches. -/
theorem C39_panics_iff (all : List T) (regex : T → Matcher) (ws : Matcher) (loc : S.L) (text : List Char)
    (hr : ∀ t ∈ all, (regex t).Prefix) (hw : ws.Prefix) (n : Nat) (hn : text.length < n) :
    (∃ m, (Tokenizer.new all regex ws loc text).collect conv n = .panic m) ↔
      ∃ k xs t' c rest, (Tokenizer.new all regex ws loc text).take conv k = .ok (xs, t') ∧
        t'.remain = c :: rest ∧ 1 < c.utf8Size ∧ (∀ t ∈ all, regex t (c :: rest) = 0) ∧ ws (c :: rest) = 0 := by
  have hp : ∀ r ∈ (Tokenizer.new all regex ws loc text).regexes, r.1.Prefix := by
    intro r h
    rcases List.mem_append.1 h with h | h
    · obtain ⟨t, ht, rfl⟩ := List.mem_map.1 h
      exact hr t ht
    · rw [List.mem_singleton] at h; subst h; exact hw
  rw [collect_panic n _ hp hn]
  refine exists_congr fun k => exists_congr fun xs => exists_congr fun t' => exists_congr fun c =>
    exists_congr fun rest => and_congr_right fun _ => and_congr_right fun h1 => and_congr_right fun _ => ?_
  rw [h1]
  constructor
  · intro h
    refine ⟨fun t ht => h (regex t, .normal t) ?_, h (ws, .whitespace) ?_⟩
    · exact List.mem_append.2 (.inl (List.mem_map.2 ⟨t, ht, rfl⟩))
    · exact List.mem_append.2 (.inr (by simp))
  · rintro ⟨h2, h3⟩ r h
    rcases List.mem_append.1 h with h | h
    · obtain ⟨t, ht, rfl⟩ := List.mem_map.1 h
      exact h2 t ht
    · rw [List.mem_singleton] at h; subst h; exact h3

theorem take_suffix (k : Nat) : ∀ {t t' : Tokenizer S T} {xs : List (Token S T)},
    t.take conv k = .ok (xs, t') → t.remain = tokenText xs ++ t'.remain := by
  induction k with
  | zero => intro t t' xs h; cases h; rfl
  | succ k ih =>
    intro t t' xs h
    rw [Tokenizer.take] at h
    cases h1 : t.next conv with
    | ok y =>
      obtain ⟨o, t1⟩ := y
      rw [h1, Out.ok_bind] at h
      cases o with
      | none =>
        obtain ⟨-, rfl⟩ := next_none h1
        cases h; rfl
      | some x =>
        simp only at h
        cases h7 : t1.take conv k with
        | ok r =>
          rw [h7] at h
          have := Out.ok.inj h
          cases this
          rw [(next_some h1).1, ih h7]
          simp [tokenText]
        | panic m => rw [h7] at h; cases h
        | oof => rw [h7] at h; cases h
        | stuck => rw [h7] at h; cases h
    | panic m => rw [h1] at h; cases h
    | oof => rw [h1] at h; cases h
    | stuck => rw [h1] at h; cases h

/-- C39 for texts in which something matches at each character of more than one byte, in particular
for ASCII texts: there are always tokens. Without this condition it is false, see
`C39_never_panics_fails`. -/
theorem C39_never_panics_partial (all : List T) (regex : T → Matcher) (ws : Matcher) (loc : S.L)
    (text : List Char) (hr : ∀ t ∈ all, (regex t).Prefix) (hw : ws.Prefix)
    (ht : ∀ before c rest, text = before ++ c :: rest → c.utf8Size = 1 ∨
      (∃ t ∈ all, 0 < regex t (c :: rest)) ∨ 0 < ws (c :: rest)) (n : Nat) (hn : text.length < n) :
    ∃ xs, (Tokenizer.new all regex ws loc text).collect conv n = .ok xs := by
  rcases C38_terminates (conv := conv) all regex ws loc text n hn with h | h
  · exact h
  · obtain ⟨k, xs, t', c, rest, h1, h2, h3, h4, h5⟩ := (C39_panics_iff all regex ws loc text hr hw n hn).1 h
    have := take_suffix k h1
    rw [h2] at this
    rcases ht _ c rest this with h6 | ⟨t, h6, h7⟩ | h6
    · omega
    · rw [h4 t h6] at h7; omega
    · omega

/-- C39 for ASCII texts, whatever the expressions. -/
theorem C39_ascii (all : List T) (regex : T → Matcher) (ws : Matcher) (loc : S.L)
    (text : List Char) (hr : ∀ t ∈ all, (regex t).Prefix) (hw : ws.Prefix)
    (ht : ∀ c ∈ text, c.toNat < 128) (n : Nat) (hn : text.length < n) :
    ∃ xs, (Tokenizer.new all regex ws loc text).collect conv n = .ok xs := by
  refine C39_never_panics_partial all regex ws loc text hr hw ?_ n hn
  intro b c r h
  left
  have := ht c (by rw [h]; simp)
  unfold Char.utf8Size
  simp only [Char.toNat] at this
  rw [if_pos]
  rw [UInt32.le_iff_toNat_le]
  show c.val.toNat ≤ 127
  omega

/-! ## Concrete cases -/

/-- The expression `[a-z]+`. -/
def exWord : Matcher := fun t => (t.takeWhile fun c => 'a' ≤ c ∧ c ≤ 'z').length

/-- The expression ` +`. -/
def exBlank : Matcher := fun t => (t.takeWhile (· == ' ')).length

/-- The expression `if`. -/
def exIf : Matcher := fun t => if ['i', 'f'].isPrefixOf t then 2 else 0

theorem takeWhile_prefix {p : Char → Bool} (hp : ∀ c, p c = true → c.utf8Size = 1) :
    Matcher.Prefix fun t => (t.takeWhile p).length := by
  intro t
  refine ⟨t.takeWhile p, t.dropWhile p, List.takeWhile_append_dropWhile.symm, ?_⟩
  have : ∀ l : List Char, (∀ c ∈ l, p c = true) → bytes l = l.length := by
    intro l
    induction l with
    | nil => intro _; rfl
    | cons c l ih =>
      intro h
      have h1 := hp c (h c List.mem_cons_self)
      have h2 := ih fun c hc => h c (List.mem_cons_of_mem _ hc)
      simp only [bytes, List.map_cons, List.sum_cons, List.length_cons] at h2 ⊢
      omega
  refine this _ fun c hc => ?_
  have := List.all_takeWhile (l := t) (p := p)
  exact List.all_eq_true.1 this c hc

/-- The tokens of `if iff é`... up to the last character: keywords win over words of the same length,
longer words win over keywords. -/
example : ((Tokenizer.new (S := simpleSig (List Char) (· == ·)) [true, false] (fun b => if b then exIf else exWord)
      exBlank () ['i', 'f', ' ', 'i', 'f', 'f', '1']).collect id 20).map
        (fun xs => xs.map fun x => (x.cls, x.text, x.span)) =
    .ok [(.normal true, ['i', 'f'], (0, 1)), (.whitespace, [' '], (1, 2)),
      (.normal false, ['i', 'f', 'f'], (2, 3)), (.error, ['1'], (3, 4))] := by
  decide +kernel

/-- The expressions of the example meet the conditions. -/
example : exWord.Prefix ∧ exBlank.Prefix ∧ exIf.Prefix := by
  refine ⟨?_, ?_, ?_⟩
  · refine takeWhile_prefix fun c h => ?_
    simp only [decide_eq_true_eq] at h
    have := Char.le_def.1 h.2
    unfold Char.utf8Size
    rw [if_pos]
    exact UInt32.le_trans this (by decide)
  · refine takeWhile_prefix fun c h => ?_
    rw [beq_iff_eq] at h
    subst h
    rfl
  · intro t
    unfold exIf
    by_cases h : (['i', 'f'].isPrefixOf t) = true
    · rw [if_pos h]
      obtain ⟨s, rfl⟩ := List.isPrefixOf_iff_prefix.1 h
      exact ⟨_, s, rfl, rfl⟩
    · rw [if_neg h]
      exact ⟨[], t, rfl, rfl⟩

/-- C39 is false: the tokenizer panics on `é` if no expression matches it. -/
theorem C39_never_panics_fails :
    ∃ m, (Tokenizer.new (S := simpleSig (List Char) (· == ·)) [true, false] (fun b => if b then exIf else exWord)
      exBlank () ['i', 'f', ' ', 'é']).collect id 20 = .panic m := by
  generalize h : (Tokenizer.new (S := simpleSig (List Char) (· == ·)) [true, false]
    (fun b => if b then exIf else exWord) exBlank () ['i', 'f', ' ', 'é']).collect id 20 = r
  have : r.isPanic = true := by rw [← h]; decide +kernel
  cases r with
  | panic m => exact ⟨m, rfl⟩
  | ok _ => cases this
  | oof => cases this
  | stuck => cases this

end PPC
