import Verif.PropsStream

/-!
# Rich locations are text coordinates: C10
-/

namespace PPC

/-! ## Specification: coordinates of the end of a text -/

/-- One more than the number of newlines in the text. -/
def textRow (s : String) : Nat := 1 + s.toList.count '\n'

/-- One more than the number of characters after the last newline of the text. -/
def textColumn (s : String) : Nat := 1 + (s.toList.reverse.takeWhile (fun c => c ≠ '\n')).length

/-- The text of a sequence of tokens. -/
def textOf {I : Type} (conv : I → String) (ts : List I) : String := String.join (ts.map conv)

/-! ## Auxiliary lemmas -/

theorem foldr_advanceChar (ds : List Char) (r : Rich) :
    ds.foldr (fun c r => Rich.advanceChar r c) r =
      { r with
        row := r.row + ds.count '\n'
        column := (if '\n' ∈ ds then 1 else r.column)
          + (ds.takeWhile (fun c => c ≠ '\n')).length } := by
  induction ds with
  | nil => simp
  | cons c ds ih =>
    rw [List.foldr_cons, ih]
    unfold Rich.advanceChar
    by_cases hc : c = '\n'
    · subst hc; simp; omega
    · have hc' : ¬ ('\n' = c) := fun h => hc h.symm
      simp [hc, hc']; omega

theorem foldl_advanceChar (cs : List Char) (r : Rich) :
    cs.foldl Rich.advanceChar r =
      { r with
        row := r.row + cs.count '\n'
        column := (if '\n' ∈ cs then 1 else r.column)
          + (cs.reverse.takeWhile (fun c => c ≠ '\n')).length } := by
  have h := foldr_advanceChar cs.reverse r
  rw [List.foldr_reverse] at h
  rw [h]
  simp

theorem textOf_append {I : Type} (conv : I → String) (a b : List I) :
    textOf conv (a ++ b) = textOf conv a ++ textOf conv b := by
  unfold textOf
  rw [List.map_append]
  simp [String.join_append]

theorem foldl_advance {I : Type} (conv : I → String) (ts : List I) (r : Rich) :
    ts.foldl (Rich.advance conv) r =
      { (textOf conv ts).toList.foldl Rich.advanceChar r with
        offset := r.offset + (textOf conv ts).utf8ByteSize } := by
  induction ts generalizing r with
  | nil => simp [textOf]
  | cons t ts ih =>
    rw [List.foldl_cons, ih]
    have h1 : textOf conv (t :: ts) = conv t ++ textOf conv ts := by
      simp [textOf]
    rw [h1, String.toList_append, List.foldl_append, String.utf8ByteSize_append]
    simp only [Rich.advance]
    rw [foldl_advanceChar, foldl_advanceChar]
    simp only [foldl_advanceChar]
    congr 1
    omega

/-- Coordinates reached from a start tracker. -/
theorem foldl_advance_new {I : Type} (conv : I → String) (ts : List I) (f : String) :
    ts.foldl (Rich.advance conv) (Rich.new f) =
      ⟨f, textRow (textOf conv ts), textColumn (textOf conv ts), (textOf conv ts).utf8ByteSize⟩ := by
  rw [foldl_advance, foldl_advanceChar]
  simp [Rich.new, textRow, textColumn]

theorem tokensBefore_mono {S : Sig} (e : Env S) {m n : Nat} (h : m ≤ n) :
    ∃ ts, tokensBefore e n = tokensBefore e m ++ ts := by
  obtain ⟨k, rfl⟩ := Nat.exists_eq_add_of_le h
  unfold tokensBefore
  rw [List.range_add, List.filterMap_append]
  exact ⟨_, rfl⟩

/-- Row and column of a longer text. -/
theorem textPos_append (a b : String) :
    textRow a < textRow (a ++ b) ∨
      textRow a = textRow (a ++ b) ∧ textColumn (a ++ b) = textColumn a + b.toList.length := by
  unfold textRow textColumn
  rw [String.toList_append, List.count_append, List.reverse_append]
  by_cases h : '\n' ∈ b.toList
  · left
    have := List.count_pos_iff.2 h
    omega
  · right
    have h0 := List.count_eq_zero.2 h
    refine ⟨by omega, ?_⟩
    have key : ∀ (l r : List Char), '\n' ∉ l →
        ((l ++ r).takeWhile (fun c => decide (c ≠ '\n'))).length
          = l.length + (r.takeWhile (fun c => decide (c ≠ '\n'))).length := by
      intro l r hl
      induction l with
      | nil => simp
      | cons x l ih =>
        have hx : ¬ x = '\n' := fun h => hl (by simp [h])
        have hl' : '\n' ∉ l := fun h => hl (by simp [h])
        simp only [List.cons_append, List.takeWhile_cons, hx, ne_eq, not_false_eq_true, decide_true,
          if_true, List.length_cons]
        have := ih hl'
        simp only [ne_eq] at this
        omega
    rw [key _ _ (by simpa using h)]
    simp only [List.length_reverse]
    omega

/-! ## C10 -/

variable {I : Type} {eq : I → I → Bool} {conv : I → String}

/-- **C10.** The location before token `k` of a stream with a `Rich` tracker: row, column
and byte offset of the end of the concatenated text of the tokens before it. Together with
`C06_location_and_span` this is what `location()` returns in every reachable state. -/
theorem C10_rich_location (f : String) (source : Nat → Option I) (k : Nat) :
    let e : Env (richSig I eq conv) := ⟨source, Rich.new f⟩
    let text := textOf conv (tokensBefore e k)
    specLocation e k = ⟨f, ⟨textRow text, textColumn text, text.utf8ByteSize, k⟩⟩ := by
  simp only [specLocation]
  rw [foldl_advance_new]
  rfl

/-- **C10.** On a running stream. -/
theorem C10_rich_location_stream {al : Alloc} {f : String} {source : Nat → Option I}
    {s : Stream (richSig I eq conv)} (h : Reach al ⟨source, Rich.new f⟩ s) :
    let text := textOf conv ((List.range s.index).filterMap source)
    Stream.step .location s =
      .ok (⟨f, ⟨textRow text, textColumn text, text.utf8ByteSize, s.index⟩⟩, s) := by
  rw [(C06_location_and_span h).1, C10_rich_location]
  rfl

/-- **C10.** Spans: from the coordinates of one position to those of the other. -/
theorem C10_rich_span (f : String) (source : Nat → Option I) (a b : Nat) :
    let e : Env (richSig I eq conv) := ⟨source, Rich.new f⟩
    let ta := textOf conv (tokensBefore e a)
    let tb := textOf conv (tokensBefore e b)
    specSpan e a b = ⟨f, ⟨textRow ta, textColumn ta, ta.utf8ByteSize, a⟩,
      ⟨textRow tb, textColumn tb, tb.utf8ByteSize, b⟩⟩ := by
  simp only [specSpan]
  rw [foldl_advance_new, foldl_advance_new]
  rfl

/-- **C10.** Independence of the token split: if the tokens before position `k` of one source
and before position `k'` of another (possibly with other token types) render to the same
text, row, column and offset agree. -/
theorem C10_split_independent {I' : Type} {eq' : I' → I' → Bool} {conv' : I' → String} (f : String)
    (source : Nat → Option I) (source' : Nat → Option I') (k k' : Nat)
    (h : textOf conv ((List.range k).filterMap source) =
      textOf conv' ((List.range k').filterMap source')) :
    let l := specLocation (⟨source, Rich.new f⟩ : Env (richSig I eq conv)) k
    let l' := specLocation (⟨source', Rich.new f⟩ : Env (richSig I' eq' conv')) k'
    l.filename = l'.filename ∧ l.offset.row = l'.offset.row ∧ l.offset.column = l'.offset.column ∧
      l.offset.offset = l'.offset.offset := by
  simp only [C10_rich_location]
  simp only [tokensBefore, h, and_self]

/-- **C10.** Later positions have later coordinates: the offset does not decrease, and
(row, column) does not decrease lexicographically; both stay the same exactly if the text in
between is empty. -/
theorem C10_order (f : String) (source : Nat → Option I) {a b : Nat} (hab : a ≤ b) :
    let e : Env (richSig I eq conv) := ⟨source, Rich.new f⟩
    let la := (specLocation e a).offset
    let lb := (specLocation e b).offset
    la.offset ≤ lb.offset ∧
    (la.row < lb.row ∨ la.row = lb.row ∧ la.column ≤ lb.column) ∧
    ((la.row = lb.row ∧ la.column = lb.column) ↔
      textOf conv (tokensBefore e a) = textOf conv (tokensBefore e b)) ∧
    (la.offset = lb.offset ↔ textOf conv (tokensBefore e a) = textOf conv (tokensBefore e b)) := by
  simp only [C10_rich_location]
  obtain ⟨ts, hts⟩ := tokensBefore_mono (⟨source, Rich.new f⟩ : Env (richSig I eq conv)) hab
  rw [hts, textOf_append]
  generalize textOf conv (tokensBefore (⟨source, Rich.new f⟩ : Env (richSig I eq conv)) a) = x
  generalize textOf conv ts = y
  have hp := textPos_append x y
  have hempty : x = x ++ y ↔ y = "" := by
    constructor
    · intro h
      have h1 := congrArg String.utf8ByteSize h
      rw [String.utf8ByteSize_append] at h1
      exact String.utf8ByteSize_eq_zero_iff.1 (by omega)
    · rintro rfl; simp
  refine ⟨by rw [String.utf8ByteSize_append]; omega, ?_, ?_, ?_⟩
  · rcases hp with h | ⟨h1, h2⟩
    · exact Or.inl h
    · exact Or.inr ⟨h1, by omega⟩
  · rw [hempty]
    constructor
    · rintro ⟨h1, h2⟩
      rcases hp with h | ⟨h3, h4⟩
      · omega
      · have : y.toList.length = 0 := by omega
        simpa using this
    · rintro rfl; simp
  · rw [hempty, String.utf8ByteSize_append]
    constructor
    · intro h; exact String.utf8ByteSize_eq_zero_iff.1 (by omega)
    · rintro rfl; simp

/-- Three characters, one of them a newline and one of two bytes; and the same text as a
single token: the coordinates are those the specification says. -/
example : (specLocation (exText ['é', '\n', 'b']) 3) = ⟨"f", ⟨2, 2, 4, 3⟩⟩ ∧
    textOf String.singleton ['é', '\n', 'b'] = textOf (fun s : String => s) ["é\nb"] := by
  decide

end PPC
