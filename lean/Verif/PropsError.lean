import Verif.Display

/-!
# Error values and their rendering (C40)
-/

namespace PPC

variable {S : Sig} {I Loc Span : Type}

/-! ## Specification -/

/-- The laws of `Eq` for the tokens. -/
structure EqLaws {I : Type} (eq : I → I → Bool) : Prop where
  refl : ∀ a, eq a a = true
  symm : ∀ a b, eq a b = true → eq b a = true
  trans : ∀ a b c, eq a b = true → eq b c = true → eq a c = true

/-- Two expectations (a token, or the end of the input) are the same. -/
def Same (eq : I → I → Bool) : Option I → Option I → Prop
  | none, none => True
  | some a, some b => eq a b = true
  | _, _ => False

/-- `x` is one of `xs`. -/
def OneOf (eq : I → I → Bool) (x : Option I) (xs : List (Option I)) : Prop := ∃ y ∈ xs, Same eq x y

/-- `xs` represents a set: no two of its elements are the same. -/
def NoRepeats (eq : I → I → Bool) (xs : List (Option I)) : Prop :=
  xs.Pairwise fun x y => ¬Same eq x y

/-- The phrase for a list of alternatives, in English: `a`, `a or b`, `a, b, or c`. -/
def alternatives : List String → Option String
  | [] => none
  | [a] => some a
  | [a, b] => some (a ++ " or " ++ b)
  | xs => some (", ".intercalate (xs.take (xs.length - 1)) ++ ", or " ++ xs.getLastD "")

/-! ## Lemmas -/

theorem eqOpt_iff {eq : I → I → Bool} {a b : Option I} : eqOpt eq a b = true ↔ Same eq a b := by
  cases a <;> cases b <;> simp [eqOpt, Same]

theorem Same.symm {eq : I → I → Bool} (h : EqLaws eq) {a b : Option I} (hab : Same eq a b) : Same eq b a := by
  cases a <;> cases b <;> simp only [Same] at hab ⊢
  exact h.symm _ _ hab

theorem Same.refl {eq : I → I → Bool} (h : EqLaws eq) (a : Option I) : Same eq a a := by
  cases a <;> simp [Same, h.refl]

theorem Same.trans {eq : I → I → Bool} (h : EqLaws eq) {a b c : Option I} (hab : Same eq a b)
    (hbc : Same eq b c) : Same eq a c := by
  cases a <;> cases b <;> cases c <;> simp only [Same] at hab hbc ⊢
  exact h.trans _ _ _ hab hbc

theorem any_eqOpt {eq : I → I → Bool} {x : Option I} {s : List (Option I)} :
    s.any (eqOpt eq x) = true ↔ OneOf eq x s := by
  simp [OneOf, eqOpt_iff]

theorem setInsert_one {eq : I → I → Bool} (h : EqLaws eq) (s : List (Option I)) (a x : Option I) :
    OneOf eq x (setInsert eq s a) ↔ OneOf eq x s ∨ Same eq x a := by
  unfold setInsert
  by_cases hs : s.any (eqOpt eq a) = true
  · rw [if_pos hs]
    refine ⟨.inl, ?_⟩
    rintro (h1 | h1)
    · exact h1
    · obtain ⟨y, hy, h2⟩ := any_eqOpt.1 hs
      exact ⟨y, hy, h1.trans h h2⟩
  · rw [if_neg hs]
    simp [OneOf, or_and_right, exists_or]

theorem setInsert_no {eq : I → I → Bool} (h : EqLaws eq) {s : List (Option I)} (a : Option I)
    (hs : NoRepeats eq s) : NoRepeats eq (setInsert eq s a) := by
  unfold setInsert
  by_cases h1 : s.any (eqOpt eq a) = true
  · rw [if_pos h1]; exact hs
  · rw [if_neg h1]
    refine List.pairwise_append.2 ⟨hs, List.pairwise_singleton _ _, ?_⟩
    intro x hx y hy hxy
    rw [List.mem_singleton] at hy
    subst hy
    exact h1 (any_eqOpt.2 ⟨x, hx, hxy.symm h⟩)

theorem setExtend_one {eq : I → I → Bool} (h : EqLaws eq) (x : Option I) :
    ∀ (xs s : List (Option I)), OneOf eq x (setExtend eq s xs) ↔ OneOf eq x s ∨ OneOf eq x xs
  | [], s => by simp [setExtend, OneOf]
  | a :: xs, s => by
    show OneOf eq x (setExtend eq (setInsert eq s a) xs) ↔ _
    rw [setExtend_one h x xs, setInsert_one h]
    simp only [OneOf, List.mem_cons, exists_eq_or_imp]
    rw [or_assoc]

theorem setExtend_no {eq : I → I → Bool} (h : EqLaws eq) :
    ∀ (xs : List (Option I)) {s : List (Option I)}, NoRepeats eq s → NoRepeats eq (setExtend eq s xs)
  | [], _, hs => hs
  | a :: xs, _, hs => setExtend_no h xs (setInsert_no h a hs)

theorem setExtend_mem {eq : I → I → Bool} (x : Option I) :
    ∀ (xs s : List (Option I)), x ∈ setExtend eq s xs → x ∈ s ∨ x ∈ xs
  | [], s => by intro h; exact .inl h
  | a :: xs, s => by
    intro h
    rcases setExtend_mem x xs _ h with h1 | h1
    · unfold setInsert at h1
      split at h1
      · exact .inl h1
      · rcases List.mem_append.1 h1 with h2 | h2
        · exact .inl h2
        · rw [List.mem_singleton] at h2
          exact .inr (h2 ▸ List.mem_cons_self)
    · exact .inr (List.mem_cons_of_mem _ h1)

/-! ## The set of expected tokens -/

/-- C40: the error made by `expected_found` has the given token as found and the given location, and
expects exactly the given tokens, without repeats. -/
theorem C40_expected_found (h : EqLaws S.eqI) (xs : List (Option S.I)) (found : Option S.I)
    (at_ : At S.Loc S.Span) :
    ∃ ys, (simpleErr S).expectedFound xs found at_ = .expectedFound ys found at_ ∧ NoRepeats S.eqI ys ∧
      (∀ y ∈ ys, y ∈ xs) ∧ ∀ x, OneOf S.eqI x ys ↔ OneOf S.eqI x xs := by
  refine ⟨_, rfl, setExtend_no h xs .nil, fun y hy => ?_, fun x => ?_⟩
  · rcases setExtend_mem y xs [] hy with h1 | h1
    · cases h1
    · exact h1
  · rw [setExtend_one h]
    simp [OneOf]

/-- C40: merging keeps what was found and where, and expects exactly what either error expected. -/
theorem C40_merge (h : EqLaws S.eqI) (xs ys : List (Option S.I)) (f f' : Option S.I) (a a' : At S.Loc S.Span)
    (hxs : NoRepeats S.eqI xs) :
    ∃ zs, (simpleErr S).merge (.expectedFound xs f a) (.expectedFound ys f' a') = .expectedFound zs f a ∧
      NoRepeats S.eqI zs ∧ (∀ z ∈ zs, z ∈ xs ∨ z ∈ ys) ∧
      ∀ x, OneOf S.eqI x zs ↔ OneOf S.eqI x xs ∨ OneOf S.eqI x ys :=
  ⟨_, rfl, setExtend_no h ys hxs, fun z hz => setExtend_mem z ys xs hz, fun x => setExtend_one h x ys xs⟩

/-- C40: merging changes nothing unless both are expected-found errors. -/
theorem C40_merge_other (e e' : (simpleErr S).E)
    (h : (simpleErr S).isExpectedFound e = false ∨ (simpleErr S).isExpectedFound e' = false) :
    (simpleErr S).merge e e' = e := by
  cases e <;> cases e' <;> first | rfl | (rcases h with h | h <;> cases h)

/-- C40: merging with itself, or again, adds nothing. -/
theorem C40_merge_again (h : EqLaws S.eqI) (xs ys : List (Option S.I)) (f f' : Option S.I)
    (a a' : At S.Loc S.Span) :
    (simpleErr S).merge (.expectedFound xs f a) (.expectedFound xs f a) = .expectedFound xs f a ∧
    (simpleErr S).merge ((simpleErr S).merge (.expectedFound xs f a) (.expectedFound ys f' a'))
      (.expectedFound ys f' a') = (simpleErr S).merge (.expectedFound xs f a) (.expectedFound ys f' a') := by
  have key : ∀ (ys s : List (Option S.I)), (∀ y ∈ ys, OneOf S.eqI y s) → setExtend S.eqI s ys = s := by
    intro ys
    induction ys with
    | nil => intro s _; rfl
    | cons y ys ih =>
      intro s hs
      have : setInsert S.eqI s y = s := by
        unfold setInsert
        rw [if_pos (any_eqOpt.2 (hs y List.mem_cons_self))]
      show setExtend S.eqI (setInsert S.eqI s y) ys = s
      rw [this]
      exact ih s fun z hz => hs z (List.mem_cons_of_mem _ hz)
  constructor
  · show SimpleError.expectedFound _ _ _ = _
    rw [key xs xs fun y hy => ⟨y, hy, .refl h y⟩]
  · show SimpleError.expectedFound _ _ _ = SimpleError.expectedFound _ _ _
    rw [key ys _ fun y hy => (setExtend_one h y ys xs).2 (.inr ⟨y, hy, .refl h y⟩)]

/-- C40: the location of an error is the one it was made with; for delimiters of different types it
is the right delimiter, and a message made without location has none. -/
theorem C40_location (xs : List (Option S.I)) (found : Option S.I) (at_ : At S.Loc S.Span) (t t' : S.I)
    (sp sp' : S.Span) (msg : String) :
    (simpleErr S).location ((simpleErr S).expectedFound xs found at_) = at_ ∧
    (simpleErr S).location ((simpleErr S).unmatchedLeft t sp at_) = at_ ∧
    (simpleErr S).location ((simpleErr S).unmatchedRight t sp at_) = at_ ∧
    (simpleErr S).location ((simpleErr S).unmatchedType t sp t' sp') = .span sp' ∧
    (simpleErr S).location ((simpleErr S).custom msg at_) = at_ ∧
    (simpleErr S).location ((simpleErr S).simple msg) = .none :=
  ⟨rfl, rfl, rfl, rfl, rfl, rfl⟩

/-- Numbers satisfy the laws, and merging `{1, EOF}` with `{EOF, 2}` gives `{1, EOF, 2}`. -/
example : EqLaws (fun a b : Nat => a == b) ∧
    (simpleErr (simpleSig Nat fun a b => a == b)).merge
      ((simpleErr (simpleSig Nat fun a b => a == b)).expectedFound [some 1, none, some 1] (some 7) (.span (3, 4)))
      ((simpleErr (simpleSig Nat fun a b => a == b)).expectedFound [none, some 2] (some 8) .none) =
    .expectedFound [some 1, none, some 2] (some 7) (.span (3, 4)) :=
  ⟨⟨by simp, by simp +contextual, by simp +contextual⟩, by decide⟩

/-! ## Rendering -/

theorem writeMiddle_eq (xs : List String) : ∀ out, writeMiddle out xs = out ++ writeMiddle "" xs := by
  induction xs with
  | nil => intro out; simp [writeMiddle]
  | cons x xs ih =>
    intro out
    rw [writeMiddle, writeMiddle, ih, ih ("" ++ (", " ++ x))]
    simp [String.append_assoc]

theorem intercalate_cons (a : String) (xs : List String) :
    ", ".intercalate (a :: xs) = a ++ writeMiddle "" xs := by
  induction xs generalizing a with
  | nil => simp [writeMiddle]
  | cons b xs ih =>
    rw [String.intercalate_cons_cons, ih, writeMiddle, writeMiddle_eq xs ("" ++ (", " ++ b))]
    simp [String.append_assoc]

theorem take_dropLast {α : Type} (b : α) (xs : List α) (h : xs ≠ []) :
    (b :: xs).take ((b :: xs).length - 1) = b :: xs.dropLast := by
  rw [← List.dropLast_eq_take]
  cases xs with
  | nil => exact (h rfl).elim
  | cons c xs => rfl

theorem writeExpected_eq (xs : List String) :
    writeExpected xs =
      match alternatives xs with
      | none => "found unexpected"
      | some s => "expected " ++ s ++ " but found" := by
  match xs with
  | [] => rfl
  | [a] => rfl
  | [a, b] => simp [writeExpected, alternatives, String.append_assoc]
  | a :: b :: c :: xs =>
    simp only [writeExpected, alternatives]
    rw [take_dropLast a (b :: c :: xs) (by simp), intercalate_cons, writeMiddle_eq]
    simp only [String.append_assoc]
    rfl

section
variable (showI : I → String) (showLoc : Loc → String) (showSpan : Span → String)
  (iter : List (Option I) → List (Option I))

theorem display_expectedFound (expected : List (Option I)) (found : Option I) (at_ : At Loc Span) :
    (SimpleError.expectedFound expected found at_).display showI showLoc showSpan iter =
      writeExpected ((iter expected).map (showExpected showI)) ++ writeFound showI found ++
        at_.display showLoc showSpan false := by
  unfold SimpleError.display; rfl

theorem display_unmatchedLeft (t : I) (sp : Span) (a : At Loc Span) :
    (SimpleError.unmatchedLeft t sp a).display showI showLoc showSpan iter =
      "unmatched left " ++ showI t ++ " (" ++ showSpan sp ++ ")" ++
      writeHint showLoc showSpan "; must be closed before " a := by
  unfold SimpleError.display; rfl

theorem display_unmatchedRight (t : I) (sp : Span) (a : At Loc Span) :
    (SimpleError.unmatchedRight t sp a).display showI showLoc showSpan iter =
      "unmatched right " ++ showI t ++ " (" ++ showSpan sp ++ ")" ++
      writeHint showLoc showSpan "; must be opened after " a := by
  unfold SimpleError.display; rfl

theorem display_unmatchedType (t t' : I) (sp sp' : Span) :
    (SimpleError.unmatchedType t sp t' sp' : SimpleError I Loc Span).display showI showLoc showSpan iter =
      "left " ++ showI t ++ " (" ++ showSpan sp ++ ") does not match right " ++ showI t' ++ " (" ++
      showSpan sp' ++ ")" := by
  unfold SimpleError.display; rfl

theorem display_custom (msg : String) (a : At Loc Span) :
    (SimpleError.custom msg a : SimpleError I Loc Span).display showI showLoc showSpan iter =
      msg ++ a.display showLoc showSpan false := by
  unfold SimpleError.display; rfl

end

/-- C40: an expected-found error is rendered as `expected a, b, or c but found x at l`, where the
alternatives are all the expected tokens in some order, each exactly once; with nothing expected it
is `found unexpected x at l`. `iter` is the unspecified order of the hash set. -/
theorem C40_rendering (showI : I → String) (showLoc : Loc → String) (showSpan : Span → String)
    (iter : List (Option I) → List (Option I)) (hiter : ∀ l, (iter l).Perm l)
    (expected : List (Option I)) (found : Option I) (at_ : At Loc Span) :
    ∃ names : List String, names.Perm (expected.map fun x => (x.map showI).getD "EOF") ∧
      (SimpleError.expectedFound expected found at_).display showI showLoc showSpan iter =
        (match alternatives names with
          | none => "found unexpected "
          | some s => "expected " ++ s ++ " but found ") ++
        (found.map showI).getD "EOF" ++
        (match at_ with
          | .none => ""
          | .location l => " at " ++ showLoc l
          | .span s => " at " ++ showSpan s) := by
  have hs : (fun x : Option I => (x.map showI).getD "EOF") = showExpected showI := by
    funext x; cases x <;> rfl
  refine ⟨(iter expected).map (showExpected showI), hs ▸ (hiter expected).map _, ?_⟩
  rw [display_expectedFound, writeExpected_eq]
  have h1 : at_.display showLoc showSpan false = (match at_ with
          | .none => ""
          | .location l => " at " ++ showLoc l
          | .span s => " at " ++ showSpan s) := by
    cases at_ <;> simp only [At.display, Bool.false_eq_true, if_false]
  have h2 : writeFound showI found = " " ++ (found.map showI).getD "EOF" := by
    cases found with
    | none => exact (by decide +kernel : " EOF" = " " ++ "EOF")
    | some x => rfl
  have h3 : "found unexpected " = "found unexpected" ++ " " := by decide +kernel
  have h4 : " but found " = " but found" ++ " " := by decide +kernel
  rw [h1, h2]
  cases alternatives ((iter expected).map (showExpected showI)) <;>
    simp only [h3, h4, String.append_assoc, -String.reduceAppend]

/-- C40: the number of alternatives in the message is the number of different expected tokens. -/
theorem C40_rendering_count (h : EqLaws S.eqI) (xs : List (Option S.I)) (found : Option S.I)
    (at_ : At S.Loc S.Span) (zs : List (Option S.I)) (hz : NoRepeats S.eqI zs)
    (hsub : ∀ x, OneOf S.eqI x xs ↔ OneOf S.eqI x zs) :
    ∃ ys, (simpleErr S).expectedFound xs found at_ = .expectedFound ys found at_ ∧ ys.length = zs.length := by
  obtain ⟨ys, h1, h2, -, h4⟩ := C40_expected_found h xs found at_
  refine ⟨ys, h1, ?_⟩
  have key : ∀ (as bs : List (Option S.I)), NoRepeats S.eqI as →
      (∀ x, OneOf S.eqI x as → OneOf S.eqI x bs) → as.length ≤ bs.length := by
    intro as
    induction as with
    | nil => intro bs _ _; exact Nat.zero_le _
    | cons a as ih =>
      intro bs hn hs
      obtain ⟨b, hb, hab⟩ := hs a ⟨a, List.mem_cons_self, .refl h a⟩
      obtain ⟨bs1, bs2, rfl⟩ := List.append_of_mem hb
      have hn' := List.pairwise_cons.1 hn
      have := ih (bs1 ++ bs2) hn'.2 (by
        rintro x ⟨y, hy, hxy⟩
        obtain ⟨w, hw, hyw⟩ := hs y ⟨y, List.mem_cons_of_mem _ hy, .refl h y⟩
        rcases List.mem_append.1 hw with h5 | h5
        · exact ⟨w, List.mem_append.2 (.inl h5), hxy.trans h hyw⟩
        · rcases List.mem_cons.1 h5 with rfl | h6
          · exact (hn'.1 y hy (hab.trans h (hyw.symm h))).elim
          · exact ⟨w, List.mem_append.2 (.inr h6), hxy.trans h hyw⟩)
      simp only [List.length_append, List.length_cons] at this ⊢
      omega
  exact Nat.le_antisymm (key ys zs h2 fun x hx => (hsub x).1 ((h4 x).1 hx))
    (key zs ys hz fun x hx => (h4 x).2 ((hsub x).2 hx))

/-- C40: the messages for delimiters and custom messages. -/
theorem C40_rendering_other (showI : I → String) (showLoc : Loc → String) (showSpan : Span → String)
    (iter : List (Option I) → List (Option I)) (t t' : I) (sp sp' : Span) (l : Loc) (msg : String) :
    (SimpleError.unmatchedLeft t sp .none).display showI showLoc showSpan iter =
      "unmatched left " ++ showI t ++ " (" ++ showSpan sp ++ ")" ∧
    (SimpleError.unmatchedRight t sp .none).display showI showLoc showSpan iter =
      "unmatched right " ++ showI t ++ " (" ++ showSpan sp ++ ")" ∧
    (SimpleError.unmatchedType t sp t' sp' : SimpleError I Loc Span).display showI showLoc showSpan iter =
      "left " ++ showI t ++ " (" ++ showSpan sp ++ ") does not match right " ++ showI t' ++ " (" ++
        showSpan sp' ++ ")" ∧
    (SimpleError.custom msg .none).display showI showLoc showSpan iter = msg ∧
    (SimpleError.custom msg (.location l)).display showI showLoc showSpan iter = msg ++ " at " ++ showLoc l ∧
    (SimpleError.custom msg (.span sp)).display showI showLoc showSpan iter = msg ++ " at " ++ showSpan sp := by
  refine ⟨by simp [display_unmatchedLeft, writeHint, At.isKnown],
    by simp [display_unmatchedRight, writeHint, At.isKnown], display_unmatchedType .., ?_, ?_, ?_⟩ <;>
    simp [display_custom, At.display, String.append_assoc]

/-- What the code really prints for a known location of an unmatched delimiter: the word `at` is
printed after `before`, with two spaces: `must be closed before  at 7`. -/
theorem C40_before_at_quirk (showI : I → String) (showLoc : Loc → String) (showSpan : Span → String)
    (iter : List (Option I) → List (Option I)) (t : I) (sp sp' : Span) :
    (SimpleError.unmatchedLeft t sp (.span sp')).display showI showLoc showSpan iter =
      "unmatched left " ++ showI t ++ " (" ++ showSpan sp ++ "); must be closed before  at " ++ showSpan sp' ∧
    (SimpleError.unmatchedRight t sp (.span sp')).display showI showLoc showSpan iter =
      "unmatched right " ++ showI t ++ " (" ++ showSpan sp ++ "); must be opened after  at " ++ showSpan sp' := by
  have h1 : "); must be closed before  at " = ")" ++ "; must be closed before " ++ " at " := by decide +kernel
  have h2 : "); must be opened after  at " = ")" ++ "; must be opened after " ++ " at " := by decide +kernel
  constructor <;>
    simp only [h1, h2, display_unmatchedLeft, display_unmatchedRight, writeHint, At.isKnown, At.display, if_true, String.append_assoc,
      Bool.false_eq_true, if_false, -String.reduceAppend]

/-- C40: what is rendered for a rich span: file, row and column of both ends. -/
theorem C40_rich_span (r r' : Rich) (i i' : Nat) :
    (r.spanningTo i r' i').display =
      r.filename ++ " " ++ toString r.row ++ ":" ++ toString r.column ++ ".." ++
        toString r'.row ++ ":" ++ toString r'.column ∧
    (r.location i).display = r.filename ++ " " ++ toString r.row ++ ":" ++ toString r.column := by
  constructor <;>
    simp only [Rich.spanningTo, Rich.location, RichSpan.display, RichLocation.display, RichOffset.display,
      Rich.toOffset, String.append_assoc]

/-- Concrete cases. -/
example : (SimpleError.expectedFound [some 1, none, some 2, some 3] (some 7) (.span (3, 4))).display
      (Loc := Nat) toString toString (fun s : Nat × Nat => toString s.1 ++ ".." ++ toString s.2) List.reverse =
    "expected 3, 2, EOF, or 1 but found 7 at 3..4" ∧
    (SimpleError.expectedFound [some 1, none] none (.location 4)).display (Span := Nat)
      toString toString toString id = "expected 1 or EOF but found EOF at 4" ∧
    (SimpleError.expectedFound [] (some 1) .none).display (Loc := Nat) (Span := Nat)
      toString toString toString id = "found unexpected 1" ∧
    ((Rich.new "a.txt").location 0).display = "a.txt 1:1" := by
  decide +kernel

end PPC
