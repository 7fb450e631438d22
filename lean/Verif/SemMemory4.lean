import Verif.SemMemory3

/-!
# How far parsers look ahead

Helper lemmas for C53: parsers without loops look at a fixed number of tokens.
-/

namespace PPC

variable {S : Sig} {N : Names S} {e : Env S}

/-- While the client runs, tokens at `B` or later are not requested, and it returns with `post`. -/
def Prog.Near {α : Type} (e : Env S) (B : Nat) (post : α → Cursor → Prop) : Prog S α → Cursor → Prop
  | .ret a, c => c.hi ≤ B ∧ post a c
  | .panic _, c => c.hi ≤ B
  | .oof, c => c.hi ≤ B
  | .op o k, c => c.hi ≤ B ∧ ∀ r c', Cursor.step e o c = .ok (r, c') → (k r).Near e B post c'

section

variable {α β γ δ E X : Type} {B : Nat}

theorem Prog.Near.first {post : α → Cursor → Prop} : ∀ {p : Prog S α} {c : Cursor}, p.Near e B post c → c.hi ≤ B
  | .ret _, _, h => h.1
  | .panic _, _, h => h
  | .oof, _, h => h
  | .op _ _, _, h => h.1

theorem Prog.Near.imp {post post' : α → Cursor → Prop} (hp : ∀ a c, post a c → post' a c) :
    ∀ {p : Prog S α} {c : Cursor}, p.Near e B post c → p.Near e B post' c
  | .ret _, _, h => ⟨h.1, hp _ _ h.2⟩
  | .panic _, _, h => h
  | .oof, _, h => h
  | .op _ _, _, h => ⟨h.1, fun r c' hs => (h.2 r c' hs).imp hp⟩

theorem Prog.Near.bind {post : α → Cursor → Prop} {post' : β → Cursor → Prop} {f : α → Prog S β} :
    ∀ {p : Prog S α} {c : Cursor}, p.Near e B post c → (∀ a c', c'.hi ≤ B → post a c' → (f a).Near e B post' c') →
      (p.bind f).Near e B post' c
  | .ret _, _, h, hf => hf _ _ h.1 h.2
  | .panic _, _, h, _ => h
  | .oof, _, h, _ => h
  | .op _ _, _, h, hf => ⟨h.1, fun r c' hs => (h.2 r c' hs).bind hf⟩

/-! ## Single calls -/

variable {post : α → Cursor → Prop} {c : Cursor}

/-- A call that does not look at the current token and stays where it is. -/
theorem Near.calm {o : Op S} {k : o.Resp → Prog S α} (hc : c.hi ≤ B)
    (ho : ∀ r c', Cursor.step e o c = .ok (r, c') → c'.hi = c.hi ∧ c'.pos = c.pos)
    (hk : ∀ r c', c'.hi ≤ B → c'.pos = c.pos → (k r).Near e B post c') : (Prog.op o k).Near e B post c :=
  ⟨hc, fun r c' hs => hk r c' (by rw [(ho r c' hs).1]; exact hc) (ho r c' hs).2⟩

theorem Near.index {k : Nat → Prog S α} (hc : c.hi ≤ B) (hk : (k c.pos).Near e B post c) :
    (Prog.op .index k).Near e B post c := ⟨hc, fun _ _ hs => by cases hs; exact hk⟩

theorem Near.location {k : S.Loc → Prog S α} (hc : c.hi ≤ B) (hk : ∀ l, (k l).Near e B post c) :
    (Prog.op .location k).Near e B post c := ⟨hc, fun _ _ hs => by cases hs; exact hk _⟩

theorem Near.spanningBackTo {m : SavedState} {k : S.Span → Prog S α} (hc : c.hi ≤ B) (hk : ∀ l, (k l).Near e B post c) :
    (Prog.op (.spanningBackTo m) k).Near e B post c := ⟨hc, fun _ _ hs => by
  simp only [Cursor.step] at hs
  split at hs
  · split at hs
    · cases hs; exact hk _
    · cases hs
  · cases hs⟩

theorem Near.save {k : SavedState → Prog S α} (hc : c.hi ≤ B)
    (hk : ∀ m c', m.index = c.pos → c'.hi ≤ B → c'.pos = c.pos → (k m).Near e B post c') :
    (Prog.op .save k).Near e B post c := ⟨hc, fun _ _ hs => by cases hs; exact hk _ _ rfl hc rfl⟩

theorem Near.saveAt {i : Nat} {k : SavedState → Prog S α} (hc : c.hi ≤ B)
    (hk : ∀ m c', m.index = i → c'.hi ≤ B → c'.pos = c.pos → (k m).Near e B post c') :
    (Prog.op (.saveAt i) k).Near e B post c := ⟨hc, fun _ _ hs => by
  simp only [Cursor.step] at hs
  split at hs
  · cases hs
  · split at hs
    · cases hs; exact hk _ _ rfl hc rfl
    · cases hs⟩

theorem Near.drop {m : SavedState} {k : Unit → Prog S α} (hc : c.hi ≤ B)
    (hk : ∀ c', c'.hi ≤ B → c'.pos = c.pos → (k ()).Near e B post c') :
    (Prog.op (.drop m) k).Near e B post c := ⟨hc, fun _ _ hs => by
  simp only [Cursor.step] at hs
  split at hs
  · cases hs; exact hk _ hc rfl
  · cases hs⟩

theorem Near.restore {m : SavedState} {k : Unit → Prog S α} (hc : c.hi ≤ B)
    (hk : ∀ c', c'.hi ≤ B → c'.pos = m.index → (k ()).Near e B post c') :
    (Prog.op (.restore m) k).Near e B post c := ⟨hc, fun _ _ hs => by
  simp only [Cursor.step] at hs
  split at hs
  · cases hs; exact hk _ hc rfl
  · cases hs⟩

theorem look_hi {c : Cursor} (hc : c.hi ≤ B) (hp : c.pos + 1 ≤ B) : c.look.hi ≤ B := Nat.max_le.2 ⟨hc, hp⟩

theorem Near.token {k : Option S.I → Prog S α} (hc : c.hi ≤ B) (hp : c.pos + 1 ≤ B)
    (hk : ∀ t c', c'.hi ≤ B → c'.pos = c.pos → (k t).Near e B post c') : (Prog.op .token k).Near e B post c :=
  ⟨hc, fun _ _ hs => by cases hs; exact hk _ _ (look_hi hc hp) rfl⟩

theorem Near.span {k : S.Span → Prog S α} (hc : c.hi ≤ B) (hp : c.pos + 1 ≤ B)
    (hk : ∀ t c', c'.hi ≤ B → c'.pos = c.pos → (k t).Near e B post c') : (Prog.op .span k).Near e B post c :=
  ⟨hc, fun _ _ hs => by cases hs; exact hk _ _ (look_hi hc hp) rfl⟩

theorem Near.advance {k : Bool → Prog S α} (hc : c.hi ≤ B) (hp : c.pos + 1 ≤ B)
    (hk : ∀ b c', c'.hi ≤ B → c'.pos ≤ c.pos + 1 → (k b).Near e B post c') : (Prog.op .advance k).Near e B post c :=
  ⟨hc, fun _ _ hs => by
    simp only [Cursor.step] at hs
    split at hs
    · cases hs; exact hk _ _ (look_hi hc hp) (Nat.le_refl _)
    · cases hs; exact hk _ _ (look_hi hc hp) (Nat.le_succ _)⟩

theorem Near.withSave {body : SavedState → Prog S α} (hc : c.hi ≤ B)
    (h : ∀ m c', m.index = c.pos → c'.hi ≤ B → c'.pos = c.pos →
      (body m).Near e B (fun a c2 => ∀ c3 : Cursor, c3.pos = c2.pos → post a c3) c') :
    (Prog.withSave body).Near e B post c := by
  unfold Prog.withSave; prog
  refine Near.save hc fun m c' hm hc' hp => ?_
  refine (h m c' hm hc' hp).bind fun a c2 hc2 h2 => ?_
  exact Near.drop hc2 fun c3 hc3 hp3 => ⟨hc3, h2 c3 hp3⟩

/-! ## Parsers -/

/-- What a parser that looks at most `w` tokens ahead returns from position `i`. -/
def PostC (w i : Nat) (r : Res α E) (c' : Cursor) : Prop :=
  c'.pos ≤ i + w ∧ ∀ x es, r = .failed x es → x ≤ i + w ∧ c'.pos = i

/-- The parser looks at most `w` tokens ahead. -/
def Close (e : Env S) (p : Parser S E α) (w : Nat) : Prop :=
  ∀ en c B, c.hi ≤ B → c.pos + w ≤ B → (p en).Near e B (PostC w c.pos) c

variable {w w' i : Nat}

theorem PostC.success {a : α} {c' : Cursor} (h : c'.pos ≤ i + w) : PostC (E := E) w i (.success a) c' :=
  ⟨h, by rintro _ _ ⟨⟩⟩

theorem PostC.recovered {a : α} {es : List E} {c' : Cursor} (h : c'.pos ≤ i + w) : PostC w i (.recovered a es) c' :=
  ⟨h, by rintro _ _ ⟨⟩⟩

theorem PostC.failed {x : Nat} {es : List E} {c' : Cursor} (h : x ≤ i + w) (hp : c'.pos = i) :
    PostC (α := α) w i (.failed x es) c' := ⟨by omega, by rintro _ _ ⟨⟩; exact ⟨h, hp⟩⟩

theorem PostC.le {r : Res α E} {c' : Cursor} (h : PostC w i r c') (hw : w ≤ w') : PostC w' i r c' :=
  ⟨by have := h.1; omega, fun x es hr => ⟨by have := (h.2 x es hr).1; omega, (h.2 x es hr).2⟩⟩

theorem Close.le {p : Parser S E α} (h : Close e p w) (hw : w ≤ w') : Close e p w' := fun en c B hc hp =>
  (h en c B hc (by omega)).imp fun _ _ hr => hr.le hw

theorem PostC.cursor {r : Res α E} {c' c'' : Cursor} (h : PostC w i r c') (hp : c''.pos = c'.pos) : PostC w i r c'' := by
  unfold PostC at h ⊢; rw [hp]; exact h

/-- Parsers that change answers. -/
theorem Close.answer {p : Parser S E α} (h : Close e p w) {f : Res α E → Res β X}
    (hf : ∀ r x es, f r = .failed x es → ∃ es', r = .failed x es') :
    Close e (fun en => (p en).bind fun r => .ret (f r)) w := fun en c B hc hp =>
  (h en c B hc hp).bind fun r c' hc' hr => ⟨hc', hr.1, fun x es hfr => by
    obtain ⟨es', he⟩ := hf r x es hfr
    exact hr.2 x es' he⟩

end

/-! ## Primitives -/

section

variable {ε : ErrTy S} {α : Type}

theorem pEnd_close : Close e (pEnd ε) 1 := by
  intro en c B hc hp
  unfold pEnd; prog
  refine Near.token hc hp fun t c1 hc1 hp1 => ?_
  split
  · exact ⟨hc1, .success (by omega)⟩
  · refine Near.index hc1 (Near.token hc1 (by omega) fun t c2 hc2 hp2 => Near.location hc2 fun l => ?_)
    exact ⟨hc2, .failed (by omega) (by omega)⟩

theorem pJust_close {x : S.I} : Close e (pJust ε x) 1 := by
  intro en c B hc hp
  unfold pJust; prog
  refine Near.token hc hp fun t c1 hc1 hp1 => ?_
  split
  · exact Near.advance hc1 (by omega) fun b c2 hc2 hp2 => ⟨hc2, .success (by omega)⟩
  · exact Near.index hc1 (Near.span hc1 (by omega) fun s c2 hc2 hp2 => ⟨hc2, .failed (by omega) (by omega)⟩)

theorem Near.attempt {B : Nat} {post : α → Cursor → Prop} {c : Cursor} {f : Prog S (Bool × α)} (hc : c.hi ≤ B)
    (h : ∀ c', c'.hi ≤ B → c'.pos = c.pos → f.Near e B (fun x c2 =>
      if x.1 then (∀ c3 : Cursor, c3.pos = c2.pos → post x.2 c3) else (∀ c3 : Cursor, c3.pos = c.pos → post x.2 c3)) c') :
    (Prog.attempt f).Near e B post c := by
  unfold Prog.attempt
  refine Near.withSave hc fun m c' hm hc' hp => ?_
  refine (h c' hc' hp).bind fun x c2 hc2 h2 => ?_
  obtain ⟨b, r⟩ := x
  cases b
  · simp only [Bool.false_eq_true, if_false] at h2 ⊢
    refine Near.restore hc2 fun c3 hc3 hp3 => ⟨hc3, fun c4 hp4 => h2 c4 ?_⟩
    omega
  · simp only [if_true] at h2 ⊢
    exact ⟨hc2, h2⟩

theorem pFilter_close {p : S.I → Bool} : Close e (pFilter ε p) 1 := by
  intro en c B hc hp
  refine Near.attempt hc fun c0 hc0 hp0 => ?_
  prog
  refine Near.token hc0 (by omega) fun t c1 hc1 hp1 => ?_
  split
  · split
    · refine Near.advance hc1 (by omega) fun b c2 hc2 hp2 => ⟨hc2, ?_⟩
      intro c3 hp3; exact .success (by omega)
    · refine Near.index hc1 (Near.span hc1 (by omega) fun s c2 hc2 hp2 => ⟨hc2, ?_⟩)
      intro c3 hp3; exact .failed (by omega) (by omega)
  · refine Near.index hc1 (Near.span hc1 (by omega) fun s c2 hc2 hp2 => ⟨hc2, ?_⟩)
    intro c3 hp3; exact .failed (by omega) (by omega)

theorem pFilterMap_close {f : S.I → Option α} : Close e (pFilterMap ε f) 1 := by
  intro en c B hc hp
  unfold pFilterMap; prog
  refine Near.token hc hp fun t c1 hc1 hp1 => ?_
  split
  · exact Near.advance hc1 (by omega) fun b c2 hc2 hp2 => ⟨hc2, .success (by omega)⟩
  · exact Near.index hc1 (Near.span hc1 (by omega) fun s c2 hc2 hp2 => ⟨hc2, .failed (by omega) (by omega)⟩)

theorem seqLoop_near {B P : Nat} (hP : P ≤ B) : ∀ {items : List S.I} {c : Cursor}, c.hi ≤ B → c.pos + items.length ≤ P →
    (seqLoop (α := α) ε items).Near e B (fun a c' => c'.pos ≤ P ∧ ∀ r, a = some r → ∃ x es, r = .failed x es ∧ x ≤ P) c
  | [], c, hc, hp => ⟨hc, by simpa using hp, by rintro _ ⟨⟩⟩
  | x :: items, c, hc, hp => by
    simp only [List.length_cons] at hp
    unfold seqLoop; prog
    refine Near.token hc (by omega) fun t c1 hc1 hp1 => ?_
    split
    · exact Near.advance hc1 (by omega) fun b c2 hc2 hp2 => seqLoop_near hP hc2 (by omega)
    · refine Near.index hc1 (Near.span hc1 (by omega) fun s c2 hc2 hp2 => ⟨hc2, by omega, ?_⟩)
      rintro _ ⟨⟩
      exact ⟨_, _, rfl, by omega⟩

theorem pSeq_close {v : α} {items : List S.I} : Close e (pSeq ε v items) items.length := by
  intro en c B hc hp
  refine Near.attempt hc fun c0 hc0 hp0 => ?_
  refine (seqLoop_near (P := c.pos + items.length) hp hc0 (by omega)).bind fun a c1 hc1 h1 => ?_
  cases a with
  | none => exact ⟨hc1, fun c3 hp3 => .success (by have := h1.1; omega)⟩
  | some r =>
    obtain ⟨x, es, rfl, hx⟩ := h1.2 r rfl
    exact ⟨hc1, fun c3 hp3 => .failed hx hp3⟩

theorem pOneOf_close {items : List S.I} : Close e (pOneOf ε items) 1 := by
  intro en c B hc hp
  unfold pOneOf; prog
  refine Near.token hc hp fun t c1 hc1 hp1 => ?_
  split
  · split
    · exact Near.advance hc1 (by omega) fun b c2 hc2 hp2 => ⟨hc2, .success (by omega)⟩
    · exact Near.index hc1 (Near.span hc1 (by omega) fun s c2 hc2 hp2 => ⟨hc2, .failed (by omega) (by omega)⟩)
  · exact Near.index hc1 (Near.span hc1 (by omega) fun s c2 hc2 hp2 => ⟨hc2, .failed (by omega) (by omega)⟩)

theorem pNoneOf_close {items : List S.I} : Close e (pNoneOf ε items) 1 := by
  intro en c B hc hp
  unfold pNoneOf; prog
  refine Near.token hc hp fun t c1 hc1 hp1 => ?_
  split
  · split
    · exact Near.index hc1 (Near.span hc1 (by omega) fun s c2 hc2 hp2 => ⟨hc2, .failed (by omega) (by omega)⟩)
    · exact Near.advance hc1 (by omega) fun b c2 hc2 hp2 => ⟨hc2, .success (by omega)⟩
  · exact Near.index hc1 (Near.location hc1 fun l => ⟨hc1, .failed (by omega) (by omega)⟩)

end

/-! ## Combinators -/

section

variable {α β γ δ E X : Type} {w w1 w2 w3 B : Nat}

theorem pMapWithSpan_close {p : Parser S E α} (h : Close e p w) {f : α → S.Span → β} : Close e (pMapWithSpan f p) w := by
  intro en c B hc hp
  refine Near.withSave hc fun m c1 hm hc1 hp1 => ?_
  refine (h en c1 B hc1 (by omega)).bind fun r c2 hc2 hr => ?_
  rw [hp1] at hr
  cases r with
  | success a => exact Near.spanningBackTo hc2 fun _ => ⟨hc2, fun c3 hp3 => .success (by have := hr.1; omega)⟩
  | recovered a es => exact Near.spanningBackTo hc2 fun _ => ⟨hc2, fun c3 hp3 => .recovered (by have := hr.1; omega)⟩
  | failed x es => exact ⟨hc2, fun c3 hp3 => .failed (hr.2 x es rfl).1 (by have := (hr.2 x es rfl).2; omega)⟩

theorem mapErrsWithSpan_near {f : X → S.Span → E} {m : SavedState} : ∀ {es : List X} {c : Cursor}, c.hi ≤ B →
    (mapErrsWithSpan f m es).Near e B (fun _ c' => c'.pos = c.pos) c
  | [], _, hc => ⟨hc, rfl⟩
  | x :: es, c, hc => by
    unfold mapErrsWithSpan; prog
    refine Near.spanningBackTo hc fun _ => ?_
    exact (mapErrsWithSpan_near hc).bind fun _ c1 hc1 hp1 => ⟨hc1, hp1⟩

theorem pMapErrWithSpan_close {p : Parser S X α} (h : Close e p w) {f : X → S.Span → E} :
    Close e (pMapErrWithSpan f p) w := by
  intro en c B hc hp
  refine Near.withSave hc fun m c1 hm hc1 hp1 => ?_
  refine (h en c1 B hc1 (by omega)).bind fun r c2 hc2 hr => ?_
  rw [hp1] at hr
  cases r with
  | success a => exact ⟨hc2, fun c3 hp3 => .success (by have := hr.1; omega)⟩
  | recovered a es =>
    refine (mapErrsWithSpan_near hc2).bind fun _ c3 hc3 hp3 => ⟨hc3, fun c4 hp4 => .recovered ?_⟩
    have := hr.1; omega
  | failed x es =>
    refine (mapErrsWithSpan_near hc2).bind fun _ c3 hc3 hp3 => ⟨hc3, fun c4 hp4 => .failed (hr.2 x es rfl).1 ?_⟩
    have := (hr.2 x es rfl).2; omega

theorem tryMapBody_near {f : α → S.Span → TryMapResult β E} (hf : ∀ a sp o es, f a sp ≠ .recovered o es) {en : Bool}
    {m : SavedState} {a : α} {c : Cursor} (hc : c.hi ≤ B) (hp : c.pos ≤ m.index + w) :
    (tryMapBody f en m a).Near e B (PostC w m.index) c := by
  unfold tryMapBody; prog
  refine Near.spanningBackTo hc fun sp => ?_
  split
  · exact ⟨hc, .success hp⟩
  · split
    · exact hc
    · exact Near.restore hc fun c1 hc1 hp1 => ⟨hc1, .failed (by omega) hp1⟩
  · rename_i h
    exact (hf _ _ _ _ h).elim

theorem pTryMap_close {p : Parser S E α} (h : Close e p w) {f : α → S.Span → TryMapResult β E}
    (hf : ∀ a sp o es, f a sp ≠ .recovered o es) : Close e (pTryMap f p) w := by
  intro en c B hc hp
  refine Near.withSave hc fun m c1 hm hc1 hp1 => ?_
  refine (h en c1 B hc1 (by omega)).bind fun r c2 hc2 hr => ?_
  rw [hp1, ← hm] at hr
  cases r with
  | success a =>
    refine (tryMapBody_near hf hc2 hr.1).imp fun r c3 h3 c4 hp4 => ?_
    rw [← hm]; exact h3.cursor hp4
  | recovered a es =>
    refine (tryMapBody_near hf hc2 hr.1).bind fun r c3 hc3 h3 => ?_
    rw [← hm]
    cases r with
    | success a => exact ⟨hc3, fun c4 hp4 => by first | exact .recovered (by have := h3.1; omega) | exact .success (by have := h3.1; omega)⟩
    | recovered a es => exact ⟨hc3, fun c4 hp4 => .recovered (by have := h3.1; omega)⟩
    | failed x es => exact ⟨hc3, fun c4 hp4 => .failed (h3.2 x es rfl).1 (by have := (h3.2 x es rfl).2; omega)⟩
  | failed x es => exact ⟨hc2, fun c3 hp3 => .failed (by have := (hr.2 x es rfl).1; omega) (by have := (hr.2 x es rfl).2; omega)⟩

/-- What the rest of a sequence returns. -/
theorem finishRec_near {en : Bool} {o : α} {r : Option (List E)} {c : Cursor} {i : Nat} (hc : c.hi ≤ B)
    (hp : c.pos ≤ i + w) : (finishRec (S := S) en o r).Near e B (PostC w i) c := by
  unfold finishRec
  split
  · split
    · exact ⟨hc, .recovered hp⟩
    · exact hc
  · exact ⟨hc, .success hp⟩

theorem concatLast_near {p : Parser S E β} (h : Close e p w1) {en : Bool} {m : SavedState} {f : β → γ}
    {r : Option (List E)} {c : Cursor} (hc : c.hi ≤ B) (hp : c.pos + w1 ≤ m.index + w) (hB : m.index + w ≤ B) :
    (concatLast en m f p r).Near e B (PostC w m.index) c := by
  refine (h en c B hc (by omega)).bind fun x c1 hc1 h1 => ?_
  cases x with
  | success b => exact finishRec_near hc1 (by have := h1.1; omega)
  | recovered b es => exact finishRec_near hc1 (by have := h1.1; omega)
  | failed i es =>
    have := (h1.2 i es rfl).1
    exact Near.restore hc1 fun c2 hc2 hp2 => ⟨hc2, .failed (by omega) hp2⟩

theorem concatMid_near {p : Parser S E β} {q : Parser S E γ} (h : Close e p w1) (h' : Close e q w2) {en : Bool}
    {m : SavedState} {f : β × γ → δ} {r : Option (List E)} {c : Cursor} (hc : c.hi ≤ B)
    (hp : c.pos + w1 + w2 ≤ m.index + w) (hB : m.index + w ≤ B) :
    (concatMid en m f p q r).Near e B (PostC w m.index) c := by
  refine (h en c B hc (by omega)).bind fun x c1 hc1 h1 => ?_
  cases x with
  | success b => exact concatLast_near h' hc1 (by have := h1.1; omega) hB
  | recovered b es => exact concatLast_near h' hc1 (by have := h1.1; omega) hB
  | failed i es =>
    have := (h1.2 i es rfl).1
    exact Near.restore hc1 fun c2 hc2 hp2 => ⟨hc2, .failed (by omega) hp2⟩

theorem Near.saved {body : SavedState → Prog S (Res α E)} {c : Cursor} (hc : c.hi ≤ B)
    (h : ∀ m c', m.index = c.pos → c'.hi ≤ B → c'.pos = c.pos → (body m).Near e B (PostC w m.index) c') :
    (Prog.withSave body).Near e B (PostC w c.pos) c :=
  Near.withSave hc fun m c1 hm hc1 hp1 => (h m c1 hm hc1 hp1).imp fun r c3 h3 c4 hp4 => by
    rw [← hm]; exact h3.cursor hp4

theorem concat2_close {p : Parser S E α} {q : Parser S E β} (h : Close e p w1) (h' : Close e q w2) {f : α × β → γ} :
    Close e (concat2 f p q) (w1 + w2) := by
  intro en c B hc hp
  refine Near.saved hc fun m c1 hm hc1 hp1 => (h en c1 B hc1 (by omega)).bind fun x c2 hc2 h2 => ?_
  cases x with
  | success b => exact concatLast_near h' hc2 (by have := h2.1; omega) (by omega)
  | recovered b es => exact concatLast_near h' hc2 (by have := h2.1; omega) (by omega)
  | failed i es => exact ⟨hc2, .failed (by have := (h2.2 i es rfl).1; omega) (by have := (h2.2 i es rfl).2; omega)⟩

theorem concat3_close {p : Parser S E α} {q : Parser S E β} {r : Parser S E γ} (h : Close e p w1) (h' : Close e q w2)
    (h'' : Close e r w3) {f : α × β × γ → δ} : Close e (concat3 f p q r) (w1 + w2 + w3) := by
  intro en c B hc hp
  refine Near.saved hc fun m c1 hm hc1 hp1 => (h en c1 B hc1 (by omega)).bind fun x c2 hc2 h2 => ?_
  cases x with
  | success b => exact concatMid_near h' h'' hc2 (by have := h2.1; omega) (by omega)
  | recovered b es => exact concatMid_near h' h'' hc2 (by have := h2.1; omega) (by omega)
  | failed i es => exact ⟨hc2, .failed (by have := (h2.2 i es rfl).1; omega) (by have := (h2.2 i es rfl).2; omega)⟩

/-- Parsers one after the other. -/
inductive CloseL (e : Env S) : List (Parser S E α) → Nat → Prop
  | nil : CloseL e [] 0
  | cons {p : Parser S E α} {ps : List (Parser S E α)} {w w' : Nat} : Close e p w → CloseL e ps w' → CloseL e (p :: ps) (w + w')

theorem concatRest_near {en : Bool} {m : SavedState} : ∀ {ps : List (Parser S E α)} {w' : Nat}, CloseL e ps w' →
    ∀ {out : List α} {r : Option (List E)} {c : Cursor}, c.hi ≤ B → c.pos + w' ≤ m.index + w → m.index + w ≤ B →
      (concatRest en m ps out r).Near e B (PostC w m.index) c
  | [], _, .nil, _, _, _, hc, hp, _ => finishRec_near hc (by omega)
  | p :: ps, _, .cons (w := v) (w' := v') h hs, out, r, c, hc, hp, hB => by
    unfold concatRest
    refine (h en c B hc (by omega)).bind fun x c1 hc1 h1 => ?_
    cases x with
    | success b => exact concatRest_near hs hc1 (by have := h1.1; omega) hB
    | recovered b es => exact concatRest_near hs hc1 (by have := h1.1; omega) hB
    | failed i es =>
      have := (h1.2 i es rfl).1
      exact Near.restore hc1 fun c2 hc2 hp2 => ⟨hc2, .failed (by omega) hp2⟩

theorem concatList_close {ps : List (Parser S E α)} (h : CloseL e ps w) : Close e (concatList ps) w := by
  intro en c B hc hp
  refine Near.saved hc fun m c1 hm hc1 hp1 => ?_
  cases h with
  | nil => exact finishRec_near hc1 (by omega)
  | cons h hs =>
    refine (h en c1 B hc1 (by omega)).bind fun x c2 hc2 h2 => ?_
    cases x with
    | success b => exact concatRest_near hs hc2 (by have := h2.1; omega) (by omega)
    | recovered b es => exact concatRest_near hs hc2 (by have := h2.1; omega) (by omega)
    | failed i es => exact ⟨hc2, .failed (by have := (h2.2 i es rfl).1; omega) (by have := (h2.2 i es rfl).2; omega)⟩

/-! ## Choice -/

theorem altFirst_near {i : Nat} (hB : i + w ≤ B) : ∀ {ps : List (Parser S E α)} {fs : List (Failure S E α)},
    (∀ p ∈ ps, Close e p w) → (∀ f ∈ fs, f.1 ≤ i + w ∧ Close e f.2.2 w) → ∀ {c : Cursor}, c.hi ≤ B → c.pos = i →
    (altFirst ps fs).Near e B (fun x c' => match x with
      | .inl _ => c'.pos ≤ i + w
      | .inr fs => c'.pos = i ∧ ∀ f ∈ fs, f.1 ≤ i + w ∧ Close e f.2.2 w) c
  | [], fs, _, hf, c, hc, hp => ⟨hc, hp, hf⟩
  | p :: ps, fs, hps, hf, c, hc, hp => by
    unfold altFirst
    refine (hps p (by simp) false c B hc (by omega)).bind fun x c1 hc1 h1 => ?_
    cases x with
    | success o => exact ⟨hc1, by have := h1.1; simp only; omega⟩
    | recovered o es => exact hc1
    | failed j es =>
      obtain ⟨g1, g2⟩ := h1.2 j es rfl
      refine altFirst_near hB (fun q hq => hps q (by simp [hq])) (fun f hf' => ?_) hc1 (by omega)
      rcases List.mem_append.1 hf' with h | h
      · exact hf f h
      · simp at h; subst h; exact ⟨by simp only; omega, hps p (by simp)⟩

theorem altRecover_near {i : Nat} (hB : i + w ≤ B) : ∀ {fs : List (Failure S E α)},
    (∀ f ∈ fs, f.1 ≤ i + w ∧ Close e f.2.2 w) → ∀ {c : Cursor}, c.hi ≤ B → c.pos = i →
    (altRecover fs).Near e B (fun x c' => match x with
      | none => c'.pos = i
      | some r => PostC w i r c') c
  | [], _, _, hc, hp => ⟨hc, hp⟩
  | (j, es, p) :: fs, hf, c, hc, hp => by
    unfold altRecover
    refine ((hf (j, es, p) (by simp)).2 true c B hc (by omega)).bind fun x c1 hc1 h1 => ?_
    rw [hp] at h1
    cases x with
    | success o => exact hc1
    | recovered o es => exact ⟨hc1, h1⟩
    | failed j es => exact altRecover_near hB (fun f h => hf f (by simp [h])) hc1 (h1.2 j es rfl).2

theorem altCombine_near {ε : ErrTy S} {i : Nat} {fs : List (Failure S ε.E α)} (hf : ∀ f ∈ fs, f.1 ≤ i + w) {c : Cursor}
    (hc : c.hi ≤ B) (hp : c.pos = i) : (altCombine ε fs).Near e B (PostC w i) c := by
  have h1 : ∀ fs : List (Failure S ε.E α), (∀ f ∈ fs, f.1 ≤ i + w) → (altElse ε fs).Near e B (PostC w i) c := by
    intro fs hf; unfold altElse; split
    · rename_i j es p rest
      exact ⟨hc, .failed (hf (j, es, p) (by simp)) hp⟩
    · exact hc
  unfold altCombine
  split
  · exact hc
  · rename_i j es p rest
    have h2 := hf (j, es, p) (by simp)
    split
    · split
      · exact ⟨hc, .failed h2 hp⟩
      · exact h1 _ fun f h => hf f (by simp [h])
    · exact h1 _ fun f h => hf f (by simp [h])

theorem alternate_close {ε : ErrTy S} {ps : List (Parser S ε.E α)} (h : ∀ p ∈ ps, Close e p w) :
    Close e (alternate ε ps) w := by
  intro en c B hc hp
  refine (altFirst_near hp h (by simp) hc rfl).bind fun x c1 hc1 h1 => ?_
  cases x with
  | inl o => exact ⟨hc1, .success h1⟩
  | inr fs =>
    obtain ⟨h1, h2⟩ := h1
    simp only
    split
    · exact hc1
    · have h3 : ∀ f ∈ sortDesc fs, f.1 ≤ c.pos + w ∧ Close e f.2.2 w := fun f hf => h2 f (sortDesc_mem' hf)
      split
      · refine (altRecover_near hp h3 hc1 h1).bind fun x c2 hc2 h4 => ?_
        cases x with
        | none => exact altCombine_near (fun f hf => (h3 f hf).1) hc2 h4
        | some r => exact ⟨hc2, h4⟩
      · exact altCombine_near (fun f hf => (h3 f hf).1) hc1 h1

/-! ## Repetition -/

theorem dropOpt_near {m : Option SavedState} {post : α → Cursor → Prop} {k : Unit → Prog S α} {c : Cursor}
    (hc : c.hi ≤ B) (hk : ∀ c', c'.hi ≤ B → c'.pos = c.pos → (k ()).Near e B post c') :
    ((dropOpt (S := S) m).bind k).Near e B post c := by
  cases m with
  | none => exact hk c hc rfl
  | some m => exact Near.drop hc hk

theorem repeatItem_near {cfg : RepCfg} {item : Parser S E α} (hi : Close e item w1) {en : Bool} {m0 : SavedState}
    {again : List α → Option (List E) → Prog S (Res (List α) E)} {out : List α} {r : Option (List E)}
    {before : Option SavedState} {c : Cursor} (hc : c.hi ≤ B) (hB : m0.index + w ≤ B)
    (hbef : ∀ m, before = some m → m.index ≤ m0.index + w) (hpos : c.pos ≤ m0.index + w)
    (hrun : ¬(cfg.allowTrailing && cfg.atMax out.length) = true → c.pos + w1 ≤ m0.index + w ∧
      ∀ b r c', c'.hi ≤ B → c'.pos ≤ c.pos + w1 → (again (out ++ [b]) r).Near e B (PostC w m0.index) c') :
    (repeatItem cfg item en m0 again out r before).Near e B (PostC w m0.index) c := by
  unfold repeatItem
  simp only [Prog.bind_eq]
  split
  · exact dropOpt_near hc fun c1 hc1 hp1 => finishRec_near hc1 (by omega)
  · rename_i hmax
    obtain ⟨h1, h2⟩ := hrun hmax
    refine (hi _ c B hc (by omega)).bind fun x c1 hc1 h3 => ?_
    cases x with
    | success b => exact dropOpt_near hc1 fun c2 hc2 hp2 => h2 _ _ _ hc2 (by have := h3.1; omega)
    | recovered b es => exact dropOpt_near hc1 fun c2 hc2 hp2 => h2 _ _ _ hc2 (by have := h3.1; omega)
    | failed i es =>
      obtain ⟨g1, g2⟩ := h3.2 i es rfl
      simp only
      split
      · cases before with
        | none => exact ⟨hc1, .success (by omega)⟩
        | some m =>
          have := hbef m rfl
          simp only
          split
          · exact Near.restore hc1 fun c2 hc2 hp2 => Near.drop hc2 fun c3 hc3 hp3 => ⟨hc3, .success (by omega)⟩
          · exact Near.drop hc1 fun c3 hc3 hp3 => ⟨hc3, .success (by omega)⟩
      · refine Near.restore hc1 fun c2 hc2 hp2 => dropOpt_near hc2 fun c3 hc3 hp3 => ?_
        exact ⟨hc3, .failed (by omega) (by omega)⟩

theorem RepCfg.atMax_some {cfg : RepCfg} {M n : Nat} (h : cfg.maximum = some M) : cfg.atMax n = decide (M ≤ n) := by
  simp [RepCfg.atMax, h]

theorem repeatLoop_near {cfg : RepCfg} {M : Nat} (hM : cfg.maximum = some M) {item : Parser S E α}
    (hi : Close e item w1) {sep : Option (Parser S E β)} (hs : ∀ s, sep = some s → Close e s w2) {en : Bool}
    {m0 : SavedState} (hB : m0.index + w ≤ B) : ∀ {fuel : Nat} {out : List α} {r : Option (List E)} {c : Cursor},
      c.hi ≤ B → out.length ≤ M → c.pos + (M + 1 - out.length) * (w2 + w1) ≤ m0.index + w →
      (repeatLoop cfg item sep en m0 fuel out r).Near e B (PostC w m0.index) c
  | 0, _, _, _, hc, _, _ => hc
  | fuel + 1, out, r, c, hc, hl, hp => by
    have hsplit : (M + 1 - out.length) * (w2 + w1) = (M - out.length) * (w2 + w1) + (w2 + w1) := by
      rw [show M + 1 - out.length = M - out.length + 1 by omega, Nat.add_mul, Nat.one_mul]
    have h0 : 0 ≤ (M - out.length) * (w2 + w1) := Nat.zero_le _
    unfold repeatLoop
    split
    · exact finishRec_near hc (by omega)
    · rename_i hmax
      -- the item from a position at most one separator on
      have hitem : ∀ {c1 : Cursor} {r : Option (List E)} {before : Option SavedState}, c1.hi ≤ B →
          c1.pos ≤ c.pos + w2 → (∀ m, before = some m → m.index = c.pos) →
          (repeatItem cfg item en m0 (repeatLoop cfg item sep en m0 fuel) out r before).Near e B (PostC w m0.index) c1 := by
        intro c1 r before hc1 hp1 hb
        refine repeatItem_near hi hc1 hB (fun m hm => by rw [hb m hm]; omega) (by omega) fun hm => ⟨by omega, ?_⟩
        intro b r' c2 hc2 hp2
        have hlt : out.length < M := by
          rw [RepCfg.atMax_some hM] at hm hmax
          cases ht : cfg.allowTrailing <;> simp [ht] at hm hmax <;> omega
        refine repeatLoop_near hM hi hs hB hc2 (by simp; omega) ?_
        rw [List.length_append, List.length_singleton, show M + 1 - (out.length + 1) = M - out.length by omega]
        omega
      split
      · rename_i sep' _
        have hsep := hs _ rfl
        prog
        refine Near.save hc fun m c1 hm hc1 hp1 => ?_
        refine (hsep _ c1 B hc1 (by omega)).bind fun x c2 hc2 h2 => ?_
        have hb : ∀ m', some m = some m' → m'.index = c.pos := by rintro _ ⟨⟩; omega
        cases x with
        | success b => exact hitem hc2 (by have := h2.1; omega) hb
        | recovered b es => exact hitem hc2 (by have := h2.1; omega) hb
        | failed i es =>
          obtain ⟨g1, g2⟩ := h2.2 i es rfl
          simp only
          split
          · exact hitem hc2 (by omega) hb
          · split
            · exact Near.drop hc2 fun c3 hc3 hp3 => ⟨hc3, .success (by omega)⟩
            · exact Near.restore hc2 fun c3 hc3 hp3 => Near.drop hc3 fun c4 hc4 hp4 =>
                ⟨hc4, .failed (by omega) (by omega)⟩
      · exact hitem hc (by omega) (by rintro _ ⟨⟩)

theorem repeatP_close {n : Nat} {cfg : RepCfg} {M : Nat} (hM : cfg.maximum = some M) {item : Parser S E α}
    (hi : Close e item w1) {sep : Option (Parser S E β)} (hs : ∀ s, sep = some s → Close e s w2) :
    Close e (repeatP n cfg item sep) ((M + 1) * (w2 + w1)) := by
  intro en c B hc hp
  refine Near.saved hc fun m c1 hm hc1 hp1 => ?_
  exact repeatLoop_near hM hi hs (by omega) hc1 (Nat.zero_le _) (by simp; omega)

theorem pRepeated_close {n : Nat} {cfg : RepCfg} {M : Nat} (hM : cfg.maximum = some M) {item : Parser S E α}
    (hi : Close e item w1) : Close e (pRepeated n cfg item) ((M + 1) * w1) := by
  have h := repeatP_close (n := n) hM hi (w2 := 0) (sep := (none : Option (Parser S E α))) (by rintro _ ⟨⟩)
  rw [Nat.zero_add] at h
  exact h

/-! ## Strategies -/

/-- A strategy that goes at most `w` tokens further than the position, `started` and `failed`, which are at most `U`. -/
def CloseS (e : Env S) (s : Strat S E α) (wp w : Nat) : Prop :=
  ∀ p : Parser S E α, Close e p wp → ∀ (st fa : SavedState) es (c : Cursor) U B, c.hi ≤ B → c.pos ≤ U → st.index ≤ U →
    fa.index ≤ U → U + w ≤ B →
      (s p st fa es).Near e B (fun r c' => c'.pos ≤ U + w ∧ r.2.1.index ≤ U + w) c

variable {wp : Nat}

theorem CloseS.orElse {s t : Strat S E α} (h : CloseS e s wp w) (h' : CloseS e t wp w1) :
    CloseS e (s.orElse t) wp (w + w1) := by
  intro p hp st fa es c U B hc hU hst hfa hB
  refine (h p hp st fa es c U B hc hU hst hfa (by omega)).bind fun x c1 hc1 h1 => ?_
  obtain ⟨o, fa', es'⟩ := x
  obtain ⟨h1, h2⟩ := h1
  simp only at h2
  cases o with
  | some o => exact ⟨hc1, by omega, by simp only; omega⟩
  | none =>
    refine (h' p hp st fa' es' c1 (U + w) B hc1 h1 (by omega) h2 (by omega)).imp fun r c2 h3 => ?_
    exact ⟨by have := h3.1; omega, by have := h3.2; omega⟩

/-- A strategy that does not depend on the parser. -/
theorem CloseS.of {s : Strat S E α} (h : ∀ p (st fa : SavedState) es (c : Cursor) U B, c.hi ≤ B → c.pos ≤ U → st.index ≤ U →
    fa.index ≤ U → U + w ≤ B →
      (s p st fa es).Near e B (fun r c' => c'.pos ≤ U + w ∧ r.2.1.index ≤ U + w) c) : CloseS e s wp w := fun p _ => h p

theorem runIn_near {p : Parser S E α} (hp : Close e p w) {ex si : Bool} {fa : SavedState} {es : List E} {c : Cursor}
    {U : Nat} (hc : c.hi ≤ B) (hU : c.pos ≤ U) (hfa : fa.index ≤ U) (hB : U + w ≤ B) :
    (runIn p ex si fa es).Near e B (fun r c' => c'.pos ≤ U + w ∧ r.2.1.index ≤ U + w) c := by
  refine (hp _ c B hc (by omega)).bind fun x c1 hc1 h1 => ?_
  cases x with
  | success o => exact ⟨hc1, by have := h1.1; omega, by simp only; omega⟩
  | recovered o es => exact ⟨hc1, by have := h1.1; omega, by simp only; omega⟩
  | failed i es =>
    obtain ⟨g1, g2⟩ := h1.2 i es rfl
    refine Near.saveAt hc1 fun m c2 hm hc2 hp2 => Near.drop hc2 fun c3 hc3 hp3 => ⟨hc3, by omega, ?_⟩
    simp only; omega

theorem pToRecover_close {p : Parser S E α} {s : Strat S E α} (hp : Close e p wp) (hs : CloseS e s wp w) :
    Close e (pToRecover p s) (wp + w) := by
  intro en c B hc hB
  refine (hp en c B hc (by omega)).bind fun x c1 hc1 h1 => ?_
  cases x with
  | success b => exact ⟨hc1, .success (by have := h1.1; omega)⟩
  | recovered b es => exact ⟨hc1, .recovered (by have := h1.1; omega)⟩
  | failed i es =>
    obtain ⟨g1, g2⟩ := h1.2 i es rfl
    cases en with
    | false => exact ⟨hc1, .failed (by omega) g2⟩
    | true =>
      simp only [Bool.not_true, Bool.false_eq_true, if_false]
      prog
      refine Near.save hc1 fun st c2 hst hc2 hp2 => Near.saveAt hc2 fun fa c3 hfa hc3 hp3 => ?_
      refine (hs p hp st fa es c3 (c.pos + wp) B hc3 (by omega) (by omega) (by omega) (by omega)).bind
        fun r c4 hc4 h4 => ?_
      obtain ⟨o, fa', es'⟩ := r
      obtain ⟨h4, -⟩ := h4
      cases o with
      | some o =>
        exact Near.drop hc4 fun c5 hc5 hp5 => Near.drop hc5 fun c6 hc6 hp6 => ⟨hc6, .recovered (by omega)⟩
      | none =>
        refine Near.restore hc4 fun c5 hc5 hp5 => Near.drop hc5 fun c6 hc6 hp6 => Near.drop hc6 fun c7 hc7 hp7 => ?_
        exact ⟨hc7, .failed (by omega) (by omega)⟩

end

/-! ## Grammars -/

section

variable {ρ : REnv S N} {n : Nat}

theorem tokenIs_near {p : S.I → Bool} {b : Bool} {c : Cursor} {B : Nat} (hc : c.hi ≤ B) (hp : c.pos + 1 ≤ B) :
    (tokenIs p b).Near e B (fun _ c' => c'.pos = c.pos) c :=
  Near.token hc hp fun _ _ hc1 hp1 => ⟨hc1, hp1⟩

theorem CloseS.orElse0 {E α : Type} {s t : Strat S E α} {w wp : Nat} (h : CloseS e s wp w) (h' : CloseS e t wp 0) :
    CloseS e (s.orElse t) wp w := h.orElse h'

/-- A strategy that stays where it is. -/
theorem CloseS.stay {E α : Type} {s : Strat S E α} {wp : Nat} (h : ∀ p (st fa : SavedState) es (c : Cursor) B, c.hi ≤ B →
    (s p st fa es).Near e B (fun r c' => c'.pos = c.pos ∧ r.2.1 = fa) c) : CloseS e s wp 0 :=
  .of fun p st fa es c U B hc hU hst hfa hB => (h p st fa es c B hc).imp fun r c' h' => by
    rw [h'.2]; exact ⟨by have := h'.1; omega, by omega⟩

/-- A strategy that looks at the current token and may advance. -/
theorem CloseS.look {E α : Type} {s : Strat S E α} {wp : Nat} (h : ∀ p (st fa : SavedState) es (c : Cursor) B, c.hi ≤ B →
    c.pos + 1 ≤ B → (s p st fa es).Near e B (fun r c' => c'.pos ≤ c.pos + 1 ∧ r.2.1 = fa) c) : CloseS e s wp 1 :=
  .of fun p st fa es c U B hc hU hst hfa hB => (h p st fa es c B hc (by omega)).imp fun r c' h' => by
    rw [h'.2]; exact ⟨by have := h'.1; omega, by omega⟩

mutual

theorem G.close : ∀ {ε : ErrTy S} {α : Type} (g : G S N ε α), g.All (finiteL S N) → Close e (g.denote ρ n) g.ahead
  | _, _, .empty, _ => fun _ _ _ hc _ => ⟨hc, .success (Nat.le_refl _)⟩
  | _, _, .none _, _ => fun _ _ _ hc _ => ⟨hc, .success (Nat.le_refl _)⟩
  | _, _, .eof, _ => pEnd_close
  | _, _, .just _, _ => pJust_close
  | _, _, .filter _, _ => pFilter_close
  | _, _, .filterMap _, _ => pFilterMap_close
  | _, _, .seq _ _, _ => pSeq_close
  | _, _, .oneOf _, _ => pOneOf_close
  | _, _, .noneOf _, _ => pNoneOf_close
  | _, _, .boxed g, hA => by
    simp only [G.denote, G.ahead]
    exact G.close g hA.2
  | _, _, .withError g, hA => by
    simp only [G.denote, G.ahead]
    exact G.close g hA.2
  | _, _, .to g _, hA => by
    simp only [G.denote, G.ahead]
    exact (G.close g hA.2).answer fun r x es h => by cases r <;> cases h; exact ⟨_, rfl⟩
  | _, _, .some g, hA => by
    simp only [G.denote, G.ahead]
    exact (G.close g hA.2).answer fun r x es h => by cases r <;> cases h; exact ⟨_, rfl⟩
  | _, _, .map _ g, hA => by
    simp only [G.denote, G.ahead]
    exact (G.close g hA.2).answer fun r x es h => by cases r <;> cases h; exact ⟨_, rfl⟩
  | _, _, .mapErr _ g, hA => by
    simp only [G.denote, G.ahead]
    exact (G.close g hA.2).answer fun r x es h => by cases r <;> cases h; exact ⟨_, rfl⟩
  | _, _, .mapWithSpan _ g, hA => by
    simp only [G.denote, G.ahead]
    exact pMapWithSpan_close (G.close g hA.2)
  | _, _, .mapErrWithSpan _ g, hA => by
    simp only [G.denote, G.ahead]
    exact pMapErrWithSpan_close (G.close g hA.2)
  | _, _, .tryMap _ g, hA => by
    simp only [G.denote, G.ahead]
    exact pTryMap_close (G.close g hA.2) hA.1
  | _, _, .then_ a b, hA => by
    simp only [G.denote, G.ahead]
    exact concat2_close (G.close a hA.2.1) (G.close b hA.2.2)
  | _, _, .thenIgnore a b, hA => by
    simp only [G.denote, G.ahead]
    exact concat2_close (G.close a hA.2.1) (G.close b hA.2.2)
  | _, _, .ignoreThen a b, hA => by
    simp only [G.denote, G.ahead]
    exact concat2_close (G.close a hA.2.1) (G.close b hA.2.2)
  | _, _, .delimitedBy l m x, hA => by
    simp only [G.denote, G.ahead]
    exact concat3_close (G.close l hA.2.1) (G.close m hA.2.2.1) (G.close x hA.2.2.2)
  | _, _, .paddedBy p m, hA => by
    simp only [G.denote, G.ahead]
    exact concat3_close (G.close p hA.2.1) (G.close m hA.2.2) (G.close p hA.2.1)
  | _, _, .chain gs, hA => by
    simp only [G.denote, G.ahead]
    exact concatList_close (GL.closeSum gs hA.2)
  | _, _, .or a b, hA => by
    simp only [G.denote, G.ahead]
    refine alternate_close fun p hp => ?_
    simp only [List.mem_cons, List.not_mem_nil, or_false] at hp
    rcases hp with rfl | rfl
    · exact (G.close a hA.2.1).le (Nat.le_max_left _ _)
    · exact (G.close b hA.2.2).le (Nat.le_max_right _ _)
  | _, _, .orNot g, hA => by
    simp only [G.denote, G.ahead]
    refine alternate_close fun p hp => ?_
    simp only [List.mem_cons, List.not_mem_nil, or_false] at hp
    rcases hp with rfl | rfl
    · exact (G.close g hA.2).answer fun r x es h => by cases r <;> cases h; exact ⟨_, rfl⟩
    · exact fun _ c _ hc _ => ⟨hc, .success (Nat.le_add_right _ _)⟩
  | _, _, .alters gs, hA => by
    simp only [G.denote, G.ahead]
    exact alternate_close (GL.closeMax gs hA.2)
  | _, _, .repeated c g, hA => by
    simp only [G.denote, G.ahead]
    cases hM : c.maximum with
    | none => exact (hA.1 hM).elim
    | some M =>
      exact pRepeated_close hM (G.close g hA.2)
  | _, _, .separatedBy c g s, hA => by
    simp only [G.denote, G.ahead]
    cases hM : c.maximum with
    | none => exact (hA.1 hM).elim
    | some M =>
      refine repeatP_close hM (G.close g hA.2.1) ?_
      rintro _ ⟨⟩
      exact G.close s hA.2.2
  | _, _, .toRecover g st, hA => by
    simp only [G.denote, G.ahead]
    exact pToRecover_close (G.close g hA.2.1) (CS.close st hA.2.2)
  | _, _, .call _, hA => hA.elim

theorem GL.closeSum : ∀ {ε : ErrTy S} {α : Type} (gs : GL S N ε α), gs.All (finiteL S N) →
    CloseL e (gs.denote ρ n) gs.aheadSum
  | _, _, .nil, _ => by
    simp only [GL.denote, GL.aheadSum]
    exact .nil
  | _, _, .cons g gs, hA => by
    simp only [GL.denote, GL.aheadSum]
    exact .cons (G.close g hA.1) (GL.closeSum gs hA.2)

theorem GL.closeMax : ∀ {ε : ErrTy S} {α : Type} (gs : GL S N ε α), gs.All (finiteL S N) →
    ∀ p ∈ gs.denote ρ n, Close e p gs.aheadMax
  | _, _, .nil, _, _, h => by simp [GL.denote] at h
  | _, _, .cons g gs, hA, p, h => by
    simp only [GL.denote, List.mem_cons] at h
    simp only [GL.aheadMax]
    rcases h with rfl | h
    · exact (G.close g hA.1).le (Nat.le_max_left _ _)
    · exact (GL.closeMax gs hA.2 p h).le (Nat.le_max_right _ _)

theorem IS.close {wp : Nat} : ∀ {ε : ErrTy S} {α : Type} (s : IS S N ε α), s.All (finiteL S N) →
    CloseS e (s.denote ρ n) wp (s.ahead wp)
  | _, _, .attemptTo, _ => .stay fun _ _ _ _ _ _ hc => ⟨hc, rfl, rfl⟩
  | _, _, .skipIf s _, hA => by
    simp only [IS.denote, IS.ahead]
    refine (IS.close s hA.2).orElse ?_
    refine CloseS.look fun _ _ _ _ c B hc hp => ?_
    refine (tokenIs_near hc hp).bind fun b c1 hc1 hp1 => ?_
    cases b
    · exact ⟨hc1, by omega, rfl⟩
    · refine Near.advance hc1 (by omega) fun b c2 hc2 hp2 => ?_
      exact ⟨hc2, by omega, rfl⟩
  | _, _, .pushError s _, hA => by
    simp only [IS.denote, IS.ahead]
    refine (IS.close s hA.2).orElse0 ?_
    exact CloseS.stay fun _ _ _ _ _ _ hc => ⟨hc, rfl, rfl⟩
  | _, _, .pushErrorHere s _, hA => by
    simp only [IS.denote, IS.ahead]
    refine (IS.close s hA.2).orElse0 ?_
    exact CloseS.stay fun _ _ _ _ _ _ hc => Near.location hc fun _ => ⟨hc, rfl, rfl⟩
  | _, _, .pushErrorUpToHere s _, hA => by
    simp only [IS.denote, IS.ahead]
    refine (IS.close s hA.2).orElse0 ?_
    exact CloseS.stay fun _ _ _ _ _ _ hc => Near.spanningBackTo hc fun _ => ⟨hc, rfl, rfl⟩
  | _, _, .pushErrorForToken s _, hA => by
    simp only [IS.denote, IS.ahead]
    refine (IS.close s hA.2).orElse ?_
    refine CloseS.look fun _ _ _ _ c B hc hp => ?_
    refine Near.span hc hp fun t c1 hc1 hp1 => ?_
    refine Near.token hc1 (by omega) fun sp c2 hc2 hp2 => ?_
    exact ⟨hc2, by omega, rfl⟩
  | _, _, .updateErrors s _, hA => by
    simp only [IS.denote, IS.ahead]
    refine (IS.close s hA.2).orElse0 ?_
    exact CloseS.stay fun _ _ _ _ _ _ hc => ⟨hc, rfl, rfl⟩
  | _, _, .updateErrorsHere s _, hA => by
    simp only [IS.denote, IS.ahead]
    refine (IS.close s hA.2).orElse0 ?_
    exact CloseS.stay fun _ _ _ _ _ _ hc => Near.location hc fun _ => ⟨hc, rfl, rfl⟩
  | _, _, .updateErrorsUpToHere s _, hA => by
    simp only [IS.denote, IS.ahead]
    refine (IS.close s hA.2).orElse0 ?_
    exact CloseS.stay fun _ _ _ _ _ _ hc => Near.spanningBackTo hc fun _ => ⟨hc, rfl, rfl⟩
  | _, _, .updateErrorsForToken s _, hA => by
    simp only [IS.denote, IS.ahead]
    refine (IS.close s hA.2).orElse ?_
    refine CloseS.look fun _ _ _ _ c B hc hp => ?_
    refine Near.span hc hp fun t c1 hc1 hp1 => ?_
    refine Near.token hc1 (by omega) fun sp c2 hc2 hp2 => ?_
    exact ⟨hc2, by omega, rfl⟩
  | _, _, .restart s, hA => by
    simp only [IS.denote, IS.ahead]
    refine (IS.close s hA.2).orElse0 ?_
    refine CloseS.of fun _ st fa es c U B hc hU hst hfa hB => ?_
    exact Near.restore hc fun c1 hc1 hp1 => ⟨hc1, by omega, hfa⟩
  | _, _, .seekToFailed s, hA => by
    simp only [IS.denote, IS.ahead]
    refine (IS.close s hA.2).orElse0 ?_
    refine CloseS.of fun _ st fa es c U B hc hU hst hfa hB => ?_
    exact Near.restore hc fun c1 hc1 hp1 => ⟨hc1, by omega, hfa⟩
  | _, _, .skip s, hA => by
    simp only [IS.denote, IS.ahead]
    refine (IS.close s hA.2).orElse ?_
    refine CloseS.look fun _ _ _ _ c B hc hp => ?_
    exact Near.advance hc hp fun b c2 hc2 hp2 => ⟨hc2, by omega, rfl⟩
  | _, _, .boxed s, hA => by
    simp only [IS.denote, IS.ahead]
    exact IS.close s hA.2
  | _, _, .find s _, hA => hA.1.elim
  | _, _, .scan s _, hA => hA.1.elim
  | _, _, .maybe s t, hA => by
    simp only [IS.denote, IS.ahead]
    refine (IS.close s hA.2.1).orElse fun p hp st fa es c U B hc hU hst hfa hB => ?_
    refine Near.attempt hc fun c1 hc1 hp1 => ?_
    refine (IS.close t hA.2.2 p hp st fa es c1 U B hc1 (by omega) hst hfa hB).bind fun x c2 hc2 h2 => ?_
    refine ⟨hc2, ?_⟩
    simp only
    split
    · exact fun c3 hp3 => ⟨by have := h2.1; omega, h2.2⟩
    · exact fun c3 hp3 => ⟨by omega, h2.2⟩
  | _, _, .whileNot s _ t, hA => hA.1.elim
  | _, _, .retry s _ _, hA => by
    simp only [IS.denote, IS.ahead]
    refine (IS.close s hA.2).orElse fun p hp st fa es c U B hc hU hst hfa hB => ?_
    exact runIn_near hp hc hU hfa hB
  | _, _, .tryToParse s g _ _, hA => by
    simp only [IS.denote, IS.ahead]
    refine (IS.close s hA.2.1).orElse (.of fun p st fa es c U B hc hU hst hfa hB => ?_)
    exact runIn_near (G.close g hA.2.2) hc hU hfa hB

theorem CS.close {wp : Nat} : ∀ {ε : ErrTy S} {α : Type} (s : CS S N ε α), s.All (finiteL S N) →
    CloseS e (s.denote ρ n) wp (s.ahead wp)
  | _, _, .ret s _, hA => by
    simp only [CS.denote, CS.ahead]
    refine (IS.close s hA).orElse0 ?_
    exact CloseS.stay fun _ _ _ _ _ _ hc => ⟨hc, rfl, rfl⟩
  | _, _, .retWith s _, hA => by
    simp only [CS.denote, CS.ahead]
    refine (IS.close s hA).orElse0 ?_
    exact CloseS.stay fun _ _ _ _ _ _ hc => ⟨hc, rfl, rfl⟩
  | _, _, .retWithSpan s _, hA => by
    simp only [CS.denote, CS.ahead]
    refine (IS.close s hA).orElse0 ?_
    exact CloseS.stay fun _ _ _ _ _ _ hc => Near.spanningBackTo hc fun _ => ⟨hc, rfl, rfl⟩
  | _, _, .orFail s, hA => by
    simp only [CS.denote, CS.ahead]
    exact IS.close s hA

end

end

/-! ## Streaming -/

theorem Prog.Near.through {α : Type} {B : Nat} {post : α → Cursor → Prop} : ∀ (p : Prog S α) {st : Nat} {s : Stream S}
    {c : Cursor}, Sim e st s c → p.run (Cursor.step e) c ≠ .stuck → p.Near e B post c →
      p.Through (fun s => s.pulled ≤ B) s
  | .ret _, _, _, _, h, _, hw => by rw [Prog.Through, h.pulled]; exact hw.1
  | .panic _, _, _, _, h, _, hw => by rw [Prog.Through, h.pulled]; exact hw
  | .oof, _, _, _, h, _, hw => by rw [Prog.Through, h.pulled]; exact hw
  | .op o f, st, s, c, h, hn, hw => by
    refine ⟨by simp only [h.pulled]; exact hw.1, fun r s' hs => ?_⟩
    have h1 := h.step o
    simp only [Prog.run] at hn
    cases hc : Cursor.step e o c with
    | ok y =>
      rw [hc] at h1 hn
      obtain ⟨st', s'', h2, h3⟩ := h1
      rw [hs] at h2
      cases h2
      exact Prog.Near.through _ h3 hn (hw.2 y.1 y.2 hc)
    | panic m => rw [hc, hs] at h1; cases h1
    | oof => rw [hc, hs] at h1; cases h1
    | stuck => rw [hc] at hn; exact (hn rfl).elim

theorem From.run {α : Type} {i : Nat} : ∀ (p : Prog S α) {c c' : Cursor} {x : α}, From i c →
    p.run (Cursor.step e) c = .ok (x, c') → From i c'
  | .ret _, _, _, _, h, hr => by cases hr; exact h
  | .panic _, _, _, _, _, hr => by cases hr
  | .oof, _, _, _, _, hr => by cases hr
  | .op o k, c, c', x, h, hr => by
    simp only [Prog.run] at hr
    cases hc : Cursor.step e o c with
    | ok y => rw [hc] at hr; exact From.run (k y.1) (h.step hc) hr
    | panic m => rw [hc] at hr; cases hr
    | oof => rw [hc] at hr; cases hr
    | stuck => rw [hc] at hr; cases hr

theorem streamNext_near {E α : Type} {p : Parser S E α} {w W : Nat} (h : Close e p w) (hw : w ≤ W) (h1 : 1 ≤ W) {c : Cursor}
    (hc : c.hi ≤ c.pos + W) : (streamNext p).Near e (c.pos + W) (fun _ _ => True) c := by
  refine Near.token hc (by omega) fun t c1 hc1 hp1 => ?_
  cases t with
  | none => exact ⟨hc1, trivial⟩
  | some t => exact (h true c1 _ hc1 (by omega)).bind fun r c2 hc2 _ => ⟨hc2, trivial⟩

theorem streamNext_looksAhead {D : Defs S N} {n : Nat} {ε : ErrTy S} {α : Type} {g : G S N ε α} {W : Nat}
    (h : ∀ e : Env S, Close e (g.prog D n) W) (h1 : 1 ≤ W) : ∀ {k : Nat} {s : Stream S}, Reach al e s →
      (∀ m, s.live m = false) → s.pulled ≤ s.index + W → LooksAhead W (streamNext (g.prog D n)) k s
  | 0, _, _, _, _ => trivial
  | k + 1, s, hr, hno, hp => by
    obtain ⟨st, c, hsim⟩ := hr.sim
    have hc : c.hi ≤ c.pos + W := by rw [← hsim.pulled, ← hsim.pos]; exact hp
    have hn := (Tidy.streamNext (g := g) (D := D) (n := n) c hsim.wf).1
    have h2 := (streamNext_near (h e) (Nat.le_refl _) h1 hc).through _ hsim hn
    rw [← hsim.pos] at h2
    refine ⟨h2, fun x s' hs => ?_⟩
    have hno' : ∀ m, s'.live m = false := by rw [Tidy.streamNext.live hr hs]; exact hno
    cases hq : (streamNext (g.prog D n)).run (Cursor.step e) c with
    | ok y =>
      obtain ⟨x', c'⟩ := y
      obtain ⟨st', s'', h3, h4, h5⟩ := Reach.run _ hr hsim hq
      rw [hs] at h3
      cases h3
      refine streamNext_looksAhead h h1 h5 hno' ?_
      have h6 : From c.pos c' := From.run _ ⟨Nat.le_refl _, fun m hm => by rw [← hsim.live, hno] at hm; cases hm⟩ hq
      have h7 : s'.pulled ≤ s.index + W := h2.last hs
      have := h6.1; have := hsim.pos; have := h4.pos
      omega
    | panic m => have h3 := hsim.run (streamNext (g.prog D n)); rw [hq, hs] at h3; cases h3
    | oof => have h3 := hsim.run (streamNext (g.prog D n)); rw [hq, hs] at h3; cases h3
    | stuck => exact (hn hq).elim

end PPC
