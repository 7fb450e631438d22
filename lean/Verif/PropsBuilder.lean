import Verif.Builder
import Verif.Chars
import Verif.PropsRepeat
import Verif.PropsRecovery

/-!
# Chains of method calls: C42

What the parsers built by the functions and methods of `Verif.Builder` do.
-/

namespace PPC

variable {S : Sig} {N : Names S} {e : Env S} {D : Defs S N} {n : Nat} {en : Bool} {ε : ErrTy S}
  {α β : Type} {a b g item : G S N ε α} {cs : List (G S N ε α)} {i j x : Nat} {o : α} {os : List α}
  {es : List ε.E} {rec : Bool}

/-! ## Specification -/

/-- The first parser of the list that does not fail at `i` succeeds, with output `o`, and ends at
`j`. -/
def FirstWins (e : Env S) (D : Defs S N) (n : Nat) (gs : List (G S N ε α)) (i : Nat) (o : α) (j : Nat) :
    Prop :=
  ∃ before g after, gs = before ++ g :: after ∧ (∀ g' ∈ before, FailsAt e D n g' false i) ∧
    ParsesAt e D n g false i (.success o) j

/-- A method call that configures a repetition. -/
inductive RepCall (S : Sig) (N : Names S) (ε : ErrTy S) (β : Type) : Type 1 where
  | atLeast (n : Nat)
  | atMost (n : Nat)
  | exactly (n : Nat)
  | withSeparator (sep : G S N ε β)
  | allowLeading
  | allowTrailing

/-- Make the calls, in order. -/
def SepBy.calls : SepBy S N ε α β → List (RepCall S N ε β) → SepBy S N ε α β
  | c, [] => c
  | c, .atLeast n :: rest => (c.atLeast n).calls rest
  | c, .atMost n :: rest => (c.atMost n).calls rest
  | c, .exactly n :: rest => (c.exactly n).calls rest
  | c, .withSeparator s :: rest => (c.withSeparator s).calls rest
  | c, .allowLeading :: rest => c.leading.calls rest
  | c, .allowTrailing :: rest => c.trailing.calls rest

/-- The argument of the last call that `f` selects. -/
def lastOf {γ δ : Type _} (f : γ → Option δ) (cs : List γ) : Option δ := (cs.filterMap f).getLast?

namespace RepCall

/-- The minimum set by a call. -/
def min? : RepCall S N ε β → Option Nat
  | .atLeast n => some n
  | .exactly n => some n
  | _ => none

/-- The maximum set by a call. -/
def max? : RepCall S N ε β → Option Nat
  | .atMost n => some n
  | .exactly n => some n
  | _ => none

/-- The separator set by a call. -/
def sep? : RepCall S N ε β → Option (G S N ε β)
  | .withSeparator s => some s
  | _ => none

/-- Is it `allow_leading()`? -/
def isLeading : RepCall S N ε β → Bool
  | .allowLeading => true
  | _ => false

/-- Is it `allow_trailing()`? -/
def isTrailing : RepCall S N ε β → Bool
  | .allowTrailing => true
  | _ => false

/-- The configuration asked for: the last minimum and maximum, and whether the calls contain
`allow_leading()` and `allow_trailing()`. -/
def config (cs : List (RepCall S N ε β)) : RepCfg :=
  ⟨(lastOf min? cs).getD 0, lastOf max? cs, cs.any isLeading, cs.any isTrailing⟩

end RepCall

/-- A method call that configures `retry()` or `try_to_parse()`. -/
inductive RetryCall where
  | exactly
  | silently
  | exactlyAndSilently
  deriving DecidableEq

/-- Make the calls, in order. -/
def Retry.calls : Retry S N ε α → List RetryCall → Retry S N ε α
  | r, [] => r
  | r, .exactly :: rest => r.exactly.calls rest
  | r, .silently :: rest => r.silently.calls rest
  | r, .exactlyAndSilently :: rest => r.exactlyAndSilently.calls rest

/-- Do the calls ask for `exactly`? -/
def RetryCall.exact (cs : List RetryCall) : Bool := cs.any fun c => c != .silently

/-- Do the calls ask for `silently`? -/
def RetryCall.silent (cs : List RetryCall) : Bool := cs.any fun c => c != .exactly

/-! ## Auxiliary lemmas -/

theorem GL.push_toList (g : G S N ε α) : (gs : GL S N ε α) → (gs.push g).toList = gs.toList ++ [g]
  | .nil => rfl
  | .cons h hs => by
    have := GL.push_toList g hs
    simp only [GL.push, GL.toList, this, List.cons_append]

theorem chain_parsers (cs : List (G S N ε α)) : ∀ c : Chain S N ε α,
    (cs.foldl Chain.and c).parsers.toList = c.parsers.toList ++ cs.map .boxed := by
  induction cs with
  | nil => intro c; simp
  | cons g cs ih =>
    intro c
    rw [List.foldl_cons, ih, Chain.and, GL.push_toList]
    simp

theorem alters_parsers (cs : List (G S N ε α)) : ∀ c : Alters S N ε α,
    (cs.foldl Alters.and c).parsers.toList = c.parsers.toList ++ cs.map .boxed := by
  induction cs with
  | nil => intro c; simp
  | cons g cs ih =>
    intro c
    rw [List.foldl_cons, ih, Alters.and, GL.push_toList]
    simp

theorem map_boxed_sem (gs : List (G S N ε α)) :
    ((gs.map G.boxed).map fun g => g.sem e D n) = gs.map fun g => g.sem e D n := by
  rw [List.map_map]
  rfl

theorem lastOf_cons {γ δ : Type _} {f : γ → Option δ} {c : γ} {cs : List γ} :
    lastOf f (c :: cs) = (lastOf f cs).or (f c) := by
  unfold lastOf
  rw [List.filterMap_cons]
  cases hf : f c with
  | none => simp
  | some d =>
    simp only [List.getLast?_cons]
    cases (List.filterMap f cs).getLast? <;> rfl

theorem calls_eq (cs : List (RepCall S N ε β)) : ∀ c : SepBy S N ε α β, c.calls cs =
    ⟨(lastOf RepCall.min? cs).getD c.minimum, (lastOf RepCall.max? cs).or c.maximum, c.item,
      (lastOf RepCall.sep? cs).or c.separator, c.allowLeading || cs.any RepCall.isLeading,
      c.allowTrailing || cs.any RepCall.isTrailing⟩ := by
  induction cs with
  | nil => intro c; simp [SepBy.calls, lastOf]
  | cons d cs ih =>
    intro c
    cases d <;> simp [SepBy.calls, ih, lastOf_cons, RepCall.min?, RepCall.max?, RepCall.sep?,
      RepCall.isLeading, RepCall.isTrailing, SepBy.atLeast, SepBy.atMost, SepBy.exactly,
      SepBy.withSeparator, SepBy.leading, SepBy.trailing]

theorem retry_calls_eq (cs : List RetryCall) : ∀ r : Retry S N ε α, r.calls cs =
    ⟨r.child, r.other, r.exact || RetryCall.exact cs, r.silent || RetryCall.silent cs⟩ := by
  induction cs with
  | nil => intro r; simp [Retry.calls, RetryCall.exact, RetryCall.silent]
  | cons d cs ih =>
    intro r
    cases d <;> simp [Retry.calls, ih, RetryCall.exact, RetryCall.silent, Retry.exactly, Retry.silently,
      Retry.exactlyAndSilently]

/-! ## Theorems -/

/-- C42: `a.chain(b).and(c₁)...and(cₖ)` returns outputs exactly when `a`, `b`, `c₁`, ..., `cₖ` do, one
after the other; the outputs are in the order in which the parsers were written. -/
theorem C42_chain_gives (hi : Valid e i) :
    Gives e D n (cs.foldl Chain.and (a.chainWith b)).parser en i os es rec j ↔
      GivesAll e D n en (a :: b :: cs) i os es rec j := by
  rw [Chain.parser, C20_chain_gives hi, chain_parsers, givesAll_iff hi, givesAll_iff hi]
  rw [show (a.chainWith b).parsers.toList ++ cs.map .boxed = (a :: b :: cs).map G.boxed from rfl,
    map_boxed_sem]

/-- C42: and it fails exactly when one of them does, with the failure of the first one that does. -/
theorem C42_chain_fails (hi : Valid e i) (hr : Rewinds e D n a en i) :
    ParsesAt e D n (cs.foldl Chain.and (a.chainWith b)).parser en i (.failed x es) j ↔
      j = i ∧ FirstFails e D n en (a :: b :: cs) i x es := by
  rw [Chain.parser, C20_chain_fails hi, chain_parsers, firstFails_iff hi, firstFails_iff hi]
  · rw [show (a.chainWith b).parsers.toList ++ cs.map .boxed = (a :: b :: cs).map G.boxed from rfl,
      map_boxed_sem]
  · intro g hg
    rw [chain_parsers] at hg
    cases hg
    intro x es j h
    rw [parsesAt_iff hi] at h
    exact hr x es j ((parsesAt_iff hi).2 h)

/-- C42: `a.alters(b).and(c₁)...and(cₖ)` succeeds with the output of the first of `a`, `b`, `c₁`, ...,
`cₖ`, in the order in which they were written, that does not fail. -/
theorem C42_alters_first_wins (hi : Valid e i) (hr : ∀ g ∈ a :: b :: cs, Rewinds e D n g false i) :
    ParsesAt e D n (cs.foldl Alters.and (a.altersWith b)).parser en i (.success o) j ↔
      FirstWins e D n (a :: b :: cs) i o j := by
  have hl : (cs.foldl Alters.and (a.altersWith b)).parsers.toList = (a :: b :: cs).map G.boxed := by
    rw [alters_parsers]; rfl
  have hb : ∀ {g : G S N ε α} {f r k}, ParsesAt e D n (.boxed g) f i r k ↔ ParsesAt e D n g f i r k := by
    intro g f r k
    rw [parsesAt_iff hi, parsesAt_iff hi]
    exact Iff.rfl
  rw [Alters.parser, C18_alters_first_success hi, hl]
  · constructor
    · rintro ⟨k, g, h1, h2, h3⟩
      rw [List.getElem?_map] at h1
      cases hg : (a :: b :: cs)[k]? with
      | none => rw [hg] at h1; cases h1
      | some g0 =>
        rw [hg] at h1
        cases h1
        refine ⟨(a :: b :: cs).take k, g0, (a :: b :: cs).drop (k + 1), ?_, ?_, hb.1 h2⟩
        · have hk : k < (a :: b :: cs).length := by
            rw [List.getElem?_eq_some_iff] at hg; exact hg.1
          have := List.take_append_drop k (a :: b :: cs)
          rw [List.drop_eq_getElem_cons hk] at this
          rw [List.getElem?_eq_some_iff] at hg
          obtain ⟨_, hg⟩ := hg
          rw [hg] at this
          exact this.symm
        · intro g' hg'
          obtain ⟨m, hm, rfl⟩ := List.getElem_of_mem hg'
          rw [List.length_take] at hm
          rw [List.getElem_take]
          obtain ⟨y, ys, h⟩ := h3 m (by omega) (.boxed ((a :: b :: cs)[m]'(by omega))) (by
            rw [List.getElem?_map, List.getElem?_eq_getElem (by omega)]; rfl)
          exact ⟨y, ys, hb.1 h⟩
    · rintro ⟨pre, g, post, h1, h2, h3⟩
      refine ⟨pre.length, .boxed g, ?_, hb.2 h3, ?_⟩
      · rw [List.getElem?_map, h1, List.getElem?_append_right (Nat.le_refl _)]
        simp
      · intro m hm g' hg'
        rw [List.getElem?_map, h1, List.getElem?_append_left hm, List.getElem?_eq_getElem hm] at hg'
        cases hg'
        obtain ⟨y, ys, h⟩ := h2 _ (List.getElem_mem hm)
        exact ⟨y, ys, hb.2 h⟩
  · rw [hl]
    intro g hg
    obtain ⟨g0, h0, rfl⟩ := List.mem_map.1 hg
    intro x es j h
    exact hr g0 h0 x es j (hb.1 h)

/-- C42: `item.separated_by(sep)` followed by any sequence of configuring calls is the repetition with
the bounds last given, the separator last given, and leading or trailing separators if they were
allowed by any of the calls: the order of independent calls does not matter, and later calls replace
earlier ones. -/
theorem C42_separated_by_calls {sep : G S N ε β} {calls : List (RepCall S N ε β)} {r : Res (List α) ε.E} :
    ParsesAt e D n ((item.separatedWith sep).calls calls).parser en i r j ↔
      ParsesAt e D n (.separatedBy (RepCall.config calls) item ((lastOf RepCall.sep? calls).getD sep))
        en i r j := by
  rw [calls_eq]
  have : ∀ p : Option (G S N ε β), p.or (some sep) = some (p.getD sep) := by
    intro p; cases p <;> rfl
  simp [SepBy.parser, G.separatedWith, this, RepCall.config]

/-- C42: the same for `item.repeated()`; without a call to `with_separator` there is no separator. -/
theorem C42_repeated_calls {calls : List (RepCall S N ε α)} {r : Res (List α) ε.E} :
    ParsesAt e D n (item.repeatedWith.calls calls).parser en i r j ↔
      match lastOf RepCall.sep? calls with
      | none => ParsesAt e D n (.repeated (RepCall.config calls) item) en i r j
      | some sep => ParsesAt e D n (.separatedBy (RepCall.config calls) item sep) en i r j := by
  rw [calls_eq]
  cases h : lastOf RepCall.sep? calls <;>
    simp [SepBy.parser, G.repeatedWith, RepCall.config]

/-- C42: so the number of outputs is at most the maximum last asked for, and, if that is not below it,
at least the minimum last asked for. -/
theorem C42_counts {sep : G S N ε β} {calls : List (RepCall S N ε β)} (hi : Valid e i)
    (h : Gives e D n ((item.separatedWith sep).calls calls).parser en i os es rec j) :
    (∀ m, lastOf RepCall.max? calls = some m → os.length ≤ m) ∧
    ((∀ k m, lastOf RepCall.min? calls = some k → lastOf RepCall.max? calls = some m → k ≤ m) →
      ∀ k, lastOf RepCall.min? calls = some k → k ≤ os.length) := by
  have h' : Gives e D n (.separatedBy (RepCall.config calls) item ((lastOf RepCall.sep? calls).getD sep))
      en i os es rec j := by
    rcases h with ⟨h1, h2, h3⟩ | ⟨h1, h3⟩
    · exact .inl ⟨h1, h2, C42_separated_by_calls.1 h3⟩
    · exact .inr ⟨h1, C42_separated_by_calls.1 h3⟩
  obtain ⟨h1, h2⟩ := C21_counts hi (.inr h')
  refine ⟨h1, fun hm k hk => ?_⟩
  have : (RepCall.config calls).minimum = k := by simp [RepCall.config, hk]
  rw [this] at h2
  exact h2 (fun m hmx => hm k m hk hmx)

/-- C42: `s.retry()` and `s.try_to_parse(h)` followed by any sequence of calls to `exactly`, `silently`
and `exactly_and_silently` have the flags that any of the calls asks for. -/
theorem C42_retry_calls {s : IS S N ε α} {h : G S N ε α} {calls : List RetryCall} {r : Res α ε.E} :
    (ParsesAt e D n (.toRecover g (.orFail (s.retryWith.calls calls).strategy)) en i r j ↔
      ParsesAt e D n (.toRecover g (.orFail (.retry s (RetryCall.exact calls) (RetryCall.silent calls))))
        en i r j) ∧
    (ParsesAt e D n (.toRecover g (.orFail ((s.tryToParseWith h).calls calls).strategy)) en i r j ↔
      ParsesAt e D n
        (.toRecover g (.orFail (.tryToParse s h (RetryCall.exact calls) (RetryCall.silent calls))))
        en i r j) := by
  rw [retry_calls_eq, retry_calls_eq]
  simp [IS.retryWith, IS.tryToParseWith, Retry.strategy]

/-- C42: `p.to_recover(just_return(v))` turns a failure of `p` into a recovery with `v` on the spot,
reporting the errors of the failure; `just_return_with` and `just_return_with_span` do the same with
the value of their function, the latter for the empty span there. -/
theorem C42_just_return (hi : Valid e i) (hr : Rewinds e D n g true i) {v : α} {f : Unit → α}
    {h : S.Span → α} (hf : ParsesAt e D n g true i (.failed x es) i) :
    ParsesAt e D n (.toRecover g (Build.justReturn v)) true i (.recovered v es) i ∧
    ParsesAt e D n (.toRecover g (Build.justReturnWith f)) true i (.recovered (f ()) es) i ∧
    ParsesAt e D n (.toRecover g (Build.justReturnWithSpan h)) true i
      (.recovered (h (specSpan e i i)) es) i := by
  have hl := (runs_failed_pos hi hr hf).2
  simp only [parsesAt_iff hi]
  simp only [parsesAt_iff hi] at hf
  refine ⟨?_, ?_, ?_⟩ <;>
  · rw [toRecover_failed hi hf]
    exact ⟨hl, some _, ⟨x, es, i⟩, .inr ⟨_, ⟨rfl, rfl⟩, rfl, rfl⟩, .inl ⟨_, rfl, rfl, rfl⟩⟩

/-- C42: `one_of` of a text accepts exactly the characters of the text, of a slice exactly its
elements, and of a single token that token; with a token equality that is equality. The token itself is
the output. -/
theorem C42_one_of {O : Type} [Container O S.I] {c : O} (hi : Valid e i)
    (heq : ∀ t u, S.eqI t u = true ↔ t = u) {t : S.I} :
    ParsesAt e D n (Build.oneOf c : G S N ε S.I) en i (.success t) j ↔
      e.source i = some t ∧ t ∈ Container.getIter (T := S.I) c ∧ j = i + 1 := by
  rw [Build.oneOf, C24_one_of hi]
  simp only [heq]
  constructor
  · rintro (⟨t', h1, ⟨u, h2, rfl⟩, h3, h4⟩ | ⟨_, h, _⟩)
    · cases h3; exact ⟨h1, h2, h4⟩
    · cases h
  · rintro ⟨h1, h2, h3⟩
    exact .inl ⟨t, h1, ⟨t, h2, rfl⟩, rfl, h3⟩

/-- C42: `none_of` accepts exactly the tokens that are not in the container. -/
theorem C42_none_of {O : Type} [Container O S.I] {c : O} (hi : Valid e i)
    (heq : ∀ t u, S.eqI t u = true ↔ t = u) {t : S.I} :
    ParsesAt e D n (Build.noneOf c : G S N ε S.I) en i (.success t) j ↔
      e.source i = some t ∧ t ∉ Container.getIter (T := S.I) c ∧ j = i + 1 := by
  have heq' : ∀ t u, S.eqI t u = false ↔ t ≠ u := by
    intro t u; rw [← Bool.not_eq_true, heq]
  rw [Build.noneOf, C24_none_of hi]
  simp only [heq, heq']
  constructor
  · rintro (⟨t', h1, h2, h3, h4⟩ | ⟨_, _, _, h, _⟩ | ⟨_, _, h⟩)
    · cases h3; exact ⟨h1, fun hm => h2 t hm rfl, h4⟩
    · cases h
    · cases h
  · rintro ⟨h1, h2, h3⟩
    exact .inl ⟨t, h1, fun u hu h => h2 (h ▸ hu), rfl, h3⟩

/-- C42: `seq` of a container accepts exactly the input that starts with its items; the container is
the output. -/
theorem C42_seq {O : Type} [Container O S.I] {c v : O} (hi : Valid e i)
    (heq : ∀ t u, S.eqI t u = true ↔ t = u) :
    ParsesAt e D n (Build.seqOf c : G S N ε O) en i (.success v) j ↔
      v = c ∧ j = i + (Container.getIter (T := S.I) c).length ∧
      ∀ k, k < (Container.getIter (T := S.I) c).length →
        e.source (i + k) = (Container.getIter (T := S.I) c)[k]? := by
  have ht : ∀ k t, TokenIs e k t ↔ e.source k = some t := by
    intro k t
    unfold TokenIs
    simp only [heq]
    constructor
    · rintro ⟨u, h1, rfl⟩; exact h1
    · intro h; exact ⟨t, h, rfl⟩
  rw [Build.seqOf, C24_seq hi]
  simp only [ht]
  constructor
  · rintro (⟨h1, h2, h3⟩ | ⟨_, _, _, _, _, h, _⟩)
    · cases h2
      refine ⟨rfl, h3, fun k hk => ?_⟩
      rw [List.getElem?_eq_getElem hk]
      exact h1 k _ (List.getElem?_eq_getElem hk)
    · cases h
  · rintro ⟨rfl, h2, h3⟩
    refine .inl ⟨fun k t hk => ?_, rfl, h2⟩
    rw [h3 k (by rw [List.getElem?_eq_some_iff] at hk; exact hk.1), hk]

/-- C42, for texts: over characters, `one_of(text)` accepts a character exactly when it occurs in the
text, `none_of(text)` when it does not, and `seq(text)` accepts exactly the input that continues with
the text. -/
theorem C42_text {N : Names charSig} {D : Defs charSig N} {ε : ErrTy charSig}
    {input : List Char} {text v : String} {t : Char} (hi : i ≤ input.length) :
    (ParsesAt (charEnv input) D n (Build.oneOf text : G charSig N ε Char) en i (.success t) j ↔
      input[i]? = some t ∧ t ∈ text.toList ∧ j = i + 1) ∧
    (ParsesAt (charEnv input) D n (Build.noneOf text : G charSig N ε Char) en i (.success t) j ↔
      input[i]? = some t ∧ t ∉ text.toList ∧ j = i + 1) ∧
    (ParsesAt (charEnv input) D n (Build.seqOf text : G charSig N ε String) en i (.success v) j ↔
      v = text ∧ j = i + text.length ∧ text.toList <+: input.drop i) := by
  have hv : Valid (charEnv input) i := by
    intro k hk
    simp only [List.getElem?_eq_getElem (show k < input.length by omega), Option.isSome_some]
  have heq : ∀ t u, charSig.eqI t u = true ↔ t = u := by
    intro t u; simp
  refine ⟨C42_one_of hv heq, C42_none_of hv heq, ?_⟩
  rw [C42_seq hv heq]
  have hc : (Container.getIter (T := Char) text) = text.toList := rfl
  show v = text ∧ j = i + text.toList.length ∧ (∀ k, k < text.toList.length →
    input[i + k]? = text.toList[k]?) ↔ _
  rw [String.length_toList]
  refine and_congr_right fun _ => and_congr_right fun _ => ?_
  rw [List.prefix_iff_getElem?]
  constructor
  · intro h k hk
    rw [List.getElem?_drop, h k (by rw [String.length_toList] at hk; exact hk), List.getElem?_eq_getElem]
  · intro h k hk
    have := h k (by rw [String.length_toList]; exact hk)
    rw [List.getElem?_drop] at this
    rw [this, List.getElem?_eq_getElem]

/-! ## The hypotheses can be met -/

/-- `just(1).chain(just(2)).and(just(3)).and(just(4))` -/
example : Gives (exEnv [1, 2, 3, 4]) exNoDefs 20
      ([.just 3, .just 4].foldl Chain.and ((.just 1 : ExG Nat).chainWith (.just 2))).parser false 0
      [1, 2, 3, 4] [] false 4 ∧
    ParsesAt (exEnv [1, 2, 4]) exNoDefs 20
      ([.just 3, .just 4].foldl Chain.and ((.just 1 : ExG Nat).chainWith (.just 2))).parser false 0
      (.failed 2 [.expectedFound [some 3] (some 4) (.span (2, 3))]) 0 :=
  ⟨.inl ⟨rfl, rfl, exParsesAt (by decide +kernel)⟩, exParsesAt (by decide +kernel)⟩

/-- `just(1).to(7).alters(just(2).to(8)).and(just(2).to(9))` on `2`. -/
example : FirstWins (exEnv [2]) exNoDefs 20
    [.to (.just 1) 7, .to (.just 2) 8, (.to (.just 2) 9 : ExG Nat)] 0 8 1 := by
  refine (C42_alters_first_wins (en := true) Valid.zero ?_).1 (exParsesAt (by decide +kernel))
  intro g hg
  refine rewinds_of_clean Valid.zero (fun k => k.elim) ?_
  simp only [List.mem_cons, List.not_mem_nil, or_false] at hg
  rcases hg with rfl | rfl | rfl <;> simp [G.All, cleanL, G.TryMapNotRecovered]

/-- `just(1).separated_by(just(2)).at_least(5).allow_trailing().exactly(2).at_least(1)` -/
example : RepCall.config (S := exSig) (N := exNames) (ε := simpleErr exSig) (β := Nat)
      [.atLeast 5, .allowTrailing, .exactly 2, .atLeast 1] = ⟨1, some 2, false, true⟩ ∧
    Gives (exEnv [1, 2, 1, 2, 1]) exNoDefs 20
      (((.just 1 : ExG Nat).separatedWith (.just 2 : ExG Nat)).calls
        [.atLeast 5, .allowTrailing, .exactly 2, .atLeast 1]).parser false 0 [1, 1] [] false 4 :=
  ⟨rfl, .inl ⟨rfl, rfl, exParsesAt (by decide +kernel)⟩⟩

/-- `just(1).repeated().with_separator(just(2))` -/
example : Gives (exEnv [1, 2, 1, 3]) exNoDefs 20
    ((.just 1 : ExG Nat).repeatedWith.calls [.withSeparator (.just 2)]).parser false 0 [1, 1] [] false 3 :=
  .inl ⟨rfl, rfl, exParsesAt (by decide +kernel)⟩

/-- `just(1).to_recover(just_return(5))`, and `retry().silently().exactly()` after a `skip`. -/
example : ParsesAt (exEnv [7, 1]) exNoDefs 20 (.toRecover (.just 1) (Build.justReturn 5) : ExG Nat) true 0
      (.recovered 5 [.expectedFound [some 1] (some 7) (.span (0, 1))]) 0 ∧
    ParsesAt (exEnv [7, 1]) exNoDefs 20
      (.toRecover (.just 1) (.orFail ((Build.skip.retryWith).calls [.silently, .exactly]).strategy) : ExG Nat)
      true 0 (.recovered 1 [.expectedFound [some 1] (some 7) (.span (0, 1))]) 2 :=
  ⟨exParsesAt (by decide +kernel), exParsesAt (by decide +kernel)⟩

/-- `one_of(&[1, 2])`, `none_of(3)` and `seq(vec![1, 2])`. -/
example : ParsesAt (exEnv [1, 2]) exNoDefs 20 (Build.oneOf [1, 2] : ExG Nat) false 0 (.success 1) 1 ∧
    ParsesAt (exEnv [1, 2]) exNoDefs 20 (Build.noneOf 3 : ExG Nat) false 0 (.success 1) 1 ∧
    ParsesAt (exEnv [1, 2]) exNoDefs 20 (Build.seqOf [1, 2] : ExG (List Nat)) false 0 (.success [1, 2]) 2 ∧
    ∀ t u, exSig.eqI t u = true ↔ t = u :=
  ⟨exParsesAt (by decide +kernel), exParsesAt (by decide +kernel), exParsesAt (by decide +kernel),
   fun t u => by simp⟩

end PPC
