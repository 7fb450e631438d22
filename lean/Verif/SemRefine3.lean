import Verif.SemRefine2
import Verif.Refine

/-!
# The code computes the positional semantics: all grammars, and the real stream
-/

namespace PPC

variable {S : Sig} {N : Names S} {e : Env S}

/-- Recursive parsers compute their semantics. -/
def EnvRef (e : Env S) (ρ : REnv S N) (σ : QEnv S N) : Prop := ∀ k, PRef e (ρ k) (σ k)

theorem spure {E α : Type} {s : Strat S E α} {q : SSem E α} (h : SRef e s q)
    {t : Strat S E α} (o : Nat → Nat → List E → Option α) (f : Nat → Nat → List E → List E)
    (ht : ∀ p c st fa es, SPre e c st fa → ∃ c', Ext e c c' ∧ c'.pos = c.pos ∧
      (t p st fa es).run (Cursor.step e) c =
        .ok ((o st.index c.pos es, fa, f st.index c.pos es), c')) :
    SRef e (s.orElse t) (q.orElse fun _ st fa es i => .ok ((o st i es, fa, f st i es), i)) :=
  SRef.pure h o f ht

theorem stay {c : Cursor} {st fa : SavedState} (h : SPre e c st fa) {α E : Type} {x : RecRes α E} :
    ∃ c', Ext e c c' ∧ c'.pos = c.pos ∧ (Prog.ret x).run (Cursor.step e) c = .ok (x, c') :=
  ⟨c, Ext.refl h.wf, rfl, rfl⟩

mutual

theorem G.ref {ρ : REnv S N} {σ : QEnv S N} (hρ : EnvRef e ρ σ) (n : Nat) :
    ∀ {ε : ErrTy S} {α : Type} (g : G S N ε α), PRef e (g.denote ρ n) (g.den e σ n)
  | _, _, .empty => by simp only [G.denote, G.den]; exact pEmpty_ref
  | _, _, .none _ => by simp only [G.denote, G.den]; exact pNone_ref
  | ε, _, .eof => by simp only [G.denote, G.den]; exact pEnd_ref ε
  | ε, _, .just t => by simp only [G.denote, G.den]; exact pJust_ref ε t
  | ε, _, .filter p => by simp only [G.denote, G.den]; exact pFilter_ref ε p
  | ε, _, .filterMap f => by simp only [G.denote, G.den]; exact pFilterMap_ref ε f
  | ε, _, .seq v items => by simp only [G.denote, G.den]; exact pSeq_ref ε v items
  | ε, _, .oneOf items => by simp only [G.denote, G.den]; exact pOneOf_ref ε items
  | ε, _, .noneOf items => by simp only [G.denote, G.den]; exact pNoneOf_ref ε items
  | _, _, .boxed g => by simp only [G.denote, G.den]; exact G.ref hρ n g
  | _, _, .withError g => by simp only [G.denote, G.den]; exact G.ref hρ n g
  | _, _, .to g v => by simp only [G.denote, G.den]; exact (G.ref hρ n g).to v
  | _, _, .some g => by simp only [G.denote, G.den]; exact (G.ref hρ n g).some'
  | _, _, .map f g => by simp only [G.denote, G.den]; exact (G.ref hρ n g).map f
  | _, _, .mapWithSpan f g => by simp only [G.denote, G.den]; exact (G.ref hρ n g).mapWithSpan f
  | _, _, .mapErr f g => by simp only [G.denote, G.den]; exact (G.ref hρ n g).mapErr f
  | _, _, .mapErrWithSpan f g => by
    simp only [G.denote, G.den]; exact (G.ref hρ n g).mapErrWithSpan f
  | _, _, .tryMap f g => by simp only [G.denote, G.den]; exact (G.ref hρ n g).tryMap f
  | _, _, .then_ a b => by
    simp only [G.denote, G.den]; exact PRef.concat2 (G.ref hρ n a) (G.ref hρ n b) _
  | _, _, .thenIgnore a b => by
    simp only [G.denote, G.den]; exact PRef.concat2 (G.ref hρ n a) (G.ref hρ n b) _
  | _, _, .ignoreThen a b => by
    simp only [G.denote, G.den]; exact PRef.concat2 (G.ref hρ n a) (G.ref hρ n b) _
  | _, _, .delimitedBy l m r => by
    simp only [G.denote, G.den]
    exact PRef.concat3 (G.ref hρ n l) (G.ref hρ n m) (G.ref hρ n r) _
  | _, _, .paddedBy p m => by
    simp only [G.denote, G.den]
    exact PRef.concat3 (G.ref hρ n p) (G.ref hρ n m) (G.ref hρ n p) _
  | _, _, .chain gs => by simp only [G.denote, G.den]; exact (GL.ref hρ n gs).concat
  | ε, _, .or a b => by
    simp only [G.denote, G.den]
    exact PRefs.alternate ε (.cons (G.ref hρ n a) (.cons (G.ref hρ n b) .nil))
  | ε, _, .orNot g => by
    simp only [G.denote, G.den]
    exact PRefs.alternate ε (.cons (G.ref hρ n g).some' (.cons pNone_ref .nil))
  | ε, _, .alters gs => by
    simp only [G.denote, G.den]
    exact PRefs.alternate ε (GL.ref hρ n gs)
  | _, _, .repeated cfg item => by
    simp only [G.denote, G.den]
    exact PRef.repeatP (G.ref hρ n item) cfg trivial n
  | _, _, .separatedBy cfg item sep => by
    simp only [G.denote, G.den]
    exact PRef.repeatP (G.ref hρ n item) cfg (G.ref hρ n sep) n
  | _, _, .toRecover g st => by
    simp only [G.denote, G.den]
    exact PRef.toRecover (G.ref hρ n g) (CS.ref hρ n st)
  | _, _, .call k => by simp only [G.denote, G.den]; exact hρ k

theorem GL.ref {ρ : REnv S N} {σ : QEnv S N} (hρ : EnvRef e ρ σ) (n : Nat) :
    ∀ {ε : ErrTy S} {α : Type} (gs : GL S N ε α), PRefs e (gs.denote ρ n) (gs.den e σ n)
  | _, _, .nil => by simp only [GL.denote, GL.den]; exact .nil
  | _, _, .cons g gs => by
    simp only [GL.denote, GL.den]; exact .cons (G.ref hρ n g) (GL.ref hρ n gs)

theorem IS.ref {ρ : REnv S N} {σ : QEnv S N} (hρ : EnvRef e ρ σ) (n : Nat) :
    ∀ {ε : ErrTy S} {α : Type} (s : IS S N ε α), SRef e (s.denote ρ n) (s.den e σ n)
  | _, _, .attemptTo => by simp only [IS.denote, IS.den]; exact sAttemptTo_ref
  | _, _, .restart s => by simp only [IS.denote, IS.den]; exact (IS.ref hρ n s).restart
  | _, _, .seekToFailed s => by simp only [IS.denote, IS.den]; exact (IS.ref hρ n s).seekToFailed
  | _, _, .skip s => by simp only [IS.denote, IS.den]; exact (IS.ref hρ n s).skip
  | _, _, .skipIf s p => by simp only [IS.denote, IS.den]; exact (IS.ref hρ n s).skipIf p
  | _, _, .find s p => by simp only [IS.denote, IS.den]; exact (IS.ref hρ n s).find p n
  | _, _, .scan s sc => by simp only [IS.denote, IS.den]; exact (IS.ref hρ n s).scan sc n
  | _, _, .maybe s t => by
    simp only [IS.denote, IS.den]; exact (IS.ref hρ n s).maybe (IS.ref hρ n t)
  | _, _, .whileNot s p t => by
    simp only [IS.denote, IS.den]; exact (IS.ref hρ n s).whileNot (IS.ref hρ n t) p n
  | _, _, .retry s exact_ silent => by
    simp only [IS.denote, IS.den]; exact (IS.ref hρ n s).retry exact_ silent
  | _, _, .tryToParse s g exact_ silent => by
    simp only [IS.denote, IS.den]
    exact (IS.ref hρ n s).tryToParse (G.ref hρ n g) exact_ silent
  | _, _, .pushError s f => by
    simp only [IS.denote, IS.den]
    exact spure (IS.ref hρ n s) (fun _ _ _ => Option.none) (fun _ _ es => es ++ [f ()])
      (fun _ _ _ _ _ h => stay h)
  | _, _, .pushErrorHere s f => by
    simp only [IS.denote, IS.den]
    exact spure (IS.ref hρ n s) (fun _ _ _ => Option.none)
      (fun _ i es => es ++ [f (e.locationAt i)]) (fun _ _ _ _ _ h => stay h)
  | _, _, .pushErrorUpToHere s f => by
    simp only [IS.denote, IS.den]
    refine spure (IS.ref hρ n s) (fun _ _ _ => Option.none)
      (fun st i es => es ++ [f (e.spanOf st i)]) ?_
    intro _ c st fa es h
    unfold Prog.spanningBackTo
    simp only [Prog.bind_eq, Prog.op_bind, Prog.ret_bind]
    rw [run_spanningBackTo h]
    exact stay h
  | _, _, .pushErrorForToken s f => by
    simp only [IS.denote, IS.den]
    refine spure (IS.ref hρ n s) (fun _ _ _ => Option.none)
      (fun _ i es => es ++ [f (e.source i) (e.here i)]) ?_
    intro _ c st fa es h
    exact ⟨c.look.look, (Ext.look h.wf).look', rfl, rfl⟩
  | _, _, .updateErrors s f => by
    simp only [IS.denote, IS.den]
    exact spure (IS.ref hρ n s) (fun _ _ _ => Option.none) (fun _ _ es => f es)
      (fun _ _ _ _ _ h => stay h)
  | _, _, .updateErrorsHere s f => by
    simp only [IS.denote, IS.den]
    exact spure (IS.ref hρ n s) (fun _ _ _ => Option.none)
      (fun _ i es => f es (e.locationAt i)) (fun _ _ _ _ _ h => stay h)
  | _, _, .updateErrorsUpToHere s f => by
    simp only [IS.denote, IS.den]
    refine spure (IS.ref hρ n s) (fun _ _ _ => Option.none)
      (fun st i es => f es (e.spanOf st i)) ?_
    intro _ c st fa es h
    unfold Prog.spanningBackTo
    simp only [Prog.bind_eq, Prog.op_bind, Prog.ret_bind]
    rw [run_spanningBackTo h]
    exact stay h
  | _, _, .updateErrorsForToken s f => by
    simp only [IS.denote, IS.den]
    refine spure (IS.ref hρ n s) (fun _ _ _ => Option.none)
      (fun _ i es => f es (e.source i) (e.here i)) ?_
    intro _ c st fa es h
    exact ⟨c.look.look, (Ext.look h.wf).look', rfl, rfl⟩
  | _, _, .boxed s => by simp only [IS.denote, IS.den]; exact IS.ref hρ n s

theorem CS.ref {ρ : REnv S N} {σ : QEnv S N} (hρ : EnvRef e ρ σ) (n : Nat) :
    ∀ {ε : ErrTy S} {α : Type} (s : CS S N ε α), SRef e (s.denote ρ n) (s.den e σ n)
  | _, _, .ret s o => by
    simp only [CS.denote, CS.den]
    exact spure (IS.ref hρ n s) (fun _ _ _ => Option.some o) (fun _ _ es => es)
      (fun _ _ _ _ _ h => stay h)
  | _, _, .retWith s o => by
    simp only [CS.denote, CS.den]
    exact spure (IS.ref hρ n s) (fun _ _ _ => Option.some (o ())) (fun _ _ es => es)
      (fun _ _ _ _ _ h => stay h)
  | _, _, .retWithSpan s f => by
    simp only [CS.denote, CS.den]
    refine spure (IS.ref hρ n s) (fun st i _ => Option.some (f (e.spanOf st i)))
      (fun _ _ es => es) ?_
    intro _ c st fa es h
    unfold Prog.spanningBackTo
    simp only [Prog.bind_eq, Prog.op_bind, Prog.ret_bind]
    rw [run_spanningBackTo h]
    exact stay h
  | _, _, .orFail s => by simp only [CS.denote, CS.den]; exact IS.ref hρ n s

end

theorem callRec_ref (D : Defs S N) : ∀ n, EnvRef e (callRec D n) (callSem e D n)
  | 0, k => fun _ _ _ => Ref.oof
  | n + 1, k => by
    intro en c hwf
    unfold callRec callSem
    cases D k with
    | some g => exact G.ref (callRec_ref D n) n g en c hwf
    | none => exact Ref.panic

/-- Every parser computes its positional semantics. -/
theorem G.prog_ref (D : Defs S N) (n : Nat) {ε : ErrTy S} {α : Type} (g : G S N ε α) :
    PRef e (g.prog D n) (g.sem e D n) :=
  G.ref (callRec_ref D n) n g

/-- What the concrete stream does when a parser is run on it, given the outcome of
the positional semantics. -/
def StreamRuns (e : Env S) {α E : Type} (c : Cursor) (a : Out (Res α E × Stream S)) :
    Out (Res α E × Nat) → Prop
  | .ok (r, j) => ∃ st' s' c', a = .ok (r, s') ∧ Sim e st' s' c' ∧ c'.pos = j ∧ Ext e c c' ∧
      ∀ x es, r = .failed x es → c.pos ≤ x ∧ x ≤ c'.limit e
  | .panic m => a = .panic m
  | .oof => a = .oof
  | .stuck => False

/-- Running a parser on the concrete stream computes its positional semantics. -/
theorem G.run_stream (D : Defs S N) (n : Nat) {ε : ErrTy S} {α : Type} (g : G S N ε α) (en : Bool)
    {st : Nat} {s : Stream S} {c : Cursor} (h : Sim e st s c) :
    StreamRuns e c ((g.prog D n en).run Stream.step s) (g.sem e D n en c.pos) := by
  have h1 := Sim.run (g.prog D n en) h
  have h2 := G.prog_ref (e := e) D n g en c h.wf
  unfold Ref at h2
  split at h2
  · rename_i r c' g hp hq
    rw [hp] at h1
    obtain ⟨hx, hv, hf⟩ := h2
    obtain ⟨st', s', hs, hsim⟩ := h1
    rw [hq, hv]
    exact ⟨st', s', c', hs, hsim, rfl, hx, hf⟩
  · rename_i m m' hp hq
    rw [hp] at h1
    rw [hq, ← h2]; exact h1
  · rename_i hp hq
    rw [hp] at h1
    rw [hq]; exact h1
  · exact h2.elim

end PPC
