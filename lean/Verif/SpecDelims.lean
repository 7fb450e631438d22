import Verif.PropsScanner
import Verif.SpecGeneric

/-!
# What becomes of the delimiters in a scanned section (specification of C63)

Positions are indices of tokens. `Opens`, `Closes` and `NoLeft` (PropsScanner.lean) say which tokens are delimiters.
-/

namespace PPC.Delims

open Generic (ListR)

variable {S : Sig}

/-- The token at `p` is the left delimiter of type `k`. -/
def IsLeft (e : Env S) (types : List (S.I × S.I)) (p k : Nat) : Prop := ∃ t, e.source p = some t ∧ Opens S types t k

/-- The token at `p` is the right delimiter of type `k`. -/
def IsRight (e : Env S) (types : List (S.I × S.I)) (p k : Nat) : Prop := ∃ t, e.source p = some t ∧ Closes S types t k

/-- The token at `p` is a delimiter. -/
def IsDelim (e : Env S) (types : List (S.I × S.I)) (p : Nat) : Prop :=
  (∃ k, IsLeft e types p k) ∨ ∃ k, IsRight e types p k

/-- What is reported. -/
inductive Report
  /-- the left delimiter at `a` is not closed before the right delimiter at `b`, which closes another one -/
  | left (a b : Nat)
  /-- the left delimiter at `a` is not closed before the end of the input at `m` -/
  | leftEnd (a m : Nat)
  /-- the right delimiter at `b` closes nothing -/
  | right (b : Nat)
  /-- the left delimiter at `a` is closed by the one at `b`, which is of another type -/
  | wrong (a b : Nat)

/-- The delimiters that a report is about. -/
def Report.about : Report → List Nat
  | .left a _ => [a]
  | .leftEnd a _ => [a]
  | .right b => [b]
  | .wrong a b => [a, b]

/-- The error that says so: it has the tokens that are at these positions, and their spans. -/
inductive Report.Says (e : Env S) (ε : ErrTy S) : Report → ε.E → Prop
  | left {a b t} (ht : e.source a = some t) :
      Says e ε (.left a b) (ε.unmatchedLeft t (tokenSpan e a) (.span (tokenSpan e b)))
  | leftEnd {a m t} (ht : e.source a = some t) :
      Says e ε (.leftEnd a m) (ε.unmatchedLeft t (tokenSpan e a) (.location (specLocation e m)))
  | right {b t} (ht : e.source b = some t) : Says e ε (.right b) (ε.unmatchedRight t (tokenSpan e b) .none)
  | wrong {a b t u} (ht : e.source a = some t) (hu : e.source b = some u) :
      Says e ε (.wrong a b) (ε.unmatchedType t (tokenSpan e a) u (tokenSpan e b))

/-- All positions in pairs of matching delimiters and in reports. -/
def listed (pairs : List (Nat × Nat)) (rs : List Report) : List Nat :=
  (pairs.flatMap fun p => [p.1, p.2]) ++ rs.flatMap Report.about

/-- What is taken for a left delimiter and its right delimiter, of the same type or not. -/
def Bracket (pairs : List (Nat × Nat)) (rs : List Report) (a b : Nat) : Prop :=
  (a, b) ∈ pairs ∨ Report.wrong a b ∈ rs

/-- The pairs and reports account for the delimiters of the tokens from `i` up to `m`. -/
structure Accounts (e : Env S) (types : List (S.I × S.I)) (i m : Nat) (pairs : List (Nat × Nat)) (rs : List Report) :
    Prop where
  /-- every delimiter is in exactly one pair or report, once, and no other token is in any -/
  once : open Classical in ∀ p, (listed pairs rs).count p = if i ≤ p ∧ p < m ∧ IsDelim e types p then 1 else 0
  /-- what is paired belongs together -/
  pair : ∀ a b, (a, b) ∈ pairs → a < b ∧ ∃ k, IsLeft e types a k ∧ IsRight e types b k
  /-- pairs do not cross -/
  nested : ∀ a b c d, Bracket pairs rs a b → Bracket pairs rs c d → a < c → b < c ∨ d < b
  /-- a left delimiter is reported at a right delimiter that closes an earlier left delimiter -/
  left : ∀ a b, .left a b ∈ rs → (∃ k, IsLeft e types a k) ∧ a < b ∧ ∃ c, (c, b) ∈ pairs ∧ c < a
  /-- a left delimiter is reported at the end only if the input ends there -/
  leftEnd : ∀ a x, .leftEnd a x ∈ rs → (∃ k, IsLeft e types a k) ∧ x = m ∧ e.source m = none
  /-- a right delimiter that closes nothing is only reported if it is the first token -/
  right : ∀ b, .right b ∈ rs → b = i ∧ (∃ k, IsRight e types b k) ∧ ∀ k, ¬IsLeft e types b k
  /-- delimiters reported to be of different types are -/
  wrong : ∀ a b, .wrong a b ∈ rs → a < b ∧ (∃ k, IsLeft e types a k ∧ ¬IsRight e types b k) ∧
    (∃ k, IsRight e types b k) ∧ ∀ k, ¬IsLeft e types b k

/-- What a scan that starts at `i` did if it ends at `j`. Either the input ends there, and all tokens from `i` on are
accounted for. Or there is a token, it is accounted for too, and it closes the delimiter at `i`, if there is one. -/
def Ends (e : Env S) (types : List (S.I × S.I)) (i j : Nat) (pairs : List (Nat × Nat)) (rs : List Report) : Prop :=
  (e.source j = none ∧ Accounts e types i j pairs rs ∧ ((∃ k, IsLeft e types i k) → .leftEnd i j ∈ rs)) ∨
  ((∃ t, e.source j = some t) ∧ Accounts e types i (j + 1) pairs rs ∧
    ((∃ k, IsLeft e types i k) → Bracket pairs rs i j))

end PPC.Delims
