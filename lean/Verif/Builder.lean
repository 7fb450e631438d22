import Verif.Grammar

/-!
# Building parsers

The functions and methods with which a user writes down a parser. Most of them only put their
arguments into a struct, and that struct is a constructor of `G`, `IS` or `CS`; the ones here do
something more: they have defaults, append to a list, or overwrite a setting.
-/

namespace PPC

variable {S : Sig} {N : Names S} {ε : ErrTy S} {α β : Type}

/-! ## Containers -/

/-- `Container` (src/container.rs:3-16). The iterator that `get_iter` returns is modelled by the list
of the items it yields. -/
class Container (O T : Type) where
  getIter : O → List T

/-- A single object (src/container.rs:49-53). -/
instance Container.single {T : Type} : Container T T := ⟨fun t => [t]⟩

/-- `String` and `&str` (src/container.rs:57-69). -/
instance Container.string : Container String Char := ⟨fun s => s.toList⟩

/-- Slices, arrays and vectors, owned or by reference, yielding clones of or references to the items
(src/container.rs:73-133). All of them are modelled by lists; clones and references by the items
themselves. -/
instance Container.slice {T : Type} : Container (List T) T := ⟨fun xs => xs⟩

namespace Build

/-- `seq` (src/primitive.rs:392-402): the output is a clone of the container. -/
def seqOf {O : Type} [Container O S.I] (c : O) : G S N ε O := .seq c (Container.getIter c)

/-- `one_of` (src/primitive.rs:461-471) -/
def oneOf {O : Type} [Container O S.I] (c : O) : G S N ε S.I := .oneOf (Container.getIter c)

/-- `none_of` (src/primitive.rs:541-551) -/
def noneOf {O : Type} [Container O S.I] (c : O) : G S N ε S.I := .noneOf (Container.getIter c)

end Build

/-! ## Methods of parsers -/

/-- `ignored` (src/parser.rs:283-291) -/
def G.ignored (g : G S N ε α) : G S N ε Unit := .to g ()

/-- `Vec::push` on a list of parsers. -/
def GL.push : GL S N ε α → G S N ε α → GL S N ε α
  | .nil, g => .cons g .nil
  | .cons h hs, g => .cons h (hs.push g)

/-- `Chain` (src/combinator.rs:441-443) -/
structure Chain (S : Sig) (N : Names S) (ε : ErrTy S) (α : Type) where
  parsers : GL S N ε α

/-- `chain` (src/parser.rs:437-445) -/
def G.chainWith (a b : G S N ε α) : Chain S N ε α := ⟨.cons (.boxed a) (.cons (.boxed b) .nil)⟩

/-- `Chain::and` (src/combinator.rs:477-485) -/
def Chain.and (c : Chain S N ε α) (g : G S N ε α) : Chain S N ε α := ⟨c.parsers.push (.boxed g)⟩

/-- `impl Parser for Chain` (src/combinator.rs:453-470) -/
def Chain.parser (c : Chain S N ε α) : G S N ε (List α) := .chain c.parsers

/-- `Alters` (src/combinator.rs:544-546) -/
structure Alters (S : Sig) (N : Names S) (ε : ErrTy S) (α : Type) where
  parsers : GL S N ε α

/-- `alters` (src/parser.rs:473-481) -/
def G.altersWith (a b : G S N ε α) : Alters S N ε α := ⟨.cons (.boxed a) (.cons (.boxed b) .nil)⟩

/-- `Alters::and` (src/combinator.rs:577-585) -/
def Alters.and (c : Alters S N ε α) (g : G S N ε α) : Alters S N ε α := ⟨c.parsers.push (.boxed g)⟩

/-- `impl Parser for Alters` (src/combinator.rs:556-573) -/
def Alters.parser (c : Alters S N ε α) : G S N ε α := .alters c.parsers

/-- `SeparatedBy` (src/combinator.rs:590-597) -/
structure SepBy (S : Sig) (N : Names S) (ε : ErrTy S) (α β : Type) where
  minimum : Nat
  maximum : Option Nat
  item : G S N ε α
  separator : Option (G S N ε β)
  allowLeading : Bool
  allowTrailing : Bool

/-- `repeated` (src/parser.rs:485-497); `Repeated<A>` is `SeparatedBy<A, A>`
(src/combinator.rs:668-669). -/
def G.repeatedWith (g : G S N ε α) : SepBy S N ε α α := ⟨0, Option.none, g, Option.none, false, false⟩

/-- `separated_by` (src/parser.rs:502-515) -/
def G.separatedWith (g : G S N ε α) (sep : G S N ε β) : SepBy S N ε α β :=
  ⟨0, Option.none, g, Option.some sep, false, false⟩

namespace SepBy

/-- `at_least` (src/combinator.rs:628-631) -/
def atLeast (c : SepBy S N ε α β) (n : Nat) : SepBy S N ε α β := { c with minimum := n }

/-- `at_most` (src/combinator.rs:634-637) -/
def atMost (c : SepBy S N ε α β) (n : Nat) : SepBy S N ε α β := { c with maximum := some n }

/-- `exactly` (src/combinator.rs:640-644) -/
def exactly (c : SepBy S N ε α β) (n : Nat) : SepBy S N ε α β :=
  { c with minimum := n, maximum := some n }

/-- `with_separator` (src/combinator.rs:648-651) -/
def withSeparator (c : SepBy S N ε α β) (sep : G S N ε β) : SepBy S N ε α β :=
  { c with separator := some sep }

/-- `allow_leading` (src/combinator.rs:655-658) -/
def leading (c : SepBy S N ε α β) : SepBy S N ε α β := { c with allowLeading := true }

/-- `allow_trailing` (src/combinator.rs:662-665) -/
def trailing (c : SepBy S N ε α β) : SepBy S N ε α β := { c with allowTrailing := true }

/-- `impl Parser for SeparatedBy` (src/combinator.rs:599-624): `repeat` is called with the fields. -/
def parser (c : SepBy S N ε α β) : G S N ε (List α) :=
  match c.separator with
  | none => .repeated ⟨c.minimum, c.maximum, c.allowLeading, c.allowTrailing⟩ c.item
  | some sep => .separatedBy ⟨c.minimum, c.maximum, c.allowLeading, c.allowTrailing⟩ c.item sep

end SepBy

/-! ## Methods of strategies -/

/-- `Retry` (src/recovery.rs:904-908) and, if `other` is given, `TryToParse` (983-990). -/
structure Retry (S : Sig) (N : Names S) (ε : ErrTy S) (α : Type) where
  child : IS S N ε α
  other : Option (G S N ε α)
  exact : Bool
  silent : Bool

/-- `retry` (src/recovery.rs:194-203) -/
def IS.retryWith (s : IS S N ε α) : Retry S N ε α := ⟨s, none, false, false⟩

/-- `try_to_parse` (src/recovery.rs:206-217) -/
def IS.tryToParseWith (s : IS S N ε α) (g : G S N ε α) : Retry S N ε α := ⟨s, some g, false, false⟩

/-- `do_nothing` (src/recovery.rs:361-366) -/
def IS.doNothing (s : IS S N ε α) : IS S N ε α := s

namespace Retry

/-- `Retry::exactly` (src/recovery.rs:913-916), `TryToParse::exactly` (996-999) -/
def exactly (r : Retry S N ε α) : Retry S N ε α := { r with exact := true }

/-- `Retry::silently` (src/recovery.rs:919-922), `TryToParse::silently` (1002-1005) -/
def silently (r : Retry S N ε α) : Retry S N ε α := { r with silent := true }

/-- `Retry::exactly_and_silently` (src/recovery.rs:925-929), `TryToParse::exactly_and_silently`
(1008-1012) -/
def exactlyAndSilently (r : Retry S N ε α) : Retry S N ε α := { r with exact := true, silent := true }

/-- `impl IncompleteStrategy for Retry` (src/recovery.rs:932-972) and `for TryToParse` (1015-1057). -/
def strategy (r : Retry S N ε α) : IS S N ε α :=
  match r.other with
  | none => .retry r.child r.exact r.silent
  | some g => .tryToParse r.child g r.exact r.silent

end Retry

namespace Build

/-- `seek_to_failed` (src/recovery.rs:560-566) -/
def seekToFailed : IS S N ε α := .seekToFailed .attemptTo

/-- `skip` (src/recovery.rs:606-612) -/
def skip : IS S N ε α := .skip .attemptTo

/-- `skip_if` (src/recovery.rs:657-664) -/
def skipIf (p : S.I → Bool) : IS S N ε α := .skipIf .attemptTo p

/-- `find` (src/recovery.rs:709-716) -/
def find (p : S.I → Bool) : IS S N ε α := .find .attemptTo p

/-- `scan` (src/recovery.rs:773-781) -/
def scan (sc : Scanner S ε.E) : IS S N ε α := .scan .attemptTo sc

/-- `maybe` (src/recovery.rs:831-838) -/
def maybe (t : IS S N ε α) : IS S N ε α := .maybe .attemptTo t

/-- `while_not` (src/recovery.rs:892-900) -/
def whileNot (p : S.I → Bool) (t : IS S N ε α) : IS S N ε α := .whileNot .attemptTo p t

/-- `retry` (src/recovery.rs:976-982) -/
def retry : Retry S N ε α := IS.retryWith .attemptTo

/-- `try_to_parse` (src/recovery.rs:1061-1068) -/
def tryToParse (g : G S N ε α) : Retry S N ε α := IS.tryToParseWith .attemptTo g

/-- `push_error` (src/recovery.rs:1111-1118) -/
def pushError (f : Unit → ε.E) : IS S N ε α := .pushError .attemptTo f

/-- `push_error_here` (src/recovery.rs:1165-1174) -/
def pushErrorHere (f : S.Loc → ε.E) : IS S N ε α := .pushErrorHere .attemptTo f

/-- `push_error_up_to_here` (src/recovery.rs:1221-1230) -/
def pushErrorUpToHere (f : S.Span → ε.E) : IS S N ε α := .pushErrorUpToHere .attemptTo f

/-- `push_error_for_token` (src/recovery.rs:1280-1290) -/
def pushErrorForToken (f : Option S.I → S.Span → ε.E) : IS S N ε α := .pushErrorForToken .attemptTo f

/-- `update_errors` (src/recovery.rs:1333-1340) -/
def updateErrors (f : List ε.E → List ε.E) : IS S N ε α := .updateErrors .attemptTo f

/-- `update_errors_here` (src/recovery.rs:1389-1399) -/
def updateErrorsHere (f : List ε.E → S.Loc → List ε.E) : IS S N ε α := .updateErrorsHere .attemptTo f

/-- `update_errors_up_to_here` (src/recovery.rs:1448-1458) -/
def updateErrorsUpToHere (f : List ε.E → S.Span → List ε.E) : IS S N ε α :=
  .updateErrorsUpToHere .attemptTo f

/-- `update_errors_for_token` (src/recovery.rs:1510-1521) -/
def updateErrorsForToken (f : List ε.E → Option S.I → S.Span → List ε.E) : IS S N ε α :=
  .updateErrorsForToken .attemptTo f

/-- `just_return` (src/recovery.rs:1607-1614) -/
def justReturn (o : α) : CS S N ε α := .ret (IS.doNothing .attemptTo) o

/-- `just_return_with` (src/recovery.rs:1654-1661) -/
def justReturnWith (o : Unit → α) : CS S N ε α := .retWith (IS.doNothing .attemptTo) o

/-- `just_return_with_span` (src/recovery.rs:1705-1714) -/
def justReturnWithSpan (f : S.Span → α) : CS S N ε α := .retWithSpan (IS.doNothing .attemptTo) f

end Build

end PPC
