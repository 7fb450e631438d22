import Verif.Api
import Verif.Builder
import Verif.Chars
import Verif.Examples

/-!
# The unit tests of the crate, run on the model

Every test of `primitive.rs`, `combinator.rs` and `recovery.rs`: the parser, the input, the expected result and the
expected rest of the input are those of the test. These are tests of the model, not proofs about it.
-/

namespace PPC.RepoTests

open PPC Build

@[reducible] def noNames : Names charSig := ⟨Empty, fun k => k.elim, fun k => k.elim⟩

def noDefs : Defs charSig noNames := fun k => k.elim

/-- Parsers for characters with `SimpleError`. -/
abbrev P (α : Type) : Type 1 := G charSig noNames (simpleErr charSig) α

/-- What the tests look at: `ParseResult` without the errors. -/
inductive Shape (α : Type) : Type where
  | success (o : α)
  | recovered (o : α)
  | failed (i : Nat)
deriving DecidableEq

def shape {α E : Type} : Res α E → Shape α
  | .success o => .success o
  | .recovered o _ => .recovered o
  | .failed i _ => .failed i

/-- `parser.stream(input)`, then `stream.next()`, then `stream.tail().collect()`. -/
def outcome {α : Type} (g : P α) (input : List Char) : Option (Shape α × List Char) :=
  match (streamThenTail (g.prog noDefs 20) 1 input.length).run Stream.step
      (Stream.newWithLocation rustAlloc (fun i => input[i]?) ()) with
  | .ok ((([some r], ts), _)) => some (shape r, ts.filterMap id)
  | _ => none

/-- `test_empty` (src/primitive.rs:558-566) -/
def testEmpty : P (Unit) :=
  .empty

example : outcome testEmpty ['a', 'b', 'c'] = some (.success (), ['a', 'b', 'c']) := by decide +kernel

/-- `test_none` (src/primitive.rs:569-577) -/
def testNone : P (Option Nat) :=
  .none _

example : outcome testNone ['a', 'b', 'c'] = some (.success (none), ['a', 'b', 'c']) := by decide +kernel

/-- `test_end` (src/primitive.rs:580-589) -/
def testEnd : P (Unit) :=
  .eof

example : outcome testEnd ['a', 'b', 'c'] = some (.failed 0, ['a', 'b', 'c']) := by decide +kernel

/-- `parser.parse(&[])` -/
example : parse (simpleErr charSig) (testEnd.prog noDefs 20) rustAlloc (fun i => ([] : List Char)[i]?) () = .ok (.ok ()) := rfl

/-- `test_just` (src/primitive.rs:592-605) -/
def testJust : P (Char) :=
  .just 'a'

example : outcome testJust ['a', 'b', 'c'] = some (.success 'a', ['b', 'c']) := by decide +kernel

example : outcome testJust ['c', 'b', 'a'] = some (.failed 0, ['c', 'b', 'a']) := by decide +kernel

/-- `test_just_with_copy` (src/primitive.rs:608-618) -/
def testJustWithCopy : P (Char) :=
  .just 'a'

example : outcome testJustWithCopy ['a', 'b', 'c'] = some (.success 'a', ['b', 'c']) := by decide +kernel

example : outcome testJustWithCopy ['c', 'b', 'a'] = some (.failed 0, ['c', 'b', 'a']) := by decide +kernel

/-- `test_filter` (src/primitive.rs:621-636) -/
def testFilter : P (Char) :=
  .filter fun x => x == 'a'

example : outcome testFilter ['a', 'b', 'c'] = some (.success 'a', ['b', 'c']) := by decide +kernel

example : outcome testFilter ['c', 'b', 'a'] = some (.failed 0, ['c', 'b', 'a']) := by decide +kernel

/-- `test_filter_map` (src/primitive.rs:639-654) -/
def testFilterMap : P (Char) :=
  .filterMap fun x => if x == 'a' then some 'A' else none

example : outcome testFilterMap ['a', 'b', 'c'] = some (.success 'A', ['b', 'c']) := by decide +kernel

example : outcome testFilterMap ['c', 'b', 'a'] = some (.failed 0, ['c', 'b', 'a']) := by decide +kernel

/-- `test_seq` (src/primitive.rs:657-680) -/
def testSeq : P (List Char) :=
  seqOf ['a', 'b']

example : outcome testSeq ['a', 'b', 'c'] = some (.success ['a', 'b'], ['c']) := by decide +kernel

example : outcome testSeq ['c', 'b', 'a'] = some (.failed 0, ['c', 'b', 'a']) := by decide +kernel

example : outcome testSeq ['a', 'c', 'b'] = some (.failed 1, ['a', 'c', 'b']) := by decide +kernel

/-- `test_seq_2` (src/primitive.rs:683-697) -/
def testSeq2 : P (Char) :=
  seqOf 'a'

example : outcome testSeq2 ['a', 'b', 'c'] = some (.success 'a', ['b', 'c']) := by decide +kernel

example : outcome testSeq2 ['c', 'b', 'a'] = some (.failed 0, ['c', 'b', 'a']) := by decide +kernel

example : outcome testSeq2 ['a', 'c', 'b'] = some (.success 'a', ['c', 'b']) := by decide +kernel

/-- `test_seq_3` (src/primitive.rs:700-714) -/
def testSeq3 : P (String) :=
  .seq "ab" ['a', 'b']

example : outcome testSeq3 ['a', 'b', 'c'] = some (.success ("ab"), ['c']) := by decide +kernel

example : outcome testSeq3 ['c', 'b', 'a'] = some (.failed 0, ['c', 'b', 'a']) := by decide +kernel

example : outcome testSeq3 ['a', 'c', 'b'] = some (.failed 1, ['a', 'c', 'b']) := by decide +kernel

/-- `test_one_of` (src/primitive.rs:717-734) -/
def testOneOf : P (Char) :=
  oneOf ['a', 'b']

example : outcome testOneOf ['a', 'b', 'c'] = some (.success 'a', ['b', 'c']) := by decide +kernel

example : outcome testOneOf ['b', 'c', 'a'] = some (.success 'b', ['c', 'a']) := by decide +kernel

example : outcome testOneOf ['c', 'b', 'a'] = some (.failed 0, ['c', 'b', 'a']) := by decide +kernel

/-- `test_none_of` (src/primitive.rs:737-759) -/
def testNoneOf : P (Char) :=
  noneOf ['a', 'b']

example : outcome testNoneOf ['a', 'b', 'c'] = some (.failed 0, ['a', 'b', 'c']) := by decide +kernel

example : outcome testNoneOf ['b', 'c', 'a'] = some (.failed 0, ['b', 'c', 'a']) := by decide +kernel

example : outcome testNoneOf ['c', 'b', 'a'] = some (.success 'c', ['b', 'a']) := by decide +kernel

/-- `test_boxed` (src/combinator.rs:731-736) -/
def testBoxed : P (Char) :=
  .boxed (.just 'a')

example : outcome testBoxed ['a', 'b', 'c'] = some (.success 'a', ['b', 'c']) := by decide +kernel

/-- `test_to` (src/combinator.rs:739-747) -/
def testTo : P (Nat) :=
  .to (.just 'a' : P Char) 42

example : outcome testTo ['a', 'b', 'c'] = some (.success 42, ['b', 'c']) := by decide +kernel

/-- `test_map` (src/combinator.rs:750-758) -/
def testMap : P (Char) :=
  .map Char.toUpper (.just 'a')

example : outcome testMap ['a', 'b', 'c'] = some (.success 'A', ['b', 'c']) := by decide +kernel

/-- `test_map_with_span` (src/combinator.rs:761-769) -/
def testMapWithSpan : P (Char × Nat × Nat) :=
  .mapWithSpan (fun x s => (Char.toUpper x, s)) (.just 'a')

example : outcome testMapWithSpan ['a', 'b', 'c'] = some (.success ('A', 0, 1), ['b', 'c']) := by decide +kernel

/-- `test_then` (src/combinator.rs:774-796) -/
def testThen : P (Char × Char) :=
  .then_ (.just 'a') (.just 'b')

example : outcome testThen ['a', 'b', 'c'] = some (.success ('a', 'b'), ['c']) := by decide +kernel

example : outcome testThen ['a', 'c', 'b'] = some (.failed 1, ['a', 'c', 'b']) := by decide +kernel

example : outcome testThen ['c', 'b', 'a'] = some (.failed 0, ['c', 'b', 'a']) := by decide +kernel

/-- `test_then_ignore` (src/combinator.rs:799-821) -/
def testThenIgnore : P (Char) :=
  .thenIgnore (.just 'a') (.just 'b' : P Char)

example : outcome testThenIgnore ['a', 'b', 'c'] = some (.success 'a', ['c']) := by decide +kernel

example : outcome testThenIgnore ['a', 'c', 'b'] = some (.failed 1, ['a', 'c', 'b']) := by decide +kernel

example : outcome testThenIgnore ['c', 'b', 'a'] = some (.failed 0, ['c', 'b', 'a']) := by decide +kernel

/-- `test_ignore_then` (src/combinator.rs:824-846) -/
def testIgnoreThen : P (Char) :=
  .ignoreThen (.just 'a' : P Char) (.just 'b')

example : outcome testIgnoreThen ['a', 'b', 'c'] = some (.success 'b', ['c']) := by decide +kernel

example : outcome testIgnoreThen ['a', 'c', 'b'] = some (.failed 1, ['a', 'c', 'b']) := by decide +kernel

example : outcome testIgnoreThen ['c', 'b', 'a'] = some (.failed 0, ['c', 'b', 'a']) := by decide +kernel

/-- `test_padded_by` (src/combinator.rs:849-871) -/
def testPaddedBy : P (Char) :=
  .paddedBy (.just 'b' : P Char) (.just 'a')

example : outcome testPaddedBy ['b', 'a', 'b', 'c'] = some (.success 'a', ['c']) := by decide +kernel

example : outcome testPaddedBy ['b', 'a', 'c', 'b'] = some (.failed 2, ['b', 'a', 'c', 'b']) := by decide +kernel

example : outcome testPaddedBy ['c', 'b', 'a'] = some (.failed 0, ['c', 'b', 'a']) := by decide +kernel

/-- `test_delimited_by` (src/combinator.rs:874-896) -/
def testDelimitedBy : P (Char) :=
  .delimitedBy (.just 'a' : P Char) (.just 'b') (.just 'c' : P Char)

example : outcome testDelimitedBy ['a', 'b', 'c', 'd'] = some (.success 'b', ['d']) := by decide +kernel

example : outcome testDelimitedBy ['a', 'b', 'd', 'c'] = some (.failed 2, ['a', 'b', 'd', 'c']) := by decide +kernel

example : outcome testDelimitedBy ['c', 'b', 'a'] = some (.failed 0, ['c', 'b', 'a']) := by decide +kernel

/-- `test_chain` (src/combinator.rs:899-925) -/
def testChain : P (List Char) :=
  ((G.chainWith (.just 'a') (.just 'b')).and (.just 'c')).parser

example : outcome testChain ['a', 'b', 'c', 'd'] = some (.success ['a', 'b', 'c'], ['d']) := by decide +kernel

example : outcome testChain ['a', 'b', 'd', 'c'] = some (.failed 2, ['a', 'b', 'd', 'c']) := by decide +kernel

example : outcome testChain ['c', 'b', 'a'] = some (.failed 0, ['c', 'b', 'a']) := by decide +kernel

/-- `test_or` (src/combinator.rs:928-947) -/
def testOr : P (Char) :=
  .or (.just 'a') (.just 'b')

example : outcome testOr ['a', 'b', 'c'] = some (.success 'a', ['b', 'c']) := by decide +kernel

example : outcome testOr ['b', 'c', 'a'] = some (.success 'b', ['c', 'a']) := by decide +kernel

example : outcome testOr ['c', 'b', 'a'] = some (.failed 0, ['c', 'b', 'a']) := by decide +kernel

/-- `test_alters` (src/combinator.rs:950-974) -/
def testAlters : P (Char) :=
  ((G.altersWith (.just 'a') (.just 'b')).and (.just 'c')).parser

example : outcome testAlters ['a', 'b', 'c'] = some (.success 'a', ['b', 'c']) := by decide +kernel

example : outcome testAlters ['b', 'c', 'a'] = some (.success 'b', ['c', 'a']) := by decide +kernel

example : outcome testAlters ['c', 'b', 'a'] = some (.success 'c', ['b', 'a']) := by decide +kernel

example : outcome testAlters ['d', 'b', 'a'] = some (.failed 0, ['d', 'b', 'a']) := by decide +kernel

/-- `test_or_not` (src/combinator.rs:977-989) -/
def testOrNot : P (Option Char) :=
  .orNot (.just 'a')

example : outcome testOrNot ['a', 'b', 'c'] = some (.success (some 'a'), ['b', 'c']) := by decide +kernel

example : outcome testOrNot ['b', 'c', 'a'] = some (.success (none), ['b', 'c', 'a']) := by decide +kernel

/-- `test_repeated_any` (src/combinator.rs:992-1015) -/
def testRepeatedAny : P (List Char) :=
  (G.repeatedWith (.just 'a')).parser

example : outcome testRepeatedAny ['a', 'b', 'c'] = some (.success ['a'], ['b', 'c']) := by decide +kernel

example : outcome testRepeatedAny ['a', 'a', 'c'] = some (.success ['a', 'a'], ['c']) := by decide +kernel

example : outcome testRepeatedAny ['a', 'a', 'a'] = some (.success ['a', 'a', 'a'], []) := by decide +kernel

example : outcome testRepeatedAny ['b', 'c', 'a'] = some (.success [], ['b', 'c', 'a']) := by decide +kernel

/-- `test_repeated_many` (src/combinator.rs:1018-1045) -/
def testRepeatedMany : P (List Char) :=
  ((G.repeatedWith (.just 'a')).atLeast 1).parser

example : outcome testRepeatedMany ['a', 'b', 'c'] = some (.success ['a'], ['b', 'c']) := by decide +kernel

example : outcome testRepeatedMany ['a', 'a', 'c'] = some (.success ['a', 'a'], ['c']) := by decide +kernel

example : outcome testRepeatedMany ['a', 'a', 'a'] = some (.success ['a', 'a', 'a'], []) := by decide +kernel

example : outcome testRepeatedMany ['b', 'c', 'a'] = some (.failed 0, ['b', 'c', 'a']) := by decide +kernel

/-- `test_repeated_max` (src/combinator.rs:1048-1072) -/
def testRepeatedMax : P (List Char) :=
  ((G.repeatedWith (.just 'a')).atMost 2).parser

example : outcome testRepeatedMax ['a', 'b', 'c'] = some (.success ['a'], ['b', 'c']) := by decide +kernel

example : outcome testRepeatedMax ['a', 'a', 'c'] = some (.success ['a', 'a'], ['c']) := by decide +kernel

example : outcome testRepeatedMax ['a', 'a', 'a'] = some (.success ['a', 'a'], ['a']) := by decide +kernel

example : outcome testRepeatedMax ['b', 'c', 'a'] = some (.success [], ['b', 'c', 'a']) := by decide +kernel

/-- `test_separated_by` (src/combinator.rs:1075-1109) -/
def testSeparatedBy : P (List Char) :=
  (G.separatedWith (.just 'a') (.just ',' : P Char)).parser

example : outcome testSeparatedBy ['a', ',', 'b', ',', 'c'] = some (.success ['a'], [',', 'b', ',', 'c']) := by decide +kernel

example : outcome testSeparatedBy ['a', ',', 'a', ',', 'c'] = some (.success ['a', 'a'], [',', 'c']) := by decide +kernel

example : outcome testSeparatedBy ['a', 'a', 'a'] = some (.success ['a'], ['a', 'a']) := by decide +kernel

example : outcome testSeparatedBy ['b', 'c', 'a'] = some (.success [], ['b', 'c', 'a']) := by decide +kernel

example : outcome testSeparatedBy [',', 'a'] = some (.success [], [',', 'a']) := by decide +kernel

example : outcome testSeparatedBy ['a', ','] = some (.success ['a'], [',']) := by decide +kernel

/-- `test_separated_by_allow_leading` (src/combinator.rs:1112-1147) -/
def testSeparatedByAllowLeading : P (List Char) :=
  (G.separatedWith (.just 'a') (.just ',' : P Char)).leading.parser

example : outcome testSeparatedByAllowLeading ['a', ',', 'b', ',', 'c'] = some (.success ['a'], [',', 'b', ',', 'c']) := by decide +kernel

example : outcome testSeparatedByAllowLeading ['a', ',', 'a', ',', 'c'] = some (.success ['a', 'a'], [',', 'c']) := by decide +kernel

example : outcome testSeparatedByAllowLeading ['a', 'a', 'a'] = some (.success ['a'], ['a', 'a']) := by decide +kernel

example : outcome testSeparatedByAllowLeading ['b', 'c', 'a'] = some (.success [], ['b', 'c', 'a']) := by decide +kernel

example : outcome testSeparatedByAllowLeading [',', 'a'] = some (.success ['a'], []) := by decide +kernel

example : outcome testSeparatedByAllowLeading ['a', ','] = some (.success ['a'], [',']) := by decide +kernel

/-- `test_separated_by_allow_trailing` (src/combinator.rs:1150-1185) -/
def testSeparatedByAllowTrailing : P (List Char) :=
  (G.separatedWith (.just 'a') (.just ',' : P Char)).trailing.parser

example : outcome testSeparatedByAllowTrailing ['a', ',', 'b', ',', 'c'] = some (.success ['a'], ['b', ',', 'c']) := by decide +kernel

example : outcome testSeparatedByAllowTrailing ['a', ',', 'a', ',', 'c'] = some (.success ['a', 'a'], ['c']) := by decide +kernel

example : outcome testSeparatedByAllowTrailing ['a', 'a', 'a'] = some (.success ['a'], ['a', 'a']) := by decide +kernel

example : outcome testSeparatedByAllowTrailing ['b', 'c', 'a'] = some (.success [], ['b', 'c', 'a']) := by decide +kernel

example : outcome testSeparatedByAllowTrailing [',', 'a'] = some (.success [], [',', 'a']) := by decide +kernel

example : outcome testSeparatedByAllowTrailing ['a', ','] = some (.success ['a'], []) := by decide +kernel

/-- `test_always_fail` (src/recovery.rs:1754-1768) -/
def testAlwaysFail : P (Char) :=
  .toRecover (.just 'a') (.orFail (IS.doNothing .attemptTo))

example : outcome testAlwaysFail ['a', 'b', 'c'] = some (.success 'a', ['b', 'c']) := by decide +kernel

example : outcome testAlwaysFail ['c', 'b', 'a'] = some (.failed 0, ['c', 'b', 'a']) := by decide +kernel

/-- `test_just_return` (src/recovery.rs:1771-1788) -/
def testJustReturn : P (Char) :=
  .toRecover (.just 'a') (justReturn 'a')

example : outcome testJustReturn ['a', 'b', 'c'] = some (.success 'a', ['b', 'c']) := by decide +kernel

example : outcome testJustReturn ['c', 'b', 'a'] = some (.recovered 'a', ['c', 'b', 'a']) := by decide +kernel

/-- `test_just_return_with` (src/recovery.rs:1791-1808) -/
def testJustReturnWith : P (Char) :=
  .toRecover (.just 'a') (justReturnWith fun _ => 'a')

example : outcome testJustReturnWith ['a', 'b', 'c'] = some (.success 'a', ['b', 'c']) := by decide +kernel

example : outcome testJustReturnWith ['c', 'b', 'a'] = some (.recovered 'a', ['c', 'b', 'a']) := by decide +kernel

/-- `test_just_return_with_span` (src/recovery.rs:1811-1831) -/
def testJustReturnWithSpan : P (Char) :=
  .toRecover (.just 'a') (justReturnWithSpan fun sp => if sp = (0, 0) then 'a' else '!')

example : outcome testJustReturnWithSpan ['a', 'b', 'c'] = some (.success 'a', ['b', 'c']) := by decide +kernel

example : outcome testJustReturnWithSpan ['c', 'b', 'a'] = some (.recovered 'a', ['c', 'b', 'a']) := by decide +kernel

/-- `test_skip` (src/recovery.rs:1834-1847) -/
def testSkip : P (Char) :=
  .toRecover (.just 'a') (.retWithSpan skip fun sp => if sp = (0, 1) then 'a' else '!')

example : outcome testSkip ['c', 'b', 'a'] = some (.recovered 'a', ['b', 'a']) := by decide +kernel

/-- `test_restart` (src/recovery.rs:1850-1866) -/
def testRestart : P (Char) :=
  .toRecover (.just 'a') (.retWithSpan (.restart skip) fun sp => if sp = (0, 0) then 'a' else '!')

example : outcome testRestart ['c', 'b', 'a'] = some (.recovered 'a', ['c', 'b', 'a']) := by decide +kernel

/-- `test_seek_to_failed` (src/recovery.rs:1869-1883) -/
def testSeekToFailed : P (Char × Char) :=
  .toRecover (.then_ (.just 'a') (.just 'b'))
    (.retWithSpan seekToFailed fun sp => if sp = (0, 1) then ('a', 'b') else ('!', '!'))

example : outcome testSeekToFailed ['a', 'c', 'b'] = some (.recovered ('a', 'b'), ['c', 'b']) := by decide +kernel

/-- `test_skip_if` (src/recovery.rs:1886-1906) -/
def testSkipIf : P (Char) :=
  .toRecover (.just 'a') (.ret (skipIf fun t => t == 'c') 'a')

example : outcome testSkipIf ['c', 'b', 'a'] = some (.recovered 'a', ['b', 'a']) := by decide +kernel

example : outcome testSkipIf ['b', 'c', 'a'] = some (.recovered 'a', ['b', 'c', 'a']) := by decide +kernel

/-- `test_find_retry` (src/recovery.rs:1909-1926) -/
def testFindRetry : P (Char) :=
  .toRecover (.just 'a') (.orFail (IS.retryWith (find (S := charSig) fun t : Char => t == 'a')).strategy)

example : outcome testFindRetry ['c', 'b', 'a'] = some (.recovered 'a', []) := by decide +kernel

example : outcome testFindRetry ['b', 'a', 'c'] = some (.recovered 'a', ['c']) := by decide +kernel

/-- `test_while_not_retry` (src/recovery.rs:1929-1953) -/
def testWhileNotRetry : P (Char) :=
  .toRecover (.just 'a') (.orFail (whileNot (fun t => t == 'x') retry.strategy))

example : outcome testWhileNotRetry ['c', 'b', 'a'] = some (.recovered 'a', []) := by decide +kernel

example : outcome testWhileNotRetry ['b', 'a', 'c'] = some (.recovered 'a', ['c']) := by decide +kernel

example : outcome testWhileNotRetry ['b', 'x', 'a'] = some (.failed 0, ['b', 'x', 'a']) := by decide +kernel

/-- `test_nested_delimiters` (src/recovery.rs:1956-2014) -/
def testNestedDelimiters : P (Char) :=
  .toRecover (.just 'a') (.ret
    (.skip (scan (nestedDelimiters (simpleErr charSig) [('(', ')'), ('|', '|'), ('[', ']')]))) 'a')

example : outcome testNestedDelimiters ['c', 'b', 'a'] = some (.recovered 'a', ['b', 'a']) := by decide +kernel

example : outcome testNestedDelimiters ['(', 'c', ')', 'b', 'a'] = some (.recovered 'a', ['b', 'a']) := by decide +kernel

example : outcome testNestedDelimiters ['(', 'c', ']', ')', 'a'] = some (.recovered 'a', [')', 'a']) := by decide +kernel

example : outcome testNestedDelimiters ['(', 'c', 'a'] = some (.recovered 'a', []) := by decide +kernel

example : outcome testNestedDelimiters ['|', '|', '|', '|', 'b', 'c'] = some (.recovered 'a', ['|', '|', 'b', 'c']) := by decide +kernel

example : outcome testNestedDelimiters ['(', '[', ']', ')', 'b', 'c'] = some (.recovered 'a', ['b', 'c']) := by decide +kernel

end PPC.RepoTests
