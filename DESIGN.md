# Formal model of parser-proof-of-concept: design

Target: the Rust crate in `/repo`, a backtracking parser-combinator library with
error recovery. Proof assistant: Lean 4.33.0. Everything is under `lean/Verif/`,
in namespace `PPC`.

## 1. Architecture of the model

### 1.1 The code

| Lean | models |
|---|---|
| `Basic` | signature `Sig` (token, location and span types, tracker functions, equalities), outcomes `Out` |
| `Stream` | `stream.rs` line by line: token buffer, `index_in_buffer`, weak backtrack markers, capacity-triggered draining, end-of-input sentinel, assertions and out-of-bounds accesses as explicit panics |
| `Prog` | free monad of stream API calls. A `Prog` is an arbitrary adaptive client; it can be run against the concrete stream or the ideal cursor |
| `Parser`, `Algorithm`, `Primitive`, `Combinator`, `Recovery`, `Scanner` | every `parse_internal`, `recover` and `scan` of the crate as a `Prog`, statement by statement, including where saved states are dropped |
| `Grammar` | deep embedding: mutual inductive types `G` (parsers), `GL` (lists of them), `IS` and `CS` (incomplete and complete strategies), one constructor per combinator; names for recursive parsers (`recursive.rs`); denotation `G.prog` into `Prog` |
| `Builder` | the methods of the `Parser` trait and of the builder types that produce these combinators (`chain`, `and`, `alters`, `at_least`, `retry`, ...) and `Container` |
| `Api` | `parse`, `parse_with_recovery`, `stream`, `tail` |
| `Error`, `Display`, `Location`, `Chars` | `error.rs`, rendering of messages, `location.rs` |
| `Handles` | `Rc` ownership of recursive parsers, boxed parsers and boxed strategies: allocations with reference counts, and the operations that make, clone and drop handles (C54) |
| `Tokenizer`, `Pangram`, `Visitor`, `Json` | the tokenizer, the parse trees and parsers, and the visitors of `test_pangram.rs`; the grammar of `test_json.rs` |

Every Rust panic reachable in the modelled code (assert!, unreachable!, index out
of bounds, unwrap on None, usize underflow) is an explicit outcome `Out.panic msg`.
Divergence is represented by a bound `n` on recursion depth and loop iterations:
`Out.oof` means "not finished within the bound". Results do not depend on the bound
(C33); `Finishes`/`Crashes`/`Diverges` quantify it away.

The source iterator is a function `Nat → Option I` giving the answer of the k-th
`next()` call: finite, infinite and non-fused iterators. `Vec`/`VecDeque` capacities
come from an arbitrary allocation policy `Alloc`. `Rc`/`Weak` liveness: a saved state
has a unique id, the stream holds weak ids, `drop` is an explicit operation executed
where Rust's scoping rules drop the value.

### 1.2 The specifications

| Lean | specifies |
|---|---|
| `Cursor` | the ideal stream: a position in a token sequence, how far the source was examined, the set of saved states still owned |
| `Reach` | legal histories of a stream; `Reach al e s`: state `s` is reachable on input `e` |
| `RunAt` | `ParsesAt e D n g en i r j`: on *every* reachable stream at position `i` the concrete parser returns `r` and leaves the stream at `j`; `PanicsAt` likewise |
| `SpecPeg` | `Accepts`/`Rejects`: the parsing-expression-grammar meaning of a grammar, without streams, errors or bounds |
| `SpecRecovery` | `Runs`: what a recovery strategy does, as a relation |
| `SpecTerm` | nullability, left calls, progress: conditions for termination |
| `SpecJson` | RFC 8259 as inductive relations between values and texts |
| `SpecLexer` | the words of each kind of token of grammar files, and maximal munch |
| `SpecEbnf` | the notation of grammar files, its context-free and ordered readings, and the rules of `pangram/self-spec.ebnf` |
| `SpecDepth` | parsers with room for a given number of nested calls of recursive parsers |
| `SpecReplace` | replacing parsers inside of parsers |
| `SpecMemory`, `SpecHandles` | bounds on what a stream holds; who owns which allocation |
| `Conditions` | the syntactic conditions on grammars used as hypotheses (`Clean`, `Coherent`, `Safe`, `Calm`, `Tidy`, ...) |

### 1.3 How the proofs are layered

1. *Refinement* (`Refine`, `RefLogic`): every client program that respects ownership gets
   the same answers from the concrete stream as from the ideal cursor.
2. *Positional semantics* (`Sem`, `SemRefine*`): on the ideal cursor, every parser is a
   function `PSem` of the recovery flag and the position, returning a result and a
   position. `G.sem` is compositional, so that properties of grammars are proved by
   induction over `G` on these functions (`Sem*` modules).
3. *Transport* (`ParserBase`, `RunAt`): what holds of `G.sem` holds of the concrete
   stream in every reachable state.

The `Props*` modules contain the property theorems only, with examples that show
that their hypotheses can be met, and the negations where the code violates a
property. The property theorems (`C..`) do not mention `G.sem`; they speak about runs on concrete
streams or about `ParsesAt` and its derivatives.

## 2. Simplifications (also stated next to each definition)

* User closures are pure total functions; `Clone` is the identity. `PartialEq` is an
  arbitrary Boolean function, with no law assumed.
* `usize` is `Nat`; `maximum.unwrap_or(usize::MAX)` is "no maximum".
* A panic ends the run of a parser. Unwinding is modelled on its own (C61: `Unwinds`, and the states a caught panic leaves behind).
* `HashSet<Option<I>>` in `error::Simple` is a duplicate-free list; its iteration order is
  arbitrary in the statements.
* The tuple macros `concatenate!`/`alternate!` are modelled at the arities used.
* `sort_by_key` is modelled by insertion sort, proved to be a sorted stable permutation,
  which determines the result of any stable sort.
* `Box<dyn ..>`, `Rc` sharing of parsers and lifetimes are not visible in the model of what parsers do; `boxed`
  is transparent. Ownership is modelled on its own (`Handles`), where a parser is the list of the handles it owns.
* In the generic tokenizer (C38, C39), regular expressions are functions giving the length of a
  match at the start of a text. The expressions of the grammar-file language (C48) are the strings
  of the source; the part of the syntax that they use, and leftmost-first matching, are modelled
  after the documentation of the `regex` crate, which is not among the sources.
* Failing allocations, and the capacity overflow of `Vec::with_capacity(minimum)` in `repeat` for a
  minimum near `usize::MAX`, are not modelled.
* `f64` parsing in the JSON grammar is an arbitrary function.
* Integer arithmetic in the JSON grammar wraps around (a release build); a debug build
  panics on the decimal digits of `\uXXXX` instead.

## 3. Properties

`properties.jsonl` has the statements. "partial" means that the property as stated is
false of the code; the negation is then proved with a witness, and the strongest
correct statement is proved as well.

| property | status | proof |
|---|---|---|
| C01 Backtracking is exact | proved. for every allocator, source, client program / legal history | simulation relation concrete stream / ideal cursor, induction over client programs (Refine) |
| C02 Garbage collection never breaks a live saved state | proved | the same; the drain step is shown to keep every live marker inside the buffer |
| C03 Buffering is bounded by the look-back window | proved. bound counts buffer entries; one extra entry only for the end-of-input marker | invariant over operation histories (BufferBound): the capacity grows only if the look-back window fills it |
| C04 The source is pulled lazily, in order, once, and never after its end | proved. for legal histories; outside them (advance_to past a seen end of input) the source is called again, proved as C04_not_after_end_fails | the simulation relation contains `pulled = hi`, `hi` being the examined frontier of the ideal cursor |
| C05 End of input is sticky | proved | laws of the ideal cursor, transported by refinement |
| C06 Locations and spans depend only on the position | proved | fold over the consumed tokens is an invariant; transported by refinement |
| C07 attempt() rolls back exactly on Err | proved | the program `attempt` on the ideal cursor, arbitrary body |
| C08 advance_to / save_at reach the requested index | partial. the property is false of the code past a seen end of input (advance_to) and beyond the tokens read (save_at): negations proved | laws of the ideal cursor inside the buffered range; negation by concrete runs |
| C09 token_at / location_at answer for every live saved state | partial. false for a live saved state at the unread frontier while the cursor is elsewhere: negation proved, exact condition proved | the same |
| C10 Rich locations are text coordinates | proved | closed form of the fold of `Rich::advance`, by list induction |
| C11 A failed parse does not move the cursor | partial. proved for grammars in which no try_map function returns Recovered; false otherwise: negation proved | induction over grammars, positional semantics (SemClean, SemTidy) |
| C12 Recovery disabled means no recovered result | proved. for all grammars | induction over grammars (SemRecovery: `NR`) |
| C13 Errors are never empty | proved. for grammars whose error-updating functions and scanners keep nonempty lists nonempty, as the property says | induction over grammars (SemErr, SemEmpty) |
| C14 The failure index is within the examined input | proved. index bounds for all grammars; the save_at consequence for failures that rewind (C11) | induction over grammars (SemAssert, ParserBase) |
| C15 Enabling recovery does not change what happens on valid input | proved. for all grammars | induction over grammars (SemRecovery: `SM`) |
| C16 Recovery never hides errors | partial. proved for coherent grammars; false in general: repeat and try_map drop recovered errors (negations proved) | induction over grammars (SemHide: `FN`); negations by evaluation |
| C17 Parsing never panics | partial. proved for safe grammars; false in general: six panicking witnesses proved | induction over grammars (SemPanic, SemPanicOff); negations by evaluation |
| C18 Ordered choice | proved. for alternatives that rewind on failure without recovery (implied by C11 for clean grammars) | exact characterisation of the fold over alternatives (SemChoice) |
| C19 Failed choice reports the most promising alternative | partial. the property is false of the code: with non-mergeable errors the second-best failure is returned (C19_most_promising_fails); what is returned is proved exactly in each case | the same, with the stable sort specified by sortedness, permutation and stability |
| C20 Sequencing is contiguous and all-or-nothing | proved. exact characterisations, with and without recovery | exact characterisation of the fold over parts (SemSeq) |
| C21 Repetition counts | proved. exact characterisation of repeated(); counts for repeated() and separated_by(); at_most below at_least wins (C21_max_below_min_wins) | exact characterisation of the loop (SemRepeat), by induction on the number of items |
| C22 Separator placement | partial. exact characterisation of separated_by(); the documented behaviour of a lone leading separator is false of the code (C22_leading_alone_fails, C22_both_alone) | the same with separators |
| C23 or_not is total | proved | corollary of C18 |
| C24 Primitives match exactly what they say | proved. just returns the expected token, not the incoming one as documented: C24_just_returns_expected | evaluation of the primitive on the ideal cursor for every token source |
| C25 Mapped spans are the consumed tokens | proved | span of the positions before and after |
| C26 to_recover runs its strategy only when needed and rewinds when it fails | proved. for parsers whose failures rewind (C11) | case analysis over the semantics of `to_recover` against the relation `RunsAll` (SpecRecovery) |
| C27 Strategies run in order, first success wins | proved. C26_recovers and C26_fails are stated with the specification RunsAll of every strategy combinator (SpecRecovery.lean) | relation `RunsAll`/`Runs` per strategy combinator, induction over strategies (SemStrategy) |
| C28 retry and try_to_parse respect exactly() and silently() | proved | the same |
| C29 skip_then_retry_until equivalence | proved. the second documented equivalence, with skip().retry(), is false: C29_skip_retry_misses | the same, loop by induction; negation of the second documented equivalence by evaluation |
| C30 Nested delimiter scanning finds the matching delimiter | partial. everything but the documented clause about a right delimiter in first position, which is false of the code (C30_first_right_reported) | induction over balanced words (Dyck language) given as an inductive relation |
| C31 Streaming conserves tokens | proved. a failing parse consumes nothing for parsers that satisfy C11; stream() then repeats the failure for ever (C31_failure_repeats) | induction over the number of `next` calls |
| C32 parse is parse_with_recovery seen through Result | proved | case analysis |
| C33 Recursive parsers mean their unfolding | proved. the second definition replaces the first one before the panic: C33_second_definition_stored | monotonicity in the evaluation bound (SemShift); state machine for declare/define |
| C37 Streaming from a position equals parsing the rest | proved. for trackers that ignore the token index, as the property says | relational semantics with shifted indices (SemShift) |
| C41 The position determines the outcome | proved | positional semantics is a function of the position |
| C36 Locality | proved | induction over client programs: two sources that agree below the examined frontier |
| C34 Parsers denote their parsing expression grammar | proved. the excluded uses are those for which the code deviates, see C34_recovering_try_map, C11, C17 and C20; a try_map that may return Recovered is allowed wherever the parse does not go on at the same position after it failed (G.Tidy) | relational PEG semantics `Accepts`/`Rejects` (SpecPeg); soundness by induction over the bound and the grammar, completeness by induction over derivations |
| C35 Termination | proved. the conditions are in SpecTerm; the divergence theorems show that each of them is needed | nullability and left-call relation (SpecTerm), lexicographic well-founded induction (SemTerm); divergence by induction over the bound |
| C38 Tokenizer is lossless, maximal-munch, earliest-definition | proved. regular expressions are abstracted to the length of their match at the start of a text | induction over the remaining text |
| C39 Tokenizer never panics | partial. false as stated: an unmatched character of more than one byte panics; C39_panics_iff says exactly when it does | case analysis of slicing at a non-boundary |
| C40 Error messages | proved. the iteration order of the hash set is arbitrary | membership lemmas; rendering as a function of the iteration order |
| C42 Method chains build the parsers they spell out | proved. the minimum is only guaranteed when it does not exceed the maximum (C21_max_below_min_wins) | unfolding of the builder methods, then C18, C20, C21, C28 |
| C43 Combinators satisfy the expected equivalences | proved. empty() in front of a parser is neutral only if the parser rewinds on failure | equality of positional semantics, for all positions and both modes |
| C44 The JSON parser reads JSON | partial. the property is false of the code (six witnesses); proved: the parser accepts exactly the dialect `actual` of SpecJson, with the values given there, and reads the common part of it and RFC 8259 correctly (C44_json_partial) | PEG semantics (C34) against an inductive grammar of JSON texts (SpecJson): soundness by strong induction over consumed length, completeness by mutual induction over derivations of texts; termination (C35), no panics without recovery (C17), success is independent of recovery (C15, C16) |
| C45 The grammar-file parsers return the parse tree | proved. lists of tokens are arbitrary; for the tokenizer see C38 and C48 | PEG semantics (C34) against an inductive definition of trees made by the rules (SpecPangram): soundness by strong induction over consumed length, completeness by mutual induction over trees with one token of lookahead; termination (C35), no recovery and no panics (C15, C17) |
| C46 Visitors see every node once, from left to right | proved. methods that visit other nodes than the one they were called with are not modelled | induction over trees; each traverse function is the run over the list of its fields |
| C47 Error reports are truthful | proved. user functions that make errors are covered by the predicate U of C47_truthful | induction over grammars with a property of errors that is closed under the library's operations; `Honest` is the least such property |
| C48 Grammar files are split into the right tokens | proved. the expressions are the strings of the source; their syntax and the leftmost-first semantics of the regex crate are modelled in Regex.lean | the strings are read into syntax trees, whose languages are the words of SpecLexer; first match = longest match because all but symbols and blanks are prefix-free; the first character and prefix-freeness separate the classes; then induction over the remaining text |
| C49 Grammar files: from text to tree and back | proved. the pipeline of test_self_spec and test_simple for any text; the contents of the two files are not part of the model | composition of C48, C38 and C45; a tree can be rebuilt with any tokens of the same types (mutual induction over trees) |
| C50 Equivalent parsers are interchangeable | proved. replacements are given by the inductive relation of SpecReplace; the last theorem shows that the parsers must be equivalent under all definitions | limits of the evaluation bound: every constructor is continuous (a run within its bound asks for finitely many results of its children), induction over the replacement relation; for definitions, induction over the recursion depth |
| C51 The work of a parse is bounded by a polynomial | partial. the property is false of recursive parsers in general: the parser of grammar files makes at least 4^(n+1) calls for n nested pairs of parentheses; it is also false of map_err_with_span, which makes a call for every error of its argument; proved for parsers that are not recursive, do not use map_err_with_span and do not repeat something that consumes nothing | calls are counted along the run (`Prog.calls`); upper bounds by induction over the parser, with the iterations of loops bounded as in C35; for grammar files, a lower bound by induction over the nesting depth, and an exponential outgrows every polynomial |
| C52 JSON texts are parsed with linear work | proved. for the parser of values and for the parser that expects the end of the text after it; at most 12200*(n+1) calls for n characters | the calls of a value are paid for by the characters that it consumes (`Fits`: calls + x ≤ y, with 2000 per character), by induction over the recursion depth and a case distinction on the first character of each value |
| C53 Streaming takes memory that does not grow with the input | proved. memory is the number of tokens in the buffer and of markers; memory that the user's functions, the outputs and the errors take is not modelled. C53_streaming_buffer bounds the buffer by how far the parser actually looks ahead; C53_look_ahead computes that for parsers without recursion, without repetitions that have no maximum and without searching strategies | clients are run call by call (`Prog.Through`); saved states are counted by a balance over the program (`Bal`), the marker list by an invariant relating its length to the owned states, the look-ahead by a bound on the furthest token (`Near`), and the buffer by C03 |
| C54 The memory of recursive and boxed parsers is freed when it is no longer needed, and not before | partial. the property is false of recursive parsers that are defined in terms of themselves, as those made by recursive() are: they own themselves and are never freed; proved for histories without such a definition. That nothing is freed too early is proved for all histories | allocations with reference counts (`Handles`), every history of operations; invariant: the count is the number of handles; without recursion there is an order on the allocations, with recursion a set whose members are held by members |
| C55 The grammar of grammar files written in its own notation describes what the parsers accept | partial. the property is false of texts with a line feed after a '#' in a string: self-spec.ebnf allows it and the tokenizer does not (C55_words_fails, C55_texts_fails); proved for all other texts, and for all lists of tokens | the notation, its context-free and its ordered reading, and the rules of `pangram/self-spec.ebnf` (`SpecEbnf`); trees of the parsers are derivations and the other way round; the ordered reading and the PEG semantics of the parsers (C34) simulate each other; the token rules against the words of C48 |
| C56 The call stack of a parse grows at most linearly with the input | proved. depth counts nested calls of recursive parsers; between two of them are at most as many frames of combinators as the grammar is deep | parsers with room for a number of nested calls (`SpecDepth`); they agree with the parsers without a bound; the convergence argument of C35 with a rank instead of well-founded induction; the lower bound by induction over the brackets |
| C57 The work of a parse is bounded in terms of the length of the input, also for recursive parsers | proved. that the work can be exponential is Pangram.C51_nested_calls; map_err_with_span has to be excluded because a function of the user decides how many calls it makes (C51_map_err_with_span_fails) | programs that are cut off later make the same calls and more (`SemLe`); a bound for `d` nested calls by induction on `d`, from the bound of C51 with the cost of a recursive parser as a parameter; the depth of C56 |
| C58 The error of a failed parse lists exactly what was expected where it got furthest | partial. the property is false in three ways: what end() expects is not put together with what others expect at the same position (C58_end_fails), a listed token need not let the parse go on (C58_token_fails), and what would make a repetition or an optional parser go on is not listed (C58_omitted_fails). What the error does say is characterised exactly, in both directions, by the relation Reports | `Reports` (SpecReport) says which position a failing parser blames and what it expected there; that the model follows it by induction on fuel and grammar (`G.sem_wy`), that it is deterministic by induction on derivations; the other direction from both and C34 |
| C59 How alternatives are grouped makes no difference | partial. false with recovery enabled (C59_recovery_fails) and of errors of end() and none_of (C59_end_fails); proved with recovery disabled for parsers without end(), none_of and functions of the user that make or change errors, with Simple errors. C59_factor_right_fails shows that what alternatives end with cannot be taken out | the relations `Accepts` and `Reports` of the two parsers are shown to be the same; that they decide the result is C34 and C58. Without `end()` and `none_of` all errors refer to spans, so that a choice of choices reports what one choice does |
| C60 Recovery only adds errors | partial. false of sequences that fail after a part of them was recovered, whose errors are not reported then (C60_sequence_fails), and of choices, which report the alternative that recovers only (C60_choice_fails); proved for parses that recover and use recovery in sequences only, and for a single to_recover that gives up | induction on fuel and grammar (`G.sem_fe`) of an invariant that relates the results with and without recovery; strategies only append errors by induction on strategies (`IS.ap`), under a condition on the user's functions and scanners only (`IS.Appends`) |
| C61 A panic can be caught and undone | partial. false if it is the location tracker that panics while a token is read: the token was taken from the source already and is lost, and the next one is found in its place (C61_tracker_fails); proved for panics everywhere else. Panics of the source after it moved, or of the drop of a token, are not modelled | a parse may stop between any two calls or within one (`StopsAt`); the lockstep of the stream with the ideal cursor is kept by every call and every part of a call, and by dropping the saved states the parser owned (`Tidy.stopsAt`, `UnwindsTo.reach`) |
| C62 What tokens and places are makes no difference to a generic parser | proved. relational: two grammars of the same shape over two signatures whose parameters correspond (RelG), on corresponding inputs. Errors have to be of types that correspond: a choice can panic with Void errors where it fails with Simple ones (C62_needs_errors). What errors list as expected depends on which places the tracker tells apart (C62_needs_places), so C62_tracker does not cover it; C62_rich and C62_tokens do | a relation between two grammars over two signatures (`RelG`: the same shape, related parameters) and the fundamental theorem by induction: related grammars on related inputs have related meanings (`RelG.sem`); then instances of the relation for trackers, `Rich`, and tokens |
| C63 Scanning nested delimiters accounts for every delimiter | proved. Accounts (SpecDelims.lean) says what it means to account for delimiters. C30 says exactly where the scan ends and what it reports in the single cases; C63 is one statement for all texts | the scanner is a transition system on positions of open delimiters, matched pairs and reports (`Step`); an invariant (`Inv`: every delimiter so far is open, paired or reported once; pairs do not cross) is kept by every step (`Inv.step`, `handle_step`) |
| C64 A parser whose choices are decided by the next token accepts every sentence of its grammar | proved. Derives (SpecCfg.lean) is the context-free reading, Predictive the condition, stated with tables of what may begin and follow each recursive parser. C64_choice_fails and C64_repetition_fails show that sentences are lost without the condition | context-free derivations (`Derives`: unordered choice, repetitions that may stop early) against the PEG semantics of C34: soundness by induction on `Accepts`; completeness by induction on the derivation, where the condition makes the alternatives that are tried before the right one fail at the next token (`Derives.head`, `rejects_of`, `Derives.accepts`) |
| C65 Errors are reported where the first mistake is | partial. the property is false: the failure of an item of a repetition is forgotten, so that the error can be any number of tokens before the first mistake (C65_early_fails), and for nested lists it is at the outermost one (C65_nested_fails). Proved: the error is never after the first mistake, for all grammars without useless parts, user errors and end() inside; and it is exactly there if the grammar is predictive (C64) and the source has not been asked for a token after the blamed one | by induction on `Reports` (C58), with a small calculus of phrases (`Phrase`): what was accepted is derived, what failed begins a phrase, and what is still missing can be derived after any tokens (`G.has`); derivations do not depend on what follows them (`Derives.here`). The other direction from C64 and C36: had a sentence begun like this, the parser could not have told the difference |
| C66 Streaming returns the sentences of a series one by one | proved. Phrases (a series of sentences in the sense of Derives, SpecCfg.lean) and Pieces are the specification. C66_choice_fails shows that the condition on the choices is needed. | by induction on the series, from C64 (each sentence is accepted, because the next one begins with a token that may follow it) and C31 (what the stream returns); pieces by C65's lemma that derivations do not depend on what follows them (`Derives.here`) |
| C67 Adding recovery to a grammar leaves valid inputs alone | proved. G.withoutRecovery (SpecWithout.lean) takes every to_recover out of a grammar. C67_invalid_fails shows that the condition of the last sentence is needed. C67_parse and C67_invalid assume that the function of try_map does not return Recovered, which is recovery by other means. | by induction on the grammar and the fuel: with recovery disabled every combinator runs its parts with recovery disabled, so that its meaning depends on theirs in this case only (`off`), and `to_recover` is its child (`G.sem_without`); with C15, C16 and C32 for enabled recovery and `parse` |
| C68 A mistake in one statement does not affect the others | proved. Statements (PropsStatements.lean) is the specification: the input cut at the terminators, with the value of each piece that is a sentence in the sense of Derives (SpecCfg.lean). avoidsL is the condition that no part of the grammar accepts the terminator; C68_inner_fails shows that it is needed. body must not recover by itself. | each piece is decided with C34 and C35: if it is accepted, it ends at its terminator because sentences contain none (`Derives.avoids`, by induction on the derivation); if it is rejected, C26 runs the strategy, whose `find` stops at the first terminator; the pieces are put together with C31 as in C66 |

## 4. Trusted base

Lean's kernel (every module is replayed by `vcheck`), and the reading of the Rust
source into the model, including the simplifications above. No axioms are added; no
`sorry`, `native_decide` or `bv_decide`. Closed examples are checked by
`decide +kernel`, which uses no axioms beyond those listed. The axioms each theorem of
MANIFEST.json depends on:

* `propext` only: `C04_not_after_end_fails`, `C08_advance_to_fails`, `C08_save_at_fails`, `C08_save_at_fails_panic`, `C09_token_at_fails`, `C11_failure_rewinds_fails`, `C13_condition_needed`, `C14_save_at_needs_rewind`, `C16_recovery_never_hides_fails`, `C16_try_map_hides`, `C17_never_panics_fails`, `C17_repeat_panics`, `C17_try_map_recovered_panics`, `C17_alters_none_panics`, `C17_alters_one_panics`, `C17_undefined_panics`, `C32_parse_ok`, `C32_parse_panic`, `C35_no_recursion`, `C38_filter`, `C39_never_panics_fails`, `C40_merge_other`, `C40_location`, `C42_separated_by_calls`, `C42_repeated_calls`, `C43_equivalence`, `Pangram.C45_nonempty`, `Pangram.C46_leaves`, `Pangram.C48_classes`
* `Quot.sound`, `propext` only: `C06_tokensBefore_list`, `C08_advance_to_backwards`, `C13_nested_delimiters_keep_errors`, `C31_ends_for_ever`, `C32_parse_err`, `C32_is_ok`, `C32_tree`, `C32_map`, `C32_map_err`, `C38_lossless`, `C38_first_longest`, `C38_spans`, `C38_terminates`, `C40_expected_found`, `C40_merge`, `C40_merge_again`, `C40_rendering`, `C40_rendering_count`, `C40_rendering_other`, `C40_before_at_quirk`, `C40_rich_span`, `C42_retry_calls`, `Pangram.C46_visit`, `Pangram.C46_terminals`, `Pangram.C46_order`, `Pangram.C46_default`, `Pangram.C46_tour`, `Pangram.C46_tour_exists`, `Pangram.C46_mut`, `Pangram.C46_shape`, `Pangram.C46_mut_default`, `Pangram.C48_empty_comment`, `Pangram.C48_arrow`, `C53_markers_bounded`, `Own.C54_freed_fails`, `Pangram.C55_words_fails`, `ExactPlaces.simple`, `C60_nested_delimiters_append`, `Generic.C62_self`, `Generic.C62_nested_delimiters`
* no axioms only: `C33_define_twice`, `C33_second_definition_stored`
* all three of `Classical.choice`, `Quot.sound`, `propext`: the other 333 theorems of MANIFEST.json

### What is modelled and what is not

Modelled: all of `stream.rs`, `parser.rs`, `algorithm.rs`, `primitive.rs`,
`combinator.rs`, `recovery.rs`, `scanner.rs`, `recursive.rs`, `container.rs`, `location.rs`,
`error.rs` (both error types and their rendering, `VoidedError`), the tokenizer, parse trees,
parsers and visitors of `test_pangram.rs` and what its tests do with a text, the rules of `pangram/self-spec.ebnf`, and the whole grammar of `test_json.rs`.

Not modelled: `Debug` output, `Clone` implementations (identities), `At::as_ref`, visitor
methods that visit other nodes than the one they are called with or replace it before
traversing it, trait and lifetime machinery, the implementation of the regular expression engine, timing and printing in the
tests.

### Testing the theorems

`seeded/LOG.jsonl` records edits of the model that mimic realistic bugs, and which
theorems failed to build after each. The edit is made in a scratch copy; files that
fail are analysed theorem by theorem, and theorems that depend on a failed helper
lemma are listed separately from those that fail themselves. When a module runs out of
memory, no error has a place; then a proof by evaluation counts as failed only if the
module also fails with all its other evaluations taken out. Records with
`"examples_failed": null` are older: their evaluations were not tried one by one and are
not listed.

`RepoTests.lean` runs the 42 unit tests of `primitive.rs`, `combinator.rs` and `recovery.rs` (111
streams) on the model: parser, input, expected result and expected rest of the input are those of
the Rust tests, and the kernel evaluates them. They test the model against the expectations
of the authors of the crate; no claim rests on them.

## 5. Disagreements between documentation or intent and code

Each has a theorem with a concrete witness, named in brackets.

1. `algorithm::alternate`, last branch: returns the errors of the *second* best alternative; the best one was already consumed from the iterator (C19_most_promising_fails).
2. `algorithm::repeat`: recovered errors are dropped and `Success` is returned once the minimum is met and the next item or separator fails (C16_recovery_never_hides_fails).
3. `Result::try_map`: recovered errors are dropped when the function returns `Ok` (C16_try_map_hides).
4. 2 and 3 make `alternate` hit `unreachable!("parser that previously failed now magically succeeded")` (C17_never_panics_fails, C17_repeat_panics).
5. `TryMap` with a function returning `Recovered` and recovery disabled: `Failed` without rewinding (C11_failure_rewinds_fails, C17_try_map_recovered_panics, C34_recovering_try_map).
6. `Stream::advance_to` walks over the buffered end-of-input sentinel (C08_advance_to_fails).
7. `Stream::save_at` restores a stale `index_in_buffer` if the buffer was drained on the way (C08_save_at_fails).
8. `Stream::token_at`/`location_at` panic for a live saved state ahead of the cursor whose token was never fetched (C09).
9. `allow_leading`: a lone leading separator is not consumed (documented as allowed); with both flags a lone separator is consumed (C22_leading_alone_fails, C22_both_alone).
10. `nested_delimiters`: a right delimiter as first token yields an error (documented: none) (C30_first_right_reported).
11. `at_least(m).at_most(k)` with `k < m` succeeds with `k` items (C21_max_below_min_wins). Repetition of a parser that matches nothing, left recursion and `while_not(_, restart())` diverge (C35).
12. Tokenizer: an unmatched multi-byte character panics (C39_never_panics_fails). `end()` and `none_of` at end of input use `At::Location`, so their errors never merge with those of other alternatives.
13. The documented equivalence of `skip_then_retry_until` with `skip().retry()` is wrong (C29_skip_retry_misses).
14. `Recursive::define` called twice replaces the definition before it panics (C33_second_definition_stored).
15. `advance_to` beyond an end of input that was seen calls `source.next()` again (C04_not_after_end_fails).
16. `alters` with one or no alternative panics (C17_alters_one_panics, C17_alters_none_panics).
17. `just` returns the expected token, not the incoming one as documented (C24_just_returns_expected).
18. `map_err_with_span` is given the empty span at the start on failure, not the span of the offending tokens (C25_map_err).
19. `stream()` with a parser that fails yields the same failure for ever (C31_failure_repeats).
20. Messages for unmatched delimiters contain "must be closed before  at" (C40_before_at_quirk).
21. `empty().ignore_then(a)` differs from `a` when `a` fails without rewinding (condition of C43_empty).
22. JSON grammar: whitespace in empty arrays and objects is rejected, `\uXXXX` with decimal digits is rejected or misread, fractions, exponents and their signs are dropped, raw control characters are accepted, integers from 2^127 on are rejected although the parser of numbers means to recover, and `170141183460469231731687303715884105728-5` panics (C44_*).
23. Grammar files: an empty comment `/**/` runs on to the end of the next comment and is read, with everything in between, as one documentation comment (C48_empty_comment).
24. Grammar files: `a->b` is read as the symbol `a-`, an unknown character `>` and the symbol `b` (C48_arrow); an arrow needs a blank before it.
25. Grammar files: a character of more than one byte outside of strings, sets and comments makes the tokenizer panic instead of being reported (C48_panics_iff).
26. Grammar files: the parser of a repetition tries `x ?`, `x *`, `x +` and `x` one after the other and parses `x` again for each, so that the work grows by a factor of four or more with every pair of nested parentheses (C51_nested_calls). A rule with thirty pairs of parentheses takes more than 4^31 calls on the stream.
27. `map_err_with_span` asks the stream for a span for every error of its argument, also when the spans are the same. A closure of `try_map` that returns many errors makes it do that many calls (C51_map_err_with_span_fails).
28. A parser made by `recursive(|p| ...)` whose definition contains a clone of `p` owns itself by a cycle of `Rc`: its memory, and that of everything in its definition, is never freed (C54_recursive_never_freed, C54_freed_fails). A `Weak` handle inside of the definition would be needed. A program that builds such a parser for every input leaks memory.
29. `pangram/self-spec.ebnf` and the tokenizer disagree about strings: the file allows any character after `#` (`## [^]`), the regular expression uses `#.`, which does not match a line feed. The self-specification derives `a:=="#⏎";`, and tokenizing it gives an error (C55_words_fails, C55_texts_fails). A text with a backslash-like escape at the end of a line inside a string is thus rejected although the specification allows it.
30. There is no limit on nesting, so the depth of the call stack is under the control of the input: a JSON text of `n` opening and `n` closing brackets is valid and takes more than `n` calls of the recursive parser in one another (C56_json_nested). A long enough text overflows the stack of the thread, which aborts the process. The depth is never worse than linear (C56_linear).
31. Error messages can mislead. What `end()` expects is dropped if another alternative failed at the same position first, and the other way round (C58_end_fails). A token that is listed as expected need not let the parse go on (C58_token_fails). What would have continued a repetition or an optional parser is not listed (C58_omitted_fails).
32. `a.or(b).or(c)`, `a.or(b.or(c))` and `a.alters(b).and(c)` are not the same: with recovery enabled the alternatives get the chance to recover in another order (C59_recovery_fails), and with `end()` expectations are lost (C59_end_fails).
33. Errors can get lost when recovery is enabled. If a part of a sequence recovers and a later part fails, only the errors of the later part are reported, although the first error is the one to mend first (C60_sequence_fails). A choice that recovers does not list what the other alternatives expected (C60_choice_fails).
34. If the location tracker panics while a token is read, the token is lost: it was taken from the source (src/stream.rs:172) and is not in the buffer yet (src/stream.rs:179). If the panic is caught, the next token takes its place, and restoring a saved state does not bring it back (C61_tracker_fails). Everywhere else a panic of a function of the user can be caught and undone (C61_consistent_partial, C61_undo_partial).
35. Whether a choice panics depends on the error type: `alters` with one alternative that fails returns that failure if errors are of type `Simple`, and panics if they are of type `Void`, because `Void` errors are not expected-found errors and the second-best failure, which does not exist, is returned then (src/algorithm.rs:426-440; C62_needs_errors). Token types and location trackers make no such difference (C62_generic).
36. As in every ordered choice, an alternative that is a prefix of a later one hides it, and a repetition never gives back an item: `1 2` is a sentence of `just(1).or(just(1).then(just(2)))` up to the end of the input, and it is rejected (C64_choice_fails, C64_repetition_fails). With `stream`, every answer after the first is then an error (C66_choice_fails). The documentation does not say so. C64 gives a condition under which nothing is lost.
37. Errors can be far before the mistake. If an item of a repetition fails after some tokens, the repetition ends before the item, and what follows the repetition is reported to be missing there, at the first token of the item, although nothing is wrong with that token. In nested lists this repeats at every level, so that the error ends up near the outermost list (C65_nested_fails, C65_early_fails). Keeping the furthest failure, as choices do, would avoid it.
