{"id": "C01", "title": "Backtracking is exact", "statement": "Whatever a client does with a Stream through its public methods (save, restore, attempt, token, advance, span, location, ... on saved states it still owns, with save_at/advance_to used on already examined indices), every answer is the one an ideal cursor over the source sequence would give: after restore(s) the index is the index at which s was saved and the tokens, locations and spans read afterwards are the ones at that position in the source.", "quantifier": "every source (finite or infinite, fused or not), every adaptive client program of the stream API, every history of saves/restores/drops, every buffer and marker capacity policy of the allocator", "why_tests_cant": "The buffer is garbage-collected behind the client's back at capacity boundaries; a test only samples a few histories and one allocator policy.", "anchors": ["src/stream.rs: Stream::save, restore, attempt, token, advance, make_next_available", "src/stream.rs: SavedState"]}
{"id": "C02", "title": "Garbage collection never breaks a live saved state", "statement": "While a SavedState is alive no stream operation can make restoring it panic, and none of the internal assertions / index computations of the stream (restore, make_next_available, token, location_tracker, advance) can fail.", "quantifier": "every client history that respects ownership, every capacity policy, every order of dropping saved states", "why_tests_cant": "Depends on the relative order of drops, refills and reallocation; exponentially many histories.", "anchors": ["src/stream.rs: make_next_available (asserts at 200, 206), restore (asserts at 117, 121)", "src/stream.rs: SavedState"]}
{"id": "C03", "title": "Buffering is bounded by the look-back window", "statement": "The number of buffered tokens never exceeds a bound that depends only on the largest distance between the oldest live saved state and the read position (and the allocator's growth function), not on the length of the input; in particular a stream without live saved states drops everything already consumed when it has to refill at capacity.", "quantifier": "every history of stream operations, every input length, every monotone growth policy", "why_tests_cant": "A bound for all input lengths cannot be established by running finitely many inputs.", "anchors": ["src/stream.rs: make_next_available lines 180-212", "src/parser.rs: Parser::stream doc (doesn't require buffering the entire input)"]}
{"id": "C04", "title": "The source is pulled lazily, in order, once, and never after its end", "statement": "The number of next() calls made on the source is exactly one more than the largest index whose token was examined (0 if none was); every token is pulled once, in order; after the source has returned None it is never called again, so non-fused iterators are safe.", "quantifier": "every source and every ownership-respecting client history; in particular every parser built from the combinators", "why_tests_cant": "Over-reading only shows with specific interleavings of lookahead and backtracking, for interactive or non-fused sources.", "anchors": ["src/stream.rs: make_next_available, token, advance, eof"]}
{"id": "C05", "title": "End of input is sticky", "statement": "At end of input token() is None, eof() is true, advance() returns false and moves nothing, for ever, until an earlier saved state is restored.", "quantifier": "every source with an end, every history that reached the end, any number of repetitions", "why_tests_cant": "'For ever' and 'every history' are unbounded.", "anchors": ["src/stream.rs: advance, eof, token, make_next_available lines 159-169, 214-218"]}
{"id": "C06", "title": "Locations and spans depend only on the position", "statement": "location(), location_at(s), span() and spanning_back_to(s) return the value obtained by folding the tracker's advance over exactly the tokens that precede the position, starting from the start location; they do not depend on how often or from where the stream was backtracked.", "quantifier": "every tracker implementation, every source, every history", "why_tests_cant": "The tracker state is cached per buffered token; stale caches only show for particular refill/backtrack histories.", "anchors": ["src/stream.rs: location_tracker, location_tracker_at, location, location_at, span, spanning_back_to", "src/location.rs: Tracker"]}
{"id": "C07", "title": "attempt() rolls back exactly on Err", "statement": "attempt(f) leaves the stream where f left it when f returns Ok, and at the position it had before the call when f returns Err, and releases its own saved state in both cases.", "quantifier": "every closure f, every stream state", "why_tests_cant": "Quantifies over all closures.", "anchors": ["src/stream.rs: attempt"]}
{"id": "C08", "title": "advance_to / save_at reach the requested index", "statement": "advance_to(i) for i at or after the current index returns true exactly when at least i tokens exist and then the index is i; if the input ends earlier it returns false and stays at end of input; it panics when i lies before the current index. save_at(i) returns a state saved at index i and leaves the cursor where it was.", "quantifier": "every stream state, every target index", "why_tests_cant": "The fast path through the buffer and the refill path differ; the difference is visible only for indices past the end or past the buffered part. (FALSE of the code as it stands: the fast path walks over the buffered end-of-input marker, and save_at restores a stale buffer offset if a refill drained the buffer. Proved in the range where it holds, refuted outside.)", "anchors": ["src/stream.rs: advance_to, save_at"]}
{"id": "C09", "title": "token_at / location_at answer for every live saved state", "statement": "For every live SavedState s, token_at(s) is the source token at index_at(s) and location_at(s) its location, without panicking.", "quantifier": "every history and every live saved state", "why_tests_cant": "Only fails for saved states ahead of the cursor whose token was never fetched. (FALSE of the code: such a saved state makes location_at/token_at panic. Proved for all others, refuted there.)", "anchors": ["src/stream.rs: token_at, location_tracker_at, location_at"]}
{"id": "C10", "title": "Rich locations are text coordinates", "statement": "With the Rich tracker the location before token k has row = 1 + number of newlines, column = 1 + number of characters since the last newline, offset = number of UTF-8 bytes of the concatenated text of the tokens before k; hence it is independent of how the text is split into tokens, offset is monotone, and (row, column) determine the order.", "quantifier": "every token sequence, every token-to-text function, every split of the same text into tokens", "why_tests_cant": "All texts and all tokenisations.", "anchors": ["src/location.rs: Rich::advance, location, spanning_to, Rich::new"]}
{"id": "C11", "title": "A failed parse does not move the cursor", "statement": "When parse_internal returns Failed the stream cursor is exactly where parsing started, with recovery enabled or disabled.", "quantifier": "every parser assembled from the crate's primitives, combinators, recursion and recovery strategies, every input, every start position", "why_tests_cant": "Quantifies over all parsers and inputs. (FALSE in one case: try_map whose function returns Recovered while recovery is disabled returns Failed without rewinding. Proved for every grammar whose try_map functions do not return Recovered, refuted otherwise.)", "anchors": ["src/parser.rs: Parser::parse_internal contract", "src/algorithm.rs: concatenate!, concatenate, repeat, alternate", "src/combinator.rs: TryMap, ToRecover", "src/primitive.rs"]}
{"id": "C12", "title": "Recovery disabled means no recovered result", "statement": "parse_internal(stream, false) never returns Recovered, so the assertions and unreachable!() that rely on it never fire.", "quantifier": "every parser assembled from the crate, every input", "why_tests_cant": "Induction over all parser trees.", "anchors": ["src/algorithm.rs: concatenate! line 66, repeat line 281, alternate lines 322, 391", "src/combinator.rs: ToRecover, TryMap"]}
{"id": "C13", "title": "Errors are never empty", "statement": "Failed and Recovered always carry a nonempty error list (provided user error-updating functions keep it nonempty).", "quantifier": "every parser assembled from the crate, every input, both modes", "why_tests_cant": "Induction over all parser trees.", "anchors": ["src/parser.rs: Result docs", "src/algorithm.rs", "src/combinator.rs: TryMap, ToRecover", "src/recovery.rs"]}
{"id": "C14", "title": "The failure index is within the examined input", "statement": "The index in Failed(i, _) is at least the index at which the parser was started and at most the number of tokens already pulled, and never past end of input; so the save_at(i) that recovery performs neither panics nor refills.", "quantifier": "every parser assembled from the crate (with failing parsers rewinding), every input", "why_tests_cant": "Induction over all parser trees.", "anchors": ["src/parser.rs: Result::Failed", "src/combinator.rs: ToRecover line 699", "src/recovery.rs: Retry line 960, TryToParse line 1044"]}
{"id": "C15", "title": "Enabling recovery does not change what happens on valid input", "statement": "If a parser succeeds with recovery disabled it succeeds with recovery enabled, with the same output, at the same end position.", "quantifier": "every parser assembled from the crate (with coherent children), every input", "why_tests_cant": "Induction over all parser trees.", "anchors": ["src/parser.rs: parse_internal contract", "src/algorithm.rs: repeat, alternate"]}
{"id": "C16", "title": "Recovery never hides errors", "statement": "If a parser fails with recovery disabled, then with recovery enabled it returns Recovered (with the errors) or Failed, never Success.", "quantifier": "every parser, every input", "why_tests_cant": "FALSE of the code in two places: try_map turns Recovered into Success when its function returns Ok, and repeat returns Success after items were recovered. Proved for all grammars that avoid these two situations, refuted for each of them.", "anchors": ["src/parser.rs: Result::try_map lines 92-93", "src/algorithm.rs: repeat lines 220, 264"]}
{"id": "C17", "title": "Parsing never panics", "statement": "No assertion, unreachable!() or index error inside the library fires while parsing, given that recursive parsers are defined.", "quantifier": "every parser assembled from the crate, every input, every capacity policy", "why_tests_cant": "FALSE as a consequence of C11/C16 (alternation over such parsers reaches unreachable!()). Proved for grammars that avoid those, refuted for the others.", "anchors": ["src/algorithm.rs: alternate lines 322, 339, 391, 413", "src/combinator.rs: ToRecover", "src/stream.rs asserts"]}
{"id": "C18", "title": "Ordered choice", "statement": "or / alters / or_not return the output and end position of the first alternative (in declaration order) that succeeds without recovery when all are started at the same position; later alternatives are not consulted.", "quantifier": "every list of alternatives, every input, both modes", "why_tests_cant": "All lists of parsers and inputs.", "anchors": ["src/algorithm.rs: alternate!, alternate", "src/combinator.rs: Or, Alters, OrNot"]}
{"id": "C19", "title": "Failed choice reports the most promising alternative", "statement": "When all alternatives fail, the result carries the greatest failure index among the alternatives; if the best alternative (first among those with the greatest index) failed with a single expected/found error, the expected sets of all expected/found errors at the same location are merged into it, otherwise its errors are returned unchanged.", "quantifier": "every list of alternatives, every input", "why_tests_cant": "FALSE in the 'otherwise' branch: the code drops the best alternative and returns the second best. Merge branch proved, other branch refuted and characterised.", "anchors": ["src/algorithm.rs: alternate! lines 346-365, alternate lines 421-440"]}
{"id": "C20", "title": "Sequencing is contiguous and all-or-nothing", "statement": "then / then_ignore / ignore_then / delimited_by / padded_by / chain succeed exactly when each part succeeds starting where the previous one ended, return the documented part(s) of the outputs, concatenate recovered errors in order, and otherwise report the failure of the first failing part with the cursor back at the start.", "quantifier": "every list of parts, every input, both modes", "why_tests_cant": "All parsers and inputs.", "anchors": ["src/algorithm.rs: concatenate!, concatenate", "src/combinator.rs: Then, ThenIgnore, IgnoreThen, DelimitedBy, PaddedBy, Chain"]}
{"id": "C21", "title": "Repetition counts", "statement": "repeated()/separated_by() with at_least(min), at_most(max), exactly(n): on Success or Recovered the number of outputs is between min and max (min <= max); it is greedy: it stops early only if the next item does not parse.", "quantifier": "every item and separator parser, all min/max, every input", "why_tests_cant": "All numbers and inputs.", "anchors": ["src/algorithm.rs: repeat", "src/combinator.rs: SeparatedBy"]}
{"id": "C22", "title": "Separator placement", "statement": "On success the consumed input of separated_by is items with exactly one separator between consecutive items, an optional leading separator only with allow_leading, and an optional trailing one only with allow_trailing; a separator not followed by an item is not consumed unless allow_trailing. Documented: a leading separator is allowed even if no item follows, a trailing one only after at least one item.", "quantifier": "every item and separator parser, all flag combinations, every input", "why_tests_cant": "The documented leading/trailing clauses are FALSE of the code (a lone leading separator is not consumed with allow_leading alone; with both flags a lone separator with no item is consumed). Layout theorem proved, doc clauses refuted.", "anchors": ["src/algorithm.rs: repeat lines 184-276", "src/combinator.rs: SeparatedBy::allow_leading, allow_trailing"]}
{"id": "C23", "title": "or_not is total", "statement": "or_not never fails or recovers: it returns Some(output) exactly when the child succeeds without recovery, otherwise None without moving.", "quantifier": "every child parser whose failure rewinds, every input", "why_tests_cant": "All child parsers.", "anchors": ["src/combinator.rs: OrNot", "src/primitive.rs: none"]}
{"id": "C24", "title": "Primitives match exactly what they say", "statement": "empty, none, end, just, filter, filter_map, seq, one_of, none_of succeed exactly on the documented next tokens, consume exactly those tokens, return the documented value, and otherwise fail at the index of the first token that does not match with an expected/found error naming that token and the documented expectation.", "quantifier": "every token type with any equality, every input and position", "why_tests_cant": "All inputs; equality may be non-structural (as in the bundled pangram grammar).", "anchors": ["src/primitive.rs"]}
{"id": "C25", "title": "Mapped spans are the consumed tokens", "statement": "map_with_span and try_map hand their function the child's output and the span from the start position to the end position of the tokens the child consumed.", "quantifier": "every child, tracker and input", "why_tests_cant": "All children, trackers, inputs.", "anchors": ["src/combinator.rs: MapWithSpan, TryMap, MapErrWithSpan"]}
{"id": "C26", "title": "to_recover runs its strategy only when needed and rewinds when it fails", "statement": "to_recover returns the inner parser's result unchanged unless recovery is enabled and the inner parser failed; then it returns Recovered(output, errors) if the strategy succeeds and otherwise Failed with the original index, the strategy's error list and the cursor back at the start.", "quantifier": "every inner parser, every strategy, every input", "why_tests_cant": "All strategies and inputs.", "anchors": ["src/combinator.rs: ToRecover"]}
{"id": "C27", "title": "Strategies run in order, first success wins", "statement": "Each strategy combinator first runs its predecessor and does nothing if that succeeded; otherwise skip moves by one token, skip_if by one matching token, find to the first matching token or end, restart to the start position, seek_to_failed to the last failure, maybe rewinds when its inner strategy fails, while_not alternates the inner strategy and skipping until the predicate holds, push_error*/update_errors* change only the error list, and_return* succeed with the given output, or_fail fails.", "quantifier": "every strategy chain, parser, input", "why_tests_cant": "All strategy chains.", "anchors": ["src/recovery.rs"]}
{"id": "C28", "title": "retry and try_to_parse respect exactly() and silently()", "statement": "retry/try_to_parse run the parser at the current position, with its recovery unless exactly(); they append its errors to the list unless silently(); on failure they leave the cursor and set the failure position used by seek_to_failed.", "quantifier": "every parser, flag combination and input", "why_tests_cant": "All parsers and inputs.", "anchors": ["src/recovery.rs: Retry, TryToParse"]}
{"id": "C29", "title": "skip_then_retry_until equivalence", "statement": "to_recover(while_not(until, retry()).or_fail()) finds the first position at or after the start, before the first token satisfying until, at which the parser succeeds or recovers.", "quantifier": "every parser, predicate and input", "why_tests_cant": "All inputs.", "anchors": ["src/recovery.rs: module docs, WhileNot, Retry"]}
{"id": "C30", "title": "Nested delimiter scanning finds the matching delimiter", "statement": "scan(nested_delimiters(types)) started at a left delimiter stops just before the matching right delimiter with no errors when the enclosed text is balanced, reports unclosed left delimiters innermost first at end of input, never panics; documented: if the first token is not a left delimiter it does not move and reports nothing.", "quantifier": "every set of delimiter types (including left = right), every token sequence and nesting depth", "why_tests_cant": "Unbounded nesting. The last documented clause is FALSE for a right delimiter in first position (an error is reported); proved otherwise, refuted there.", "anchors": ["src/scanner.rs: NestedDelimiters, nested_delimiters", "src/recovery.rs: Scan"]}
{"id": "C31", "title": "Streaming conserves tokens", "statement": "stream() yields the results of running the parser again and again where the previous run stopped, ends exactly at end of input, and tail() yields exactly the source tokens not consumed; a failing parse consumes nothing.", "quantifier": "every parser, every source (also infinite), every number of next() calls", "why_tests_cant": "Unbounded number of calls.", "anchors": ["src/parser.rs: Stream::next, Stream::tail, Tail::next"]}
{"id": "C32", "title": "parse is parse_with_recovery seen through Result", "statement": "parse returns Ok(o) exactly when parse_with_recovery returns Success(o), and otherwise the first of its errors; is_ok/tree/errors/map/map_err agree with the constructor; the error iterator yields all errors in order and then None for ever.", "quantifier": "every result", "why_tests_cant": "All results; iterator property is for ever.", "anchors": ["src/parser.rs: From<Result>, Result, ErrorIter, parse, parse_with_recovery"]}
{"id": "C33", "title": "Recursive parsers mean their unfolding", "statement": "A recursive parser behaves as its definition with the recursive occurrences replaced by itself; the outcome of a parse does not depend on the evaluation bound once it is large enough; using an undefined recursive parser or defining twice panics.", "quantifier": "every system of mutually recursive definitions, every input", "why_tests_cant": "All grammars.", "anchors": ["src/recursive.rs: Recursive::declare, define, parse_internal, recursive"]}
{"id": "C34", "title": "Parsers denote their parsing expression grammar", "statement": "With recovery disabled a parser accepts a prefix and returns an output exactly when the relational parsing-expression-grammar semantics (ordered choice, greedy repetition, contiguous sequence) derives it, and fails exactly when the semantics derives failure.", "quantifier": "every parser assembled from the crate with recursion (functions given to try_map give at least one error when they reject or recover, and may recover only in a position where the parse does not go on at the same place after they failed; a list of alternatives has at least two; no repetition requires more items than it allows), every input", "why_tests_cant": "Equivalence of two semantics over all grammars and inputs.", "anchors": ["src/primitive.rs", "src/combinator.rs", "src/algorithm.rs", "src/recursive.rs"]}
{"id": "C35", "title": "Termination", "statement": "Parsing a finite input terminates for every grammar without left recursion and without repetition of a parser that can succeed without consuming; repetition of a parser that succeeds without consuming (and no maximum) never terminates.", "quantifier": "every such grammar, every finite input", "why_tests_cant": "Termination is not testable.", "anchors": ["src/algorithm.rs: repeat", "src/recursive.rs", "src/recovery.rs: Find, Scan, WhileNot"]}
{"id": "C36", "title": "Locality", "statement": "The outcome of a parse depends only on the tokens that were pulled: two inputs agreeing on those give the same outcome, end position and number of pulled tokens.", "quantifier": "every pair of sources, every parser", "why_tests_cant": "All pairs of inputs.", "anchors": ["src/stream.rs", "src/parser.rs: stream"]}
{"id": "C37", "title": "Streaming from a position equals parsing the rest", "statement": "Running a parser in the middle of a stream gives the same result as a fresh parse of the remaining tokens starting from the tracker state at that position, with failure indices shifted, for trackers that ignore the token index.", "quantifier": "every parser, every input, every position", "why_tests_cant": "All inputs and positions.", "anchors": ["src/parser.rs: stream doc", "src/stream.rs: location"]}
{"id": "C38", "title": "Tokenizer is lossless, maximal-munch, earliest-definition", "statement": "The bundled tokenizer's token texts concatenate to the input; each token is the longest match, ties broken by definition order; unmatched input yields one-byte error tokens; spans are consecutive; it terminates.", "quantifier": "every text, every set of token matchers (regular expressions abstracted as match-length functions)", "why_tests_cant": "All texts and token sets.", "anchors": ["src/test_pangram.rs: types::Tokenizer::next, new_with_location"]}
{"id": "C39", "title": "Tokenizer never panics", "statement": "The tokenizer yields tokens for every text.", "quantifier": "every text", "why_tests_cant": "FALSE: an unmatched multi-byte character is sliced in the middle. Refuted with a witness; proved for ASCII text / boundary-respecting positions.", "anchors": ["src/test_pangram.rs: types::Tokenizer::next lines 272-280"]}
{"id": "C40", "title": "Error messages", "statement": "Simple errors: expected_found collects the expected set, merging is set union and leaves found/location, location() returns the documented location, rendering lists every expected token once with commas and a final 'or'.", "quantifier": "every expected list, every token", "why_tests_cant": "All lists.", "anchors": ["src/error.rs: Simple, At, Display"]}
{"id": "C41", "title": "The position determines the outcome", "statement": "What a parser returns and where it stops depends only on the source, the position and the recovery flag: two streams over the same source at the same position, whatever was done with them before (saved states, rewinding, buffering, allocation growth), give the same result, the same end position and the same panics.", "quantifier": "every parser, every source, every pair of reachable streams at the same position, every allocator", "why_tests_cant": "All histories of stream use.", "anchors": ["src/stream.rs: Stream", "src/parser.rs: Parser::parse_internal"]}
{"id": "C42", "title": "Method chains build the parsers they spell out", "statement": "a.chain(b).and(c).. matches its parts in the order written and collects their outputs in that order; a.alters(b).and(c).. takes the first part, in the order written, that matches; any sequence of at_least, at_most, exactly, with_separator, allow_leading and allow_trailing calls configures a repetition with the last bounds and separator given, independent of the order of unrelated calls, and the number of outputs obeys those bounds; exactly/silently flags accumulate; just_return and friends recover on the spot; one_of, none_of and seq over texts, slices and single tokens accept exactly the tokens these contain.", "quantifier": "every parser, every number of chained calls in every order, every input and position", "why_tests_cant": "The number and order of the chained calls is unbounded.", "anchors": ["src/parser.rs: chain, alters, repeated, separated_by, ignored", "src/combinator.rs: Chain::and, Alters::and, SeparatedBy", "src/recovery.rs: Retry, TryToParse, just_return, do_nothing", "src/container.rs: Container"]}
{"id": "C43", "title": "Combinators satisfy the expected equivalences", "statement": "Parsers that should be interchangeable are: they give the same outputs, errors, failure indices, end positions and panics on every input. boxed and with_error are transparent; maps fuse; then is associative, then_ignore and ignore_then are its projections; delimited_by is l.ignore_then(m).then_ignore(r) and l.ignore_then(m.then_ignore(r)); padded_by is delimited_by the same parser; empty is neutral; chain is then with a vector; or is alters of two; or_not is some().or(none()); just is one_of and seq of one token; seq can be split; repeated and separated_by unroll.", "quantifier": "every parser, every input, position and recovery mode", "why_tests_cant": "All parsers and all inputs.", "anchors": ["src/parser.rs: Parser methods", "src/combinator.rs", "src/algorithm.rs"]}
{"id": "C44", "title": "The JSON parser reads JSON", "statement": "The JSON parser that the crate builds as its example accepts a text exactly when it is a JSON text (RFC 8259), returns the value that the text denotes, rejects every other text without panicking, reads a value anywhere in a source up to where its text ends, and streams a sequence of values one by one, however long the source is. (False of the code in six ways, each with a witness: whitespace in empty arrays and objects, decimal digits in \\uXXXX, fractions, exponents and their signs, raw control characters, integers from 2^127 on, and a panic; the exact language that is accepted is proved.)", "quantifier": "every text and every source of characters, every nesting depth, every function that converts numerals to floating point numbers", "why_tests_cant": "The language is infinite and nesting is unbounded.", "anchors": ["src/test_json.rs: test_json", "src/parser.rs: recursive, stream, parse"]}
{"id": "C45", "title": "The grammar-file parsers return the parse tree", "statement": "PtGrammar::parser(&patterns).parse(&tokens), and the same for the eight other types of tree: the result is Ok(tree) exactly if the tree is made by the rules of the notation (the comments at the top of the file), its terminal nodes have the token types their names say, and the tokens in it are the given ones in the given order, each with its index; otherwise it is Err. There is at most one such tree. The parse always returns, never panics, never recovers, and the assertions in the constructors of terminal nodes never fire. Anywhere in a source of tokens, a successful parse has consumed exactly the tokens of its tree.", "quantifier": "every list of tokens of any length and nesting, each of the nine parsers, with and without recovery", "why_tests_cant": "The language is infinite and nesting is unbounded.", "anchors": ["src/test_pangram.rs: PtGrammar::parser, PtRule, PtAlternation, PtFirstAlter, PtSubseqAlter, PtAlterName, PtConcatenation, PtRepetition, PtSingular, TerminalPatterns"]}
{"id": "C46", "title": "Visitors see every node once, from left to right", "statement": "visit calls the method for the type of the node, and traverse visits the fields that are there in the order of the type until a method returns Err. So a visitor that overrides only methods for terminal nodes gets exactly the tokens that were parsed, from first to last, each in the method for its type, up to its first error; a visitor whose nonterminal methods do something before and after traverse makes the pre- and post-order tour of the tree, leaving out what is below the nodes that it does not traverse; one that overrides nothing returns Ok and changes nothing. visit_mut replaces the terminal nodes one after the other up to the first error and leaves the rest of the tree as it is.", "quantifier": "every parse tree of any size, every visitor of these kinds, every state of it", "why_tests_cant": "All trees and all visitors.", "anchors": ["src/test_pangram.rs: Visitor, VisitorMut, visit, visit_mut, traverse, traverse_mut"]}
{"id": "C47", "title": "Error reports are truthful", "statement": "An error that says \"expected ..., found t at p\" is true: p is the span or the location of a position of the input, and t is the token there (none if the input ends there), whatever combinators the error went through and whether it was recovered from or not, as long as the user's own functions do not make or change such errors. With recovery disabled and no errors made by user functions, a failed parse carries exactly one error, and that error is about the token at the index the failure reports. Provided that different positions have different spans and locations, no error says that what it found was expected: the token found differs from every token in the expected set, also after merging.", "quantifier": "every parser, every input, every position, every error type, with and without recovery", "why_tests_cant": "All grammars and inputs, and all ways in which errors are merged.", "anchors": ["src/combinator.rs: End, Just, Filter, FilterMap, Seq, OneOf, NoneOf", "src/algorithm.rs: alternate, concatenate, repeat", "src/error.rs: Error::expected_found, merge_expected_found, Simple"]}
{"id": "C48", "title": "Grammar files are split into the right tokens", "statement": "With the token definitions of the grammar-file language, the regular expressions are well formed, each one finds the longest word of its token class (symbols, strings, sets, escapes, documentation comments, comments, blanks, punctuation), no text is a word of two classes, and every text has exactly one reading: at each place the longest word, or one unknown character. The tokenizer returns that reading with consecutive spans; it panics exactly if it gets to a character of more than one byte outside of a word. What is written as words that do not run together is read back as these words.", "quantifier": "every text, every location tracker", "why_tests_cant": "The regular expressions are long and nested, and the engine prefers the first alternative instead of the longest match; tests try a few texts.", "anchors": ["src/test_pangram.rs: TokenType::regex, TokenType::whitespace, tokenize, tokenize_from, Tokenizer::next"]}
{"id": "C49", "title": "Grammar files: from text to tree and back", "statement": "Tokenizing a text, dropping whitespace and unknown characters and parsing the rest as a whole grammar returns a tree and no errors exactly if the text reads as words, blanks and comments and the tree is made by the rules of the notation from these words in this order. Printing any such tree and parsing the text gives the tree back; blanks and comments between words make no difference except to the places of the tokens. The unknown characters are reported in order, the parser itself never panics, and the only panic is that of the tokenizer at a character of more than one byte outside of words.", "quantifier": "every text, every tree, every location tracker", "why_tests_cant": "The two test files are two points of an infinite set; the round trip is about all trees.", "anchors": ["src/test_pangram.rs: test_self_spec, test_simple, tokenize, Token::into_grammar_input, Token::into_error, PtGrammar::parser"]}
{"id": "C50", "title": "Equivalent parsers are interchangeable", "statement": "If two parsers cannot be told apart by running them, whatever the recursive parsers stand for, then one may be replaced by the other anywhere: at any depth inside other parsers, inside recovery strategies, and inside the definitions of recursive parsers. The parser with the replacements returns the same results, leaves the stream at the same places, panics with the same messages, and runs forever on the same inputs. It is not enough that the two behave alike under one set of definitions.", "quantifier": "every parser, every set of replaced places, every pair of equivalent parsers, every input and position", "why_tests_cant": "Contexts are unbounded, and recursive parsers are defined in terms of themselves, so that a replacement in a definition acts at all depths.", "anchors": ["src/combinator.rs: all impls of Parser", "src/recovery.rs: all impls of Strategy", "src/recursive.rs: Recursive"]}
{"id": "C51", "title": "The work of a parse is bounded by a polynomial", "statement": "For every parser there is a polynomial such that a parse of n tokens makes at most that many calls on the token stream, whether it succeeds, fails, recovers or panics; the degree is the depth to which repetitions without maximum and loops of recovery strategies are nested in the parser.", "quantifier": "every parser, every input of any length, with and without recovery", "why_tests_cant": "A test can time some inputs; it cannot show that no input is exponentially slow.", "anchors": ["src/algorithm.rs: alternate, repeat, concatenate", "src/recovery.rs: Find, Scan, WhileNot, Retry", "src/combinator.rs: ToRecover", "src/test_pangram.rs: PtRepetition, PtSingular, PtGrammar::parser"]}
{"id": "C52", "title": "JSON texts are parsed with linear work", "statement": "There is a constant such that the JSON parser makes at most that constant times n + 1 calls on the token stream for every text of n characters: no text, valid or not, however deeply nested, makes it look again and again at the same characters.", "quantifier": "every text of any length and nesting depth, valid or not, every function for floating point numbers, every allocator", "why_tests_cant": "The parser is recursive and backtracks; a test can time some texts but cannot exclude one that is slow.", "anchors": ["src/test_json.rs: test_json", "src/algorithm.rs: alternate, repeat, concatenate", "src/stream.rs: Stream"]}
{"id": "C53", "title": "Streaming takes memory that does not grow with the input", "statement": "While results are taken one after the other from a parser, and then the tokens that are left, the token stream never holds more tokens than a constant that depends on how many tokens the parser looks at for one result (and on the allocator), and never remembers more saved states than a constant that depends on how deeply parsers that have to go back are nested in the parser. Neither constant depends on the input, which may be endless, nor on the number of results. A parser that is recursive owns at most a fixed number of saved states for each level of the recursion.", "quantifier": "every parser, every input including endless ones, every number of results and tokens taken, every allocator, all states between two calls", "why_tests_cant": "Inputs are unbounded and the bound must hold in the middle of every parse; a test measures some runs.", "anchors": ["src/stream.rs: Stream::save, Stream::save_at, Stream::make_next_available, Stream::drop_old, SavedState", "src/parser.rs: Parser::stream, Stream::next, Stream::tail, Tail::next", "src/algorithm.rs: alternate, repeat, concatenate", "src/recovery.rs: all impls of Strategy"]}
{"id": "C54", "title": "The memory of recursive and boxed parsers is freed when it is no longer needed, and not before", "statement": "Parsers can be declared, defined, cloned, boxed, combined into other parsers and dropped in any order. A recursive or boxed parser that is part of something the user still owns is never freed, and when the last parser that contains it is dropped, its memory is freed; after all parsers have been dropped none is left. This also holds when defining a recursive parser twice has panicked.", "quantifier": "every history of any length of declaring, defining, cloning, boxing, combining and dropping parsers", "why_tests_cant": "Sharing makes the number of histories infinite, and a leak is not visible to a test that only looks at results.", "anchors": ["src/recursive.rs: Recursive::declare, Recursive::define, recursive, impl Clone for Recursive", "src/combinator.rs: Boxed", "src/parser.rs: Parser::boxed", "src/recovery.rs: IncompleteStrategy::boxed"]}
{"id": "C55", "title": "The grammar of grammar files written in its own notation describes what the parsers accept", "statement": "pangram/self-spec.ebnf describes grammar files in the notation of grammar files. It tells the truth: a text is parsed into a tree without errors exactly if the rules of that file derive it, from characters to tokens and from tokens to a grammar. The parsers also match any piece of a file as the rules say when their alternatives are tried in order and repetitions are greedy, and it makes no difference for complete files in which of the two ways the rules are read.", "quantifier": "every text, every list of tokens, every kind of tree", "why_tests_cant": "The two definitions of an infinite language are compared; a test can compare them on some texts only.", "anchors": ["pangram/self-spec.ebnf", "src/test_pangram.rs: PtGrammar::parser, PtRule::parser, PtRepetition::parser, PtSingular::parser, tokenize, test_self_spec"]}
{"id": "C56", "title": "The call stack of a parse grows at most linearly with the input", "statement": "A recursive parser that is entered stays on the call stack until it returns. For a grammar without left recursion and without endless repetition, a parse of a finite input never has more such calls in one another than twice the number of recursive parsers, times the number of tokens that are left plus one. For JSON texts it is the number of characters plus one, for grammar files five times the number of tokens plus one. The bound is of the right order: JSON texts with n nested brackets take more than n nested calls.", "quantifier": "every grammar that meets the conditions, every input of any length, every position, with and without recovery", "why_tests_cant": "Stack overflow depends on the worst input of each length; tests run with short inputs.", "anchors": ["src/recursive.rs: Recursive::parse_internal", "src/algorithm.rs: alternate, repeat, concatenate", "src/test_json.rs: test_json", "src/test_pangram.rs: PtGrammar::parser"]}
{"id": "C57", "title": "The work of a parse is bounded in terms of the length of the input, also for recursive parsers", "statement": "For a grammar without left recursion, without endless repetition and without map_err_with_span, the number of calls on the token stream is bounded by a function of the number of tokens that depends on the grammar only. With L tokens, loops over the input nested w deep and at most R recursive parsers entered before a token is consumed, it is at most (c (L + 1)^w)^(R (L + 1) + 1). Without loops over the input it is exponential, c^(L + 1). It does not matter whether the parse succeeds, fails, recovers or panics.", "quantifier": "every grammar that meets the conditions, every input of any length, with and without recovery, every allocator and location tracker", "why_tests_cant": "A test can count the calls for some inputs; that no input of the same length is worse, or takes for ever, is about all inputs.", "anchors": ["src/recursive.rs: Recursive::parse_internal", "src/algorithm.rs: alternate, repeat, concatenate", "src/combinator.rs: ToRecover", "src/recovery.rs: all impls of Recover"]}
{"id": "C58", "title": "The error of a failed parse lists exactly what was expected where it got furthest", "statement": "If a parse without recovery, and without functions of the user that make or change errors, fails, then its one error names the furthest position at which an alternative failed, the token found there and exactly what the alternatives that failed there expected. The grammar and the input determine all of it. A listed token would have let the parse go on, and every token that would have is listed.", "quantifier": "every grammar, every input, every position", "why_tests_cant": "Which alternatives fail where depends on the whole grammar and input; a test can look at some messages only.", "anchors": ["src/algorithm.rs: alternate, repeat, concatenate", "src/error.rs: Error::expected_found, Error::merge_expected_found", "src/primitive.rs: End, Just, Seq, OneOf, NoneOf, Filter, FilterMap"]}
{"id": "C59", "title": "How alternatives are grouped makes no difference", "statement": "a.or(b).or(c), a.or(b.or(c)) and a.alters(b).and(c) return the same for every input: the same output after the same tokens, or a failure at the same position with the same expectations. The same goes for a.or(a) and a, and for a.then(b).or(a.then(c)) and a.then(b.or(c)).", "quantifier": "all parsers a, b and c, all inputs, every position; with recovery enabled or disabled", "why_tests_cant": "Equivalence of parsers is about all inputs and all arguments; refactoring a grammar relies on it.", "anchors": ["src/algorithm.rs: alternate, concatenate", "src/combinator.rs: Or, Alters, Then", "src/parser.rs: Parser::or, Parser::alters, Parser::then"]}
{"id": "C60", "title": "Recovery only adds errors", "statement": "Enabling recovery loses no error: if a parse fails without recovery, then with recovery the errors of that failure are reported too, first and unchanged, whether the parse then recovers or fails. A parse that succeeds with recovery enabled and without errors succeeds in the same way without it.", "quantifier": "every parser, every strategy that does not change errors itself, every input, every position", "why_tests_cant": "Which errors are reported depends on what recovers and what fails later; a test sees single combinations.", "anchors": ["src/algorithm.rs: concatenate, alternate", "src/combinator.rs: ToRecover", "src/recovery.rs: all impls of Recover"]}
{"id": "C61", "title": "A panic can be caught and undone", "statement": "If a function of the user (a predicate, a function given to map, the token source, ...) panics while a parser runs and the panic is caught, then unwinding drops the saved states that the parser owned, the stream is in a state that could have been reached without the panic, states that were saved before the parse can still be restored, and parsers run from there return what they return on any stream that stands there. The parse can also be continued where it was stopped: no token was lost or is read twice.", "quantifier": "every parser, every point of every parse at which a panic can happen (between two calls of the stream or within one), every order of dropping, every reachable stream", "why_tests_cant": "The point at which a panic happens is arbitrary; a test panics at one.", "anchors": ["src/stream.rs: Stream::save, save_at, restore, make_next_available, token, span, advance_to, drop_old", "src/algorithm.rs", "src/parser.rs: Parser::parse, stream"]}
{"id": "C62", "title": "What tokens and places are makes no difference to a generic parser", "statement": "A parser that is written for any token type and location tracker treats all of them alike. If tokens are replaced one by one, in the parser and in the input, in a way that equality does not notice, the results are those with the tokens replaced. With another location tracker the same input gives a result of the same kind, with the same output after the same tokens or at the same position, and errors of the same kinds about the same tokens; a panic stays a panic and a parse that runs forever still does. In particular, with location::Rich a parser returns what it returns with location::Simple, with each index replaced by the rich location of that index.", "quantifier": "every grammar, with and without recursion and recovery, every pair of token types and of trackers, all relations between tokens, places, errors and outputs that the functions of the user respect, every input, every position", "why_tests_cant": "A test runs one instance; that no other token type or tracker behaves differently is about all instances.", "anchors": ["src/parser.rs: Parser::parse_internal and all impls", "src/location.rs: Tracker, Simple, Rich", "src/stream.rs: Stream", "src/error.rs: Error, Simple, Void", "src/recovery.rs: all impls of Recover, nested_delimiters", "src/algorithm.rs: concatenate, alternate, repeat"]}
{"id": "C63", "title": "Scanning nested delimiters accounts for every delimiter", "statement": "When recovery scans with nested_delimiters, every delimiter that is scanned is either matched with one of the same type or named in exactly one of the errors that are added, with its own token and span; matched delimiters do not cross, and tokens that are no delimiters are not named. A left delimiter is reported as unmatched only where a right delimiter closes an earlier one or the input ends, delimiters reported to be of different types are, and a right delimiter that closes nothing is reported only if the scan starts with it. A scan that starts at a left delimiter ends before the token that closes it or at the end of the input; otherwise it does not move.", "quantifier": "every list of delimiter types (also with equal left and right delimiters, or shared ones), every input of any length, every position, every error type and location tracker", "why_tests_cant": "There are unboundedly many ways to nest, omit and mix up delimiters; a test tries a few.", "anchors": ["src/scanner.rs: NestedDelimiters::handle_token, Scanner::scan, Scanner::eof, nested_delimiters", "src/recovery.rs: Scan", "src/combinator.rs: ToRecover"]}
{"id": "C64", "title": "A parser whose choices are decided by the next token accepts every sentence of its grammar", "statement": "Read as a context-free grammar, a parser describes sentences: a choice is any of its alternatives, whichever comes first, and a repetition is any admissible number of items, not the largest. Whatever the parser accepts is a sentence with that value. If at every choice, optional parser and repetition the next token decides which way to go on (no two alternatives begin with the same token, and nothing that an optional parser or an item begins with can follow it), then the parser accepts every sentence, with its value, and no sentence has two values.", "quantifier": "every grammar without recovery, also with recursion and functions of the user, that meets the condition, every input of any length, every position", "why_tests_cant": "Grammars with recursion have infinitely many sentences; that ordered choice and greedy repetition lose none of them is about all of them.", "anchors": ["src/parser.rs: Parser::parse", "src/algorithm.rs: concatenate, alternate, repeat", "src/combinator.rs: Or, Alters, OrNot, Repeated, SeparatedBy", "src/recursive.rs: Recursive", "src/primitive.rs: all parsers"]}
{"id": "C65", "title": "Errors are reported where the first mistake is", "statement": "If a parser that expects the end of the input fails, with recovery disabled, the error blames the token at which the first mistake is: the tokens before it are the beginning of a sentence of the grammar, and with this token they are not; or they are all tokens of the input, and these are the beginning of a sentence but not a sentence.", "quantifier": "every grammar without useless parts, also with recursion, every input of any length, every location tracker that tells positions apart", "why_tests_cant": "Mistakes can be anywhere in inputs of any length and nesting; a test looks at the errors for a few.", "anchors": ["src/parser.rs: Parser::parse", "src/algorithm.rs: concatenate, alternate, repeat", "src/combinator.rs: Or, Alters, OrNot, Repeated, SeparatedBy", "src/recursive.rs: Recursive", "src/error.rs: Simple"]}
{"id": "C66", "title": "Streaming returns the sentences of a series one by one", "statement": "If the input is a series of sentences of a grammar in which the next token decides at every choice and shows where a sentence ends, then each call of next on parser.stream(source) returns the value of the next sentence, in order, until the end of the input, and nothing from then on, and no token is left in tail(). This is so whenever each piece of the input, read after the pieces before it, would be a sentence if nothing followed it. If something else follows the series, its sentences are returned all the same and tail() yields the rest. There is only one way to cut the input into sentences, and without recovery a stream that returns only values has cut it that way. If the next token does not decide, a stream can fail for ever on a series of sentences.", "quantifier": "every grammar that meets the condition, also with recursion, every series of sentences of any length, every number of calls of next", "why_tests_cant": "A stream can return any number of results, and each depends on where the one before it ended; a test looks at a few.", "anchors": ["src/parser.rs: Parser::stream, Stream::next, Stream::tail, Tail::next", "src/algorithm.rs: concatenate, alternate, repeat", "src/combinator.rs: Or, Alters, OrNot, Repeated, SeparatedBy", "src/recursive.rs: Recursive"]}
{"id": "C67", "title": "Adding recovery to a grammar leaves valid inputs alone", "statement": "Let strategies be attached with to_recover to any parsers of a grammar, also of its recursive parsers. With recovery disabled this makes no difference at all: results, errors, positions and panics are the same. With recovery enabled, everything that the grammar accepts without the strategies is accepted with them, with the same value and up to the same position, and parse returns the same Ok. If the strategies are not attached where their errors are lost (under try_map, or in a repetition that goes on after its minimum, see C16), parse returns Ok for no other inputs.", "quantifier": "every grammar with and without recursion, every way to attach strategies to parsers in it, every strategy, every input, every position", "why_tests_cant": "Strategies can be attached anywhere and interact with choices and repetitions around them; a test compares a few grammars on a few inputs.", "anchors": ["src/combinator.rs: ToRecover", "src/parser.rs: Parser::parse, Parser::to_recover", "src/algorithm.rs: concatenate, alternate, repeat", "src/recursive.rs: Recursive"]}
{"id": "C68", "title": "A mistake in one statement does not affect the others", "statement": "Let body be a parser of a grammar in which the next token decides, none of whose sentences contains the token q, and let body.then_ignore(just(q)) recover with find(|t| t == q).skip().just_return(v). If the input is cut after every q, each call of next on the stream of this parser returns the result for the next piece: success with its value if the piece is a sentence of body followed by q, and otherwise a recovery with the value v and the errors that the parser reports for this piece. A wrong piece never consumes tokens of another one or changes its result; if the input ends without a q, what is after the last q is one more wrong piece; then the stream ends. Every input can be cut that way, and in one way only. If a sentence may contain q this is false.", "quantifier": "every grammar that meets the conditions, also with recursion, every number of statements, every subset of them being wrong in any way", "why_tests_cant": "There are infinitely many wrong statements and combinations of right and wrong ones; a test looks at a few.", "anchors": ["src/combinator.rs: ToRecover, ThenIgnore", "src/recovery.rs: find, skip, just_return", "src/parser.rs: Parser::stream, Stream::next", "src/algorithm.rs: concatenate, alternate, repeat"]}
