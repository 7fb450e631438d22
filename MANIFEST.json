{
 "claims": [
  {
   "property": "C01",
   "status": "proved",
   "theorems": [
    "PPC.C01_clients_agree_with_ideal_cursor",
    "PPC.C01_save",
    "PPC.C01_restore",
    "PPC.C01_round_trip"
   ],
   "note": "for every allocator, source, client program / legal history"
  },
  {
   "property": "C02",
   "status": "proved",
   "theorems": [
    "PPC.C02_no_internal_failure",
    "PPC.C02_owned_stays_restorable"
   ],
   "note": ""
  },
  {
   "property": "C03",
   "status": "proved",
   "theorems": [
    "PPC.C03_buffer_bounded",
    "PPC.C03_buffer_bounded_doubling",
    "PPC.C03_refill_drops_consumed"
   ],
   "note": "bound counts buffer entries; one extra entry only for the end-of-input marker"
  },
  {
   "property": "C04",
   "status": "proved",
   "theorems": [
    "PPC.C04_pulled_lazily",
    "PPC.C04_in_order_and_not_after_end",
    "PPC.C04_not_after_end_fails"
   ],
   "note": "for legal histories; outside them (advance_to past a seen end of input) the source is called again, proved as C04_not_after_end_fails"
  },
  {
   "property": "C05",
   "status": "proved",
   "theorems": [
    "PPC.C05_eof_sticky"
   ],
   "note": ""
  },
  {
   "property": "C06",
   "status": "proved",
   "theorems": [
    "PPC.C06_location_and_span",
    "PPC.C06_location_at",
    "PPC.C06_tokensBefore_list"
   ],
   "note": ""
  },
  {
   "property": "C07",
   "status": "proved",
   "theorems": [
    "PPC.C07_attempt"
   ],
   "note": ""
  },
  {
   "property": "C08",
   "status": "partial",
   "theorems": [
    "PPC.C08_advance_to_partial",
    "PPC.C08_advance_to_backwards",
    "PPC.C08_save_at_partial",
    "PPC.C08_advance_to_fails",
    "PPC.C08_save_at_fails",
    "PPC.C08_save_at_fails_panic"
   ],
   "note": "the property is false of the code past a seen end of input (advance_to) and beyond the tokens read (save_at): negations proved"
  },
  {
   "property": "C09",
   "status": "partial",
   "theorems": [
    "PPC.C09_token_at_partial",
    "PPC.C09_token_at_panics_iff",
    "PPC.C09_token_at_fails"
   ],
   "note": "false for a live saved state at the unread frontier while the cursor is elsewhere: negation proved, exact condition proved"
  },
  {
   "property": "C10",
   "status": "proved",
   "theorems": [
    "PPC.C10_rich_location",
    "PPC.C10_rich_location_stream",
    "PPC.C10_rich_span",
    "PPC.C10_split_independent",
    "PPC.C10_order"
   ],
   "note": ""
  },
  {
   "property": "C11",
   "status": "partial",
   "theorems": [
    "PPC.C11_failure_rewinds_partial",
    "PPC.C11_failure_rewinds_fails"
   ],
   "note": "proved for grammars in which no try_map function returns Recovered; false otherwise: negation proved"
  },
  {
   "property": "C12",
   "status": "proved",
   "theorems": [
    "PPC.C12_disabled_never_recovers",
    "PPC.C12_checks_never_fire"
   ],
   "note": "for all grammars"
  },
  {
   "property": "C13",
   "status": "proved",
   "theorems": [
    "PPC.C13_errors_nonempty",
    "PPC.C13_nested_delimiters_keep_errors",
    "PPC.C13_condition_needed"
   ],
   "note": "for grammars whose error-updating functions and scanners keep nonempty lists nonempty, as the property says"
  },
  {
   "property": "C14",
   "status": "proved",
   "theorems": [
    "PPC.C14_failure_index",
    "PPC.C14_save_at_failure",
    "PPC.C14_save_at_needs_rewind"
   ],
   "note": "index bounds for all grammars; the save_at consequence for failures that rewind (C11)"
  },
  {
   "property": "C15",
   "status": "proved",
   "theorems": [
    "PPC.C15_recovery_keeps_success",
    "PPC.C15_no_recovery_same",
    "PPC.C15_no_recovery_never_recovers"
   ],
   "note": "for all grammars"
  },
  {
   "property": "C16",
   "status": "partial",
   "theorems": [
    "PPC.C16_recovery_never_hides_partial",
    "PPC.C16_recovery_never_hides_fails",
    "PPC.C16_try_map_hides"
   ],
   "note": "proved for coherent grammars; false in general: repeat and try_map drop recovered errors (negations proved)"
  },
  {
   "property": "C17",
   "status": "partial",
   "theorems": [
    "PPC.C17_never_panics_partial",
    "PPC.C17_outcomes_partial",
    "PPC.C17_disabled_never_panics",
    "PPC.C17_nested_delimiters_never_panic",
    "PPC.C17_never_panics_fails",
    "PPC.C17_repeat_panics",
    "PPC.C17_try_map_recovered_panics",
    "PPC.C17_alters_none_panics",
    "PPC.C17_alters_one_panics",
    "PPC.C17_undefined_panics"
   ],
   "note": "proved for safe grammars; false in general: six panicking witnesses proved"
  },
  {
   "property": "C18",
   "status": "proved",
   "theorems": [
    "PPC.C18_alters_first_success",
    "PPC.C18_or_first_success"
   ],
   "note": "for alternatives that rewind on failure without recovery (implied by C11 for clean grammars)"
  },
  {
   "property": "C19",
   "status": "partial",
   "theorems": [
    "PPC.C19_recovers_in_order",
    "PPC.C19_merges_partial",
    "PPC.C19_merges_simple_partial",
    "PPC.C19_otherwise_second_partial",
    "PPC.C19_most_promising_fails"
   ],
   "note": "the property is false of the code: with non-mergeable errors the second-best failure is returned (C19_most_promising_fails); what is returned is proved exactly in each case"
  },
  {
   "property": "C20",
   "status": "proved",
   "theorems": [
    "PPC.C20_then_gives",
    "PPC.C20_then_fails",
    "PPC.C20_then_ignore_gives",
    "PPC.C20_then_ignore_fails",
    "PPC.C20_ignore_then_gives",
    "PPC.C20_ignore_then_fails",
    "PPC.C20_delimited_by_gives",
    "PPC.C20_delimited_by_fails",
    "PPC.C20_padded_by",
    "PPC.C20_chain_gives",
    "PPC.C20_chain_fails"
   ],
   "note": "exact characterisations, with and without recovery"
  },
  {
   "property": "C21",
   "status": "proved",
   "theorems": [
    "PPC.C21_repeated_gives",
    "PPC.C21_repeated_fails",
    "PPC.C21_counts",
    "PPC.C21_exactly",
    "PPC.C21_max_below_min_wins"
   ],
   "note": "exact characterisation of repeated(); counts for repeated() and separated_by(); at_most below at_least wins (C21_max_below_min_wins)"
  },
  {
   "property": "C22",
   "status": "partial",
   "theorems": [
    "PPC.C22_separated_by_gives",
    "PPC.C22_separated_by_fails",
    "PPC.C22_shape_partial",
    "PPC.C22_no_trailing",
    "PPC.C22_leading_alone_fails",
    "PPC.C22_both_alone"
   ],
   "note": "exact characterisation of separated_by(); the documented behaviour of a lone leading separator is false of the code (C22_leading_alone_fails, C22_both_alone)"
  },
  {
   "property": "C23",
   "status": "proved",
   "theorems": [
    "PPC.C23_or_not_some",
    "PPC.C23_or_not_none",
    "PPC.C23_or_not_succeeds",
    "PPC.C23_or_not_panics"
   ],
   "note": ""
  },
  {
   "property": "C24",
   "status": "proved",
   "theorems": [
    "PPC.C24_empty",
    "PPC.C24_none",
    "PPC.C24_end",
    "PPC.C24_just",
    "PPC.C24_filter",
    "PPC.C24_filter_map",
    "PPC.C24_one_of",
    "PPC.C24_none_of",
    "PPC.C24_seq",
    "PPC.C24_just_returns_expected"
   ],
   "note": "just returns the expected token, not the incoming one as documented: C24_just_returns_expected"
  },
  {
   "property": "C25",
   "status": "proved",
   "theorems": [
    "PPC.C25_map",
    "PPC.C25_map_with_span",
    "PPC.C25_map_fails",
    "PPC.C25_other_maps",
    "PPC.C25_map_err",
    "PPC.C25_try_map",
    "PPC.C25_try_map_recovered",
    "PPC.C25_try_map_fails"
   ],
   "note": ""
  },
  {
   "property": "C26",
   "status": "proved",
   "theorems": [
    "PPC.C26_disabled",
    "PPC.C26_unaffected",
    "PPC.C26_success",
    "PPC.C26_recovers",
    "PPC.C26_fails"
   ],
   "note": "for parsers whose failures rewind (C11)"
  },
  {
   "property": "C27",
   "status": "proved",
   "theorems": [
    "PPC.C26_recovers",
    "PPC.C26_fails",
    "PPC.C27_first_success_wins",
    "PPC.C27_find",
    "PPC.C27_seek_to_failed",
    "PPC.C27_maybe_rewinds"
   ],
   "note": "C26_recovers and C26_fails are stated with the specification RunsAll of every strategy combinator (SpecRecovery.lean)"
  },
  {
   "property": "C28",
   "status": "proved",
   "theorems": [
    "PPC.C28_try_to_parse",
    "PPC.C28_failure_position",
    "PPC.C28_retry"
   ],
   "note": ""
  },
  {
   "property": "C29",
   "status": "proved",
   "theorems": [
    "PPC.C29_recovers",
    "PPC.C29_fails",
    "PPC.C29_skip_retry_misses"
   ],
   "note": "the second documented equivalence, with skip().retry(), is false: C29_skip_retry_misses"
  },
  {
   "property": "C30",
   "status": "partial",
   "theorems": [
    "PPC.C30_balanced",
    "PPC.C30_unclosed",
    "PPC.C30_closes_outer",
    "PPC.C30_wrong_type",
    "PPC.C30_not_at_delimiter",
    "PPC.C17_nested_delimiters_never_panic",
    "PPC.C30_first_right_reported"
   ],
   "note": "everything but the documented clause about a right delimiter in first position, which is false of the code (C30_first_right_reported)"
  },
  {
   "property": "C31",
   "status": "proved",
   "theorems": [
    "PPC.C31_stream",
    "PPC.C31_ends_for_ever",
    "PPC.C31_conserves",
    "PPC.C31_failure_repeats",
    "PPC.C11_failure_rewinds_partial"
   ],
   "note": "a failing parse consumes nothing for parsers that satisfy C11; stream() then repeats the failure for ever (C31_failure_repeats)"
  },
  {
   "property": "C32",
   "status": "proved",
   "theorems": [
    "PPC.C32_parse_with_recovery",
    "PPC.C32_parse_ok",
    "PPC.C32_parse_err",
    "PPC.C32_parse_panic",
    "PPC.C32_is_ok",
    "PPC.C32_tree",
    "PPC.C32_map",
    "PPC.C32_map_err",
    "PPC.C32_errors"
   ],
   "note": ""
  },
  {
   "property": "C33",
   "status": "proved",
   "theorems": [
    "PPC.C33_bound_irrelevant",
    "PPC.C33_bound_irrelevant_panic",
    "PPC.C33_unique",
    "PPC.C33_returns_or_panics",
    "PPC.C33_call",
    "PPC.C33_call_panic",
    "PPC.C33_unfold",
    "PPC.C33_unfold_panic",
    "PPC.C33_undefined_panics",
    "PPC.C33_define_twice",
    "PPC.C33_second_definition_stored"
   ],
   "note": "the second definition replaces the first one before the panic: C33_second_definition_stored"
  },
  {
   "property": "C37",
   "status": "proved",
   "theorems": [
    "PPC.C37_rest",
    "PPC.C37_middle",
    "PPC.C37_panic",
    "PPC.C37_parse_rest"
   ],
   "note": "for trackers that ignore the token index, as the property says"
  },
  {
   "property": "C41",
   "status": "proved",
   "theorems": [
    "PPC.C41_position_determines_result",
    "PPC.C41_position_determines_panic",
    "PPC.C41_one_run_is_all_runs",
    "PPC.C41_positions_exist"
   ],
   "note": ""
  },
  {
   "property": "C36",
   "status": "proved",
   "theorems": [
    "PPC.C36_locality",
    "PPC.C36_parse",
    "PPC.C36_panic"
   ],
   "note": ""
  },
  {
   "property": "C34",
   "status": "proved",
   "theorems": [
    "PPC.C34_accepts",
    "PPC.C34_rejects",
    "PPC.C34_stays",
    "PPC.C34_no_recovery",
    "PPC.C34_deterministic",
    "PPC.C34_exclusive",
    "PPC.C34_recovering_try_map"
   ],
   "note": "the excluded uses are those for which the code deviates, see C34_recovering_try_map, C11, C17 and C20; a try_map that may return Recovered is allowed wherever the parse does not go on at the same position after it failed (G.Tidy)"
  },
  {
   "property": "C35",
   "status": "proved",
   "theorems": [
    "PPC.C35_terminates",
    "PPC.C35_returns",
    "PPC.C35_parse_with_recovery",
    "PPC.C35_no_recursion",
    "PPC.C35_empty_repetition_diverges",
    "PPC.C35_left_recursion_diverges",
    "PPC.C35_while_not_restart_diverges"
   ],
   "note": "the conditions are in SpecTerm; the divergence theorems show that each of them is needed"
  },
  {
   "property": "C38",
   "status": "proved",
   "theorems": [
    "PPC.C38_lossless",
    "PPC.C38_first_longest",
    "PPC.C38_spans",
    "PPC.C38_determined",
    "PPC.C38_terminates",
    "PPC.C38_filter"
   ],
   "note": "regular expressions are abstracted to the length of their match at the start of a text"
  },
  {
   "property": "C39",
   "status": "partial",
   "theorems": [
    "PPC.C39_never_panics_partial",
    "PPC.C39_ascii",
    "PPC.C39_panics_iff",
    "PPC.C39_never_panics_fails"
   ],
   "note": "false as stated: an unmatched character of more than one byte panics; C39_panics_iff says exactly when it does"
  },
  {
   "property": "C40",
   "status": "proved",
   "theorems": [
    "PPC.C40_expected_found",
    "PPC.C40_merge",
    "PPC.C40_merge_other",
    "PPC.C40_merge_again",
    "PPC.C40_location",
    "PPC.C40_rendering",
    "PPC.C40_rendering_count",
    "PPC.C40_rendering_other",
    "PPC.C40_before_at_quirk",
    "PPC.C40_rich_span"
   ],
   "note": "the iteration order of the hash set is arbitrary"
  },
  {
   "property": "C42",
   "status": "proved",
   "theorems": [
    "PPC.C42_chain_gives",
    "PPC.C42_chain_fails",
    "PPC.C42_alters_first_wins",
    "PPC.C42_separated_by_calls",
    "PPC.C42_repeated_calls",
    "PPC.C42_counts",
    "PPC.C42_retry_calls",
    "PPC.C42_just_return",
    "PPC.C42_one_of",
    "PPC.C42_none_of",
    "PPC.C42_seq",
    "PPC.C42_text"
   ],
   "note": "the minimum is only guaranteed when it does not exceed the maximum (C21_max_below_min_wins)"
  },
  {
   "property": "C43",
   "status": "proved",
   "theorems": [
    "PPC.C43_equivalence",
    "PPC.C43_transparent",
    "PPC.C43_map",
    "PPC.C43_to",
    "PPC.C43_map_err",
    "PPC.C43_then_projections",
    "PPC.C43_then_assoc",
    "PPC.C43_delimited_by",
    "PPC.C43_empty",
    "PPC.C43_chain",
    "PPC.C43_or",
    "PPC.C43_filter",
    "PPC.C43_just",
    "PPC.C43_seq",
    "PPC.C43_repeated",
    "PPC.C43_separated_by",
    "PPC.C43_at_least_one_differs"
   ],
   "note": "empty() in front of a parser is neutral only if the parser rewinds on failure"
  },
  {
   "property": "C44",
   "status": "partial",
   "theorems": [
    "PPC.Json.C44_parse",
    "PPC.Json.C44_accepts",
    "PPC.Json.C44_rejects",
    "PPC.Json.C44_unambiguous",
    "PPC.Json.C44_next",
    "PPC.Json.C44_consumes",
    "PPC.Json.C44_every_value",
    "PPC.Json.C44_stream",
    "PPC.Json.C44_benchmark",
    "PPC.Json.C44_json_partial",
    "PPC.Json.C44_blank_array",
    "PPC.Json.C44_unicode_escape",
    "PPC.Json.C44_unicode_misread",
    "PPC.Json.C44_fraction_dropped",
    "PPC.Json.C44_control_characters",
    "PPC.Json.C44_large_integer",
    "PPC.Json.C44_panics"
   ],
   "note": "the property is false of the code (six witnesses); proved: the parser accepts exactly the dialect `actual` of SpecJson, with the values given there, and reads the common part of it and RFC 8259 correctly (C44_json_partial)"
  },
  {
   "property": "C45",
   "status": "proved",
   "theorems": [
    "PPC.Pangram.C45_accepts",
    "PPC.Pangram.C45_returns",
    "PPC.Pangram.C45_parse",
    "PPC.Pangram.C45_rejects",
    "PPC.Pangram.C45_nonempty",
    "PPC.Pangram.C45_unambiguous",
    "PPC.Pangram.C45_consumes",
    "PPC.Pangram.C45_next",
    "PPC.Pangram.C45_assertions"
   ],
   "note": "lists of tokens are arbitrary; for the tokenizer see C38 and C48"
  },
  {
   "property": "C46",
   "status": "proved",
   "theorems": [
    "PPC.Pangram.C46_visit",
    "PPC.Pangram.C46_terminals",
    "PPC.Pangram.C46_leaves",
    "PPC.Pangram.C46_order",
    "PPC.Pangram.C46_default",
    "PPC.Pangram.C46_tour",
    "PPC.Pangram.C46_tour_exists",
    "PPC.Pangram.C46_mut",
    "PPC.Pangram.C46_shape",
    "PPC.Pangram.C46_mut_default",
    "PPC.Pangram.C46_parsed"
   ],
   "note": "methods that visit other nodes than the one they were called with are not modelled"
  },
  {
   "property": "C47",
   "status": "proved",
   "theorems": [
    "PPC.C47_truthful",
    "PPC.C47_simple",
    "PPC.C47_failure",
    "PPC.C47_failure_simple",
    "PPC.C47_unmet",
    "PPC.C47_unmet_needs_places"
   ],
   "note": "user functions that make errors are covered by the predicate U of C47_truthful"
  },
  {
   "property": "C48",
   "status": "proved",
   "theorems": [
    "PPC.Pangram.C48_regexes_compile",
    "PPC.Pangram.C48_match",
    "PPC.Pangram.C48_classes",
    "PPC.Pangram.C48_reading",
    "PPC.Pangram.C48_tokens",
    "PPC.Pangram.C48_determined",
    "PPC.Pangram.C48_panics_iff",
    "PPC.Pangram.C48_written",
    "PPC.Pangram.C48_empty_comment",
    "PPC.Pangram.C48_arrow"
   ],
   "note": "the expressions are the strings of the source; their syntax and the leftmost-first semantics of the regex crate are modelled in Regex.lean"
  },
  {
   "property": "C49",
   "status": "proved",
   "theorems": [
    "PPC.Pangram.C49_accepts",
    "PPC.Pangram.C49_panics_iff",
    "PPC.Pangram.C49_returns",
    "PPC.Pangram.C49_unique",
    "PPC.Pangram.C49_written",
    "PPC.Pangram.C49_print",
    "PPC.Pangram.C49_layout"
   ],
   "note": "the pipeline of test_self_spec and test_simple for any text; the contents of the two files are not part of the model"
  },
  {
   "property": "C50",
   "status": "proved",
   "theorems": [
    "PPC.C50_same_results",
    "PPC.C50_same_panics",
    "PPC.C50_same_divergence",
    "PPC.C50_congruence",
    "PPC.C50_given_definitions_fails"
   ],
   "note": "replacements are given by the inductive relation of SpecReplace; the last theorem shows that the parsers must be equivalent under all definitions"
  },
  {
   "property": "C51",
   "status": "partial",
   "theorems": [
    "PPC.C51_polynomial_partial",
    "PPC.C51_parse_partial",
    "PPC.Pangram.C51_nested_accepted",
    "PPC.Pangram.C51_nested_calls",
    "PPC.Pangram.C51_grammar_files_fails",
    "PPC.C51_map_err_with_span_fails"
   ],
   "note": "the property is false of recursive parsers in general: the parser of grammar files makes at least 4^(n+1) calls for n nested pairs of parentheses; it is also false of map_err_with_span, which makes a call for every error of its argument; proved for parsers that are not recursive, do not use map_err_with_span and do not repeat something that consumes nothing"
  },
  {
   "property": "C52",
   "status": "proved",
   "theorems": [
    "PPC.Json.C52_linear"
   ],
   "note": "for the parser of values and for the parser that expects the end of the text after it; at most 12200*(n+1) calls for n characters"
  },
  {
   "property": "C53",
   "status": "proved",
   "theorems": [
    "PPC.C53_owned_states_bounded",
    "PPC.C53_owned_states_streaming",
    "PPC.C53_markers_bounded",
    "PPC.C53_streaming_buffer",
    "PPC.C53_look_ahead",
    "PPC.C53_streaming_memory",
    "PPC.C53_streaming_memory_rust"
   ],
   "note": "memory is the number of tokens in the buffer and of markers; memory that the user's functions, the outputs and the errors take is not modelled. C53_streaming_buffer bounds the buffer by how far the parser actually looks ahead; C53_look_ahead computes that for parsers without recursion, without repetitions that have no maximum and without searching strategies"
  },
  {
   "property": "C54",
   "status": "partial",
   "theorems": [
    "PPC.Own.C54_never_freed_early",
    "PPC.Own.C54_counts",
    "PPC.Own.C54_freed_partial",
    "PPC.Own.C54_all_freed_partial",
    "PPC.Own.C54_recursive_never_freed",
    "PPC.Own.C54_freed_fails"
   ],
   "note": "the property is false of recursive parsers that are defined in terms of themselves, as those made by recursive() are: they own themselves and are never freed; proved for histories without such a definition. That nothing is freed too early is proved for all histories"
  },
  {
   "property": "C55",
   "status": "partial",
   "theorems": [
    "PPC.Pangram.C55_matches",
    "PPC.Pangram.C55_no_match",
    "PPC.Pangram.C55_parse",
    "PPC.Pangram.C55_order",
    "PPC.Pangram.C55_words_partial",
    "PPC.Pangram.C55_words_fails",
    "PPC.Pangram.C55_texts_partial",
    "PPC.Pangram.C55_texts_fails"
   ],
   "note": "the property is false of texts with a line feed after a '#' in a string: self-spec.ebnf allows it and the tokenizer does not (C55_words_fails, C55_texts_fails); proved for all other texts, and for all lists of tokens"
  },
  {
   "property": "C56",
   "status": "proved",
   "theorems": [
    "PPC.C56_some_depth",
    "PPC.C56_more_room",
    "PPC.C56_ranked",
    "PPC.C56_linear",
    "PPC.C56_no_recursion",
    "PPC.Json.C56_json",
    "PPC.Json.C56_json_nested",
    "PPC.Pangram.C56_grammar_files"
   ],
   "note": "depth counts nested calls of recursive parsers; between two of them are at most as many frames of combinators as the grammar is deep"
  },
  {
   "property": "C57",
   "status": "proved",
   "theorems": [
    "PPC.C57_ranked",
    "PPC.C57_bound",
    "PPC.C57_exponential",
    "PPC.Pangram.C57_grammar_files"
   ],
   "note": "that the work can be exponential is Pangram.C51_nested_calls; map_err_with_span has to be excluded because a function of the user decides how many calls it makes (C51_map_err_with_span_fails)"
  },
  {
   "property": "C58",
   "status": "partial",
   "theorems": [
    "PPC.C58_report_partial",
    "PPC.C58_derived_partial",
    "PPC.C58_unique",
    "PPC.ExactPlaces.simple",
    "PPC.ExactPlaces.rich",
    "PPC.C58_end_fails",
    "PPC.C58_token_fails",
    "PPC.C58_omitted_fails"
   ],
   "note": "the property is false in three ways: what end() expects is not put together with what others expect at the same position (C58_end_fails), a listed token need not let the parse go on (C58_token_fails), and what would make a repetition or an optional parser go on is not listed (C58_omitted_fails). What the error does say is characterised exactly, in both directions, by the relation Reports"
  },
  {
   "property": "C59",
   "status": "partial",
   "theorems": [
    "PPC.C59_or_assoc_partial",
    "PPC.C59_alters_partial",
    "PPC.C59_or_twice_partial",
    "PPC.C59_factor_partial",
    "PPC.C59_recovery_fails",
    "PPC.C59_end_fails",
    "PPC.C59_factor_right_fails"
   ],
   "note": "false with recovery enabled (C59_recovery_fails) and of errors of end() and none_of (C59_end_fails); proved with recovery disabled for parsers without end(), none_of and functions of the user that make or change errors, with Simple errors. C59_factor_right_fails shows that what alternatives end with cannot be taken out"
  },
  {
   "property": "C60",
   "status": "partial",
   "theorems": [
    "PPC.C60_recovered_partial",
    "PPC.C60_success_partial",
    "PPC.C60_gives_up_partial",
    "PPC.C60_nested_delimiters_append",
    "PPC.C60_sequence_fails",
    "PPC.C60_choice_fails"
   ],
   "note": "false of sequences that fail after a part of them was recovered, whose errors are not reported then (C60_sequence_fails), and of choices, which report the alternative that recovers only (C60_choice_fails); proved for parses that recover and use recovery in sequences only, and for a single to_recover that gives up"
  },
  {
   "property": "C61",
   "status": "partial",
   "theorems": [
    "PPC.C61_unwinds",
    "PPC.C61_consistent_partial",
    "PPC.C61_undo_partial",
    "PPC.C61_continue_partial",
    "PPC.C61_streaming_partial",
    "PPC.C61_tracker_fails"
   ],
   "note": "false if it is the location tracker that panics while a token is read: the token was taken from the source already and is lost, and the next one is found in its place (C61_tracker_fails); proved for panics everywhere else. Panics of the source after it moved, or of the drop of a token, are not modelled"
  },
  {
   "property": "C62",
   "status": "proved",
   "theorems": [
    "PPC.Generic.C62_generic",
    "PPC.Generic.C62_diverges",
    "PPC.Generic.C62_self",
    "PPC.Generic.C62_tracker",
    "PPC.Generic.C62_rich",
    "PPC.Generic.C62_tokens",
    "PPC.Generic.C62_nested_delimiters",
    "PPC.Generic.C62_needs_errors",
    "PPC.Generic.C62_needs_places"
   ],
   "note": "relational: two grammars of the same shape over two signatures whose parameters correspond (RelG), on corresponding inputs. Errors have to be of types that correspond: a choice can panic with Void errors where it fails with Simple ones (C62_needs_errors). What errors list as expected depends on which places the tracker tells apart (C62_needs_places), so C62_tracker does not cover it; C62_rich and C62_tokens do"
  },
  {
   "property": "C63",
   "status": "proved",
   "theorems": [
    "PPC.Delims.C63_scan",
    "PPC.Delims.C63_recovers",
    "PPC.Delims.C63_once",
    "PPC.Delims.C63_few"
   ],
   "note": "Accounts (SpecDelims.lean) says what it means to account for delimiters. C30 says exactly where the scan ends and what it reports in the single cases; C63 is one statement for all texts"
  },
  {
   "property": "C64",
   "status": "proved",
   "theorems": [
    "PPC.Cfg.C64_sound",
    "PPC.Cfg.C64_complete",
    "PPC.Cfg.C64_whole_input",
    "PPC.Cfg.C64_parse",
    "PPC.Cfg.C64_decides",
    "PPC.Cfg.C64_unambiguous",
    "PPC.Cfg.C64_choice_fails",
    "PPC.Cfg.C64_repetition_fails"
   ],
   "note": "Derives (SpecCfg.lean) is the context-free reading, Predictive the condition, stated with tables of what may begin and follow each recursive parser. C64_choice_fails and C64_repetition_fails show that sentences are lost without the condition"
  },
  {
   "property": "C65",
   "status": "partial",
   "theorems": [
    "PPC.Cfg.C65_not_late_partial",
    "PPC.Cfg.C65_not_early_partial",
    "PPC.Cfg.C65_parse_partial",
    "PPC.Cfg.C65_first_mistake_partial",
    "PPC.Cfg.C65_nested_fails",
    "PPC.Cfg.C65_early_fails"
   ],
   "note": "the property is false: the failure of an item of a repetition is forgotten, so that the error can be any number of tokens before the first mistake (C65_early_fails), and for nested lists it is at the outermost one (C65_nested_fails). Proved: the error is never after the first mistake, for all grammars without useless parts, user errors and end() inside; and it is exactly there if the grammar is predictive (C64) and the source has not been asked for a token after the blamed one"
  },
  {
   "property": "C66",
   "status": "proved",
   "theorems": [
    "PPC.Cfg.C66_stream",
    "PPC.Cfg.C66_beginning",
    "PPC.Cfg.C66_only",
    "PPC.Cfg.C66_unique",
    "PPC.Cfg.C66_pieces",
    "PPC.Cfg.C66_choice_fails"
   ],
   "note": "Phrases (a series of sentences in the sense of Derives, SpecCfg.lean) and Pieces are the specification. C66_choice_fails shows that the condition on the choices is needed."
  },
  {
   "property": "C67",
   "status": "proved",
   "theorems": [
    "PPC.C67_disabled",
    "PPC.C67_valid",
    "PPC.C67_parse",
    "PPC.C67_invalid",
    "PPC.C67_invalid_fails"
   ],
   "note": "G.withoutRecovery (SpecWithout.lean) takes every to_recover out of a grammar. C67_invalid_fails shows that the condition of the last sentence is needed. C67_parse and C67_invalid assume that the function of try_map does not return Recovered, which is recovery by other means."
  },
  {
   "property": "C68",
   "status": "proved",
   "theorems": [
    "PPC.Cfg.C68_right",
    "PPC.Cfg.C68_wrong",
    "PPC.Cfg.C68_unfinished",
    "PPC.Cfg.C68_stream",
    "PPC.Cfg.C68_cut",
    "PPC.Cfg.C68_unique",
    "PPC.Cfg.C68_inner_fails"
   ],
   "note": "Statements (PropsStatements.lean) is the specification: the input cut at the terminators, with the value of each piece that is a sentence in the sense of Derives (SpecCfg.lean). avoidsL is the condition that no part of the grammar accepts the terminator; C68_inner_fails shows that it is needed. body must not recover by itself."
  }
 ]
}