{
 "claims": [
  {
   "property": "C01",
   "status": "proved",
   "theorems": [
    "Knuckle.Props.C01_parser_is_grammar",
    "Knuckle.Props.C01_other_texts_are_syntax_errors",
    "Knuckle.Props.C01_execution_follows_derivation"
   ],
   "note": "Modelled: `parse`, `isStatement`. Proof: soundness and completeness w.r.t. an inductive grammar (`Spec/Grammar.lean`); prefix-freeness of arguments with spaces gives agreement of recognizer and extractor, and unambiguity."
  },
  {
   "property": "C02",
   "status": "proved",
   "theorems": [
    "Knuckle.Props.C02_parsing_is_safe"
   ],
   "note": "Modelled: `parse`, `isStatement`. Proof: soundness and completeness w.r.t. an inductive grammar (`Spec/Grammar.lean`); prefix-freeness of arguments with spaces gives agreement of recognizer and extractor, and unambiguity."
  },
  {
   "property": "C03",
   "status": "proved",
   "theorems": [
    "Knuckle.Props.C03_unambiguous"
   ],
   "note": "Modelled: `parse`, `isStatement`. Proof: soundness and completeness w.r.t. an inductive grammar (`Spec/Grammar.lean`); prefix-freeness of arguments with spaces gives agreement of recognizer and extractor, and unambiguity."
  },
  {
   "property": "C04",
   "status": "proved",
   "theorems": [
    "Knuckle.Props.C04_white_space_irrelevant",
    "Knuckle.Props.C04_keyword_layouts",
    "Knuckle.Props.C04_unary_layouts"
   ],
   "note": "Modelled: `parse`, `execute`. Proof: rendering of a statement with arbitrary white-space runs; corollary of C01/C03."
  },
  {
   "property": "C05",
   "status": "proved",
   "theorems": [
    "Knuckle.Props.C05_integer_literals",
    "Knuckle.Props.C05_float_literals"
   ],
   "note": "Modelled: literal recognizers. Proof: equivalence with declarative descriptions, induction."
  },
  {
   "property": "C06",
   "status": "proved",
   "theorems": [
    "Knuckle.Props.C06_string_literals",
    "Knuckle.Props.C06_string_literals_regular",
    "Knuckle.Props.C06_no_proper_prefix"
   ],
   "note": "Modelled: literal recognizers. Proof: equivalence with declarative descriptions, induction."
  },
  {
   "property": "C07",
   "status": "proved",
   "theorems": [
    "Knuckle.Props.C07_names_are_well_formed"
   ],
   "note": "Modelled: `execute`. Proof: inductive invariant over requests."
  },
  {
   "property": "C08",
   "status": "proved",
   "theorems": [
    "Knuckle.Props.C08_one_receiver",
    "Knuckle.Props.C08_every_request_is_answered"
   ],
   "note": "Modelled: grammar. Proof: case analysis."
  },
  {
   "property": "C09",
   "status": "proved",
   "theorems": [
    "Knuckle.Props.C09_set_get"
   ],
   "note": "Modelled: `escape`/`unescape`, `stringLit`, `quoted`. Proof: induction on strings, parity of backslash runs."
  },
  {
   "property": "C10",
   "status": "proved",
   "theorems": [
    "Knuckle.Props.C10_printed_string_determines_value",
    "Knuckle.Props.C10_unescape_printed"
   ],
   "note": "Modelled: `escape`/`unescape`, `stringLit`, `quoted`. Proof: induction on strings, parity of backslash runs."
  },
  {
   "property": "C11",
   "status": "proved",
   "theorems": [
    "Knuckle.Props.C11_printed_string_is_literal_iff",
    "Knuckle.Props.C11_unprintable_value_reachable"
   ],
   "note": "Modelled: `escape`/`unescape`, `stringLit`, `quoted`. Proof: induction on strings, parity of backslash runs."
  },
  {
   "property": "C12",
   "status": "proved",
   "theorems": [
    "Knuckle.Props.C12_get",
    "Knuckle.Props.C12_set",
    "Knuckle.Props.C12_round_trip",
    "Knuckle.Props.C12_decimal_form"
   ],
   "note": "Modelled: `natStr`, `atoi`. Proof: digits induction."
  },
  {
   "property": "C13",
   "status": "proved",
   "theorems": [
    "Knuckle.Props.C13_exact"
   ],
   "note": "Modelled: `intArith`, `Float`. Proof: exactness of rounding on integers below 2^53, error bound for products up to 2^62 and quotients."
  },
  {
   "property": "C14",
   "status": "proved",
   "theorems": [
    "Knuckle.Props.C14_arithmetic_undefined_iff",
    "Knuckle.Props.C14_set_undefined_iff",
    "Knuckle.Props.C14_comparison_undefined_iff"
   ],
   "note": "Modelled: `intArith`, `Float`. Proof: exactness of rounding on integers below 2^53, error bound for products up to 2^62 and quotients."
  },
  {
   "property": "C15",
   "status": "proved",
   "theorems": [
    "Knuckle.Props.C15_boolean_round_trip",
    "Knuckle.Props.C15_isTrue_isFalse",
    "Knuckle.Props.C15_character_round_trip"
   ],
   "note": "Modelled: comparators. Proof: case analysis, lexicographic order."
  },
  {
   "property": "C16",
   "status": "proved",
   "theorems": [
    "Knuckle.Props.C16_integers",
    "Knuckle.Props.C16_characters",
    "Knuckle.Props.C16_characters_distinct",
    "Knuckle.Props.C16_strings",
    "Knuckle.Props.C16_strings_order",
    "Knuckle.Props.C16_natural_order",
    "Knuckle.Props.C16_comparator"
   ],
   "note": "Modelled: comparators. Proof: case analysis, lexicographic order."
  },
  {
   "property": "C17",
   "status": "proved",
   "theorems": [
    "Knuckle.Props.C17_exactly_one",
    "Knuckle.Props.C17_exactly_one_integer",
    "Knuckle.Props.C17_or_equal",
    "Knuckle.Props.C17_mirror",
    "Knuckle.Props.C17_mirror_values"
   ],
   "note": "Modelled: float comparators. Proof: order lemmas on rounding (monotonicity, exactness of sign)."
  },
  {
   "property": "C18",
   "status": "proved",
   "theorems": [
    "Knuckle.Props.C18_zero_tolerance_is_exact",
    "Knuckle.Props.C18_zero_tolerance_strict_weak",
    "Knuckle.Props.C18_positive_tolerance_breaks",
    "Knuckle.Props.C18_positive_tolerance_not_strict_weak",
    "Knuckle.Props.C18_sort_undefined",
    "Knuckle.Props.C18_set_undefined",
    "Knuckle.Props.C18_dictionary_undefined",
    "Knuckle.Props.C18_infinite_tolerance"
   ],
   "note": "Modelled: float comparators. Proof: order lemmas on rounding (monotonicity, exactness of sign)."
  },
  {
   "property": "C19",
   "status": "proved",
   "theorems": [
    "Knuckle.Props.C19_nan",
    "Knuckle.Props.C19_nan_reachable"
   ],
   "note": "Modelled: float comparators. Proof: order lemmas on rounding (monotonicity, exactness of sign)."
  },
  {
   "property": "C20",
   "status": "proved",
   "theorems": [
    "Knuckle.Props.C20_vectors_are_lists",
    "Knuckle.Props.C20_same_elements",
    "Knuckle.Props.C20_accepted_messages",
    "Knuckle.Props.C20_refused_means_out_of_range"
   ],
   "note": "Modelled: tables. Proof: refinement to list operations."
  },
  {
   "property": "C21",
   "status": "proved",
   "theorems": [
    "Knuckle.Props.C21_sort_orders",
    "Knuckle.Props.C21_sort_undefined",
    "Knuckle.Props.C21_sort_result_is_unique",
    "Knuckle.Props.C21_sort_ordered",
    "Knuckle.Props.C21_sort_twice",
    "Knuckle.Props.C21_any_algorithm"
   ],
   "note": "Modelled: `vecSort`. Proof: uniqueness of sorted permutations."
  },
  {
   "property": "C22",
   "status": "proved",
   "theorems": [
    "Knuckle.Props.C22_popBack_undoes_pushBack",
    "Knuckle.Props.C22_popFront_undoes_pushFront",
    "Knuckle.Props.C22_reverse_twice",
    "Knuckle.Props.C22_queue",
    "Knuckle.Props.C22_queue_replies"
   ],
   "note": "Modelled: tables. Proof: refinement to list operations."
  },
  {
   "property": "C23",
   "status": "proved",
   "theorems": [
    "Knuckle.Props.C23_every_history",
    "Knuckle.Props.C23_sets_are_sets",
    "Knuckle.Props.C23_elements_ascending",
    "Knuckle.Props.C23_contains",
    "Knuckle.Props.C23_reads",
    "Knuckle.Props.C23_contains_after"
   ],
   "note": "Modelled: set/dictionary tables. Proof: refinement to membership predicates / finite maps over histories."
  },
  {
   "property": "C24",
   "status": "proved",
   "theorems": [
    "Knuckle.Props.C24_dictionaries_are_maps",
    "Knuckle.Props.C24_keys_ascending",
    "Knuckle.Props.C24_getValueForKey",
    "Knuckle.Props.C24_getValueForKey_unknown",
    "Knuckle.Props.C24_containsKey",
    "Knuckle.Props.C24_reads",
    "Knuckle.Props.C24_value_after",
    "Knuckle.Props.C24_no_value_after"
   ],
   "note": "Modelled: set/dictionary tables. Proof: refinement to membership predicates / finite maps over histories."
  },
  {
   "property": "C25",
   "status": "proved",
   "theorems": [
    "Knuckle.Props.C25_containers_are_typed",
    "Knuckle.Props.C25_never_incomparable"
   ],
   "note": "Modelled: `execute`. Proof: inductive invariant over requests."
  },
  {
   "property": "C26",
   "status": "proved",
   "theorems": [
    "Knuckle.Props.C26_vectors",
    "Knuckle.Props.C26_sets",
    "Knuckle.Props.C26_dictionaries",
    "Knuckle.Props.C26_float_vectors",
    "Knuckle.Props.C26_float_sets",
    "Knuckle.Props.C26_float_dictionaries"
   ],
   "note": "Modelled: printers. Proof: unique decoding; with ≥ 46 decimals also for floats (every float is a multiple of 2^-149, and 46 decimals separate them)."
  },
  {
   "property": "C27",
   "status": "proved",
   "theorems": [
    "Knuckle.Props.C27_strings_are_byte_sequences",
    "Knuckle.Props.C27_substring",
    "Knuckle.Props.C27_pushBack_popBack"
   ],
   "note": "Modelled: tables. Proof: refinement to list operations."
  },
  {
   "property": "C28",
   "status": "proved",
   "theorems": [
    "Knuckle.Props.C28_only_the_receiver_changes",
    "Knuckle.Props.C28_depends_only_on_the_receiver",
    "Knuckle.Props.C28_variables_persist"
   ],
   "note": "Modelled: `execute`. Proof: frame lemmas, case analysis over tables."
  },
  {
   "property": "C29",
   "status": "proved",
   "theorems": [
    "Knuckle.Props.C29_creation_adds_one_variable",
    "Knuckle.Props.C29_create_never_overwrites",
    "Knuckle.Props.C29_createIfNotExists_never_overwrites",
    "Knuckle.Props.C29_only_creations_create"
   ],
   "note": "Modelled: `execute`. Proof: frame lemmas, case analysis over tables."
  },
  {
   "property": "C30",
   "status": "proved",
   "theorems": [
    "Knuckle.Props.C30_delete_removes_exactly_one",
    "Knuckle.Props.C30_delete_unknown",
    "Knuckle.Props.C30_delete_namespace",
    "Knuckle.Props.C30_unknown_receiver"
   ],
   "note": "Modelled: `execute`. Proof: frame lemmas, case analysis over tables."
  },
  {
   "property": "C31",
   "status": "proved",
   "theorems": [
    "Knuckle.Props.C31_listVariables",
    "Knuckle.Props.C31_listVariablesOfNamespace",
    "Knuckle.Props.C31_listNamespaces"
   ],
   "note": "Modelled: `execute`. Proof: inductive invariant over requests. Modelled: `execute`. Proof: frame lemmas, case analysis over tables."
  },
  {
   "property": "C32",
   "status": "proved",
   "theorems": [
    "Knuckle.Props.C32_refused_requests_change_nothing"
   ],
   "note": "Modelled: `execute`. Proof: frame lemmas, case analysis over tables."
  },
  {
   "property": "C33",
   "status": "proved",
   "theorems": [
    "Knuckle.Props.C33_questions_change_nothing",
    "Knuckle.Props.C33_messages_that_may_change"
   ],
   "note": "Modelled: `execute`. Proof: frame lemmas, case analysis over tables."
  },
  {
   "property": "C34",
   "status": "proved",
   "theorems": [
    "Knuckle.Props.C34_errors_are_recognizable"
   ],
   "note": "Modelled: `execute`. Proof: invariant + case analysis over replies."
  },
  {
   "property": "C35",
   "status": "proved",
   "theorems": [
    "Knuckle.Props.C35_replies_are_single_lines",
    "Knuckle.Props.C35_other_bytes_were_sent",
    "Knuckle.Props.C35_on_the_wire"
   ],
   "note": "Modelled: `execute`. Proof: invariant + case analysis over replies."
  },
  {
   "property": "C36",
   "status": "proved",
   "theorems": [
    "Knuckle.Props.C36_no_unknown_error"
   ],
   "note": "Modelled: `execute`. Proof: invariant + case analysis over replies."
  },
  {
   "property": "C37",
   "status": "proved",
   "theorems": [
    "Knuckle.Props.C37_tolerance",
    "Knuckle.Props.C37_tolerance_not_a_literal",
    "Knuckle.Props.C37_last_tolerance",
    "Knuckle.Props.C37_setFloatPrecision",
    "Knuckle.Props.C37_setFloatPrecision_literal",
    "Knuckle.Props.C37_setFloatComparisonTolerance",
    "Knuckle.Props.C37_getSettings",
    "Knuckle.Props.C37_only_setters_change_settings",
    "Knuckle.Props.C37_last_precision",
    "Knuckle.Props.C37_number_of_decimals"
   ],
   "note": "Modelled: `execute`. Proof: case analysis."
  },
  {
   "property": "C38",
   "status": "proved",
   "theorems": [
    "Knuckle.Props.C38_one_record_per_request",
    "Knuckle.Props.C38_log_of_a_history"
   ],
   "note": "Modelled: `execute`. Proof: case analysis."
  },
  {
   "property": "C39",
   "status": "proved",
   "theorems": [
    "Knuckle.Props.C39_only_known_causes",
    "Knuckle.Props.C39_the_causes_are_undefined"
   ],
   "note": "Modelled: `execute`. Proof: invariant + case analysis over all `ub` sources."
  },
  {
   "property": "C40",
   "status": "proved",
   "theorems": [
    "Knuckle.Props.C40_server",
    "Knuckle.Props.C40_only_its_own_bytes",
    "Knuckle.Props.C40_changes_nothing",
    "Knuckle.Props.C40_replies_do_not_depend_on_data",
    "Knuckle.Props.C40_noninterference"
   ],
   "note": "Modelled: `step`/`run`. Proof: invariants over event histories; refinement to serial executions; C40, C41, C45 also in terms of events only (`Spec/Anonymous.lean`): two runs in lock step, one without the events of the unauthenticated connection; C44 also conversely (`Props/Orders.lean`): a schedule is constructed for every serial order; C47 for whole histories by the invariant `ShortSoFar` along the serial order (`Props/LongReplies.lean`)."
  },
  {
   "property": "C41",
   "status": "proved",
   "theorems": [
    "Knuckle.Props.C41_server",
    "Knuckle.Props.C41_only_the_password",
    "Knuckle.Props.C41_sessions",
    "Knuckle.Props.C41_kept_and_own",
    "Knuckle.Props.C41_attempts"
   ],
   "note": "Modelled: `step`/`run`. Proof: invariants over event histories; refinement to serial executions; C40, C41, C45 also in terms of events only (`Spec/Anonymous.lean`): two runs in lock step, one without the events of the unauthenticated connection; C44 also conversely (`Props/Orders.lean`): a schedule is constructed for every serial order; C47 for whole histories by the invariant `ShortSoFar` along the serial order (`Props/LongReplies.lean`)."
  },
  {
   "property": "C42",
   "status": "proved",
   "theorems": [
    "Knuckle.Props.C42_enterable_passwords",
    "Knuckle.Props.C42_locked_out"
   ],
   "note": "Modelled: `escape`/`unescape`, `stringLit`, `quoted`. Proof: induction on strings, parity of backslash runs."
  },
  {
   "property": "C43",
   "status": "proved",
   "theorems": [
    "Knuckle.Props.C43_answered_in_order",
    "Knuckle.Props.C43_packets",
    "Knuckle.Props.C43_only_the_bytes_matter"
   ],
   "note": "Modelled: `step`/`run`. Proof: invariants over event histories; refinement to serial executions; C40, C41, C45 also in terms of events only (`Spec/Anonymous.lean`): two runs in lock step, one without the events of the unauthenticated connection; C44 also conversely (`Props/Orders.lean`): a schedule is constructed for every serial order; C47 for whole histories by the invariant `ShortSoFar` along the serial order (`Props/LongReplies.lean`)."
  },
  {
   "property": "C44",
   "status": "proved",
   "theorems": [
    "Knuckle.Props.C44_every_order",
    "Knuckle.Props.C44_serialized",
    "Knuckle.Props.C44_respects_time",
    "Knuckle.Props.C44_order_determines"
   ],
   "note": "Modelled: `step`/`run`. Proof: invariants over event histories; refinement to serial executions; C40, C41, C45 also in terms of events only (`Spec/Anonymous.lean`): two runs in lock step, one without the events of the unauthenticated connection; C44 also conversely (`Props/Orders.lean`): a schedule is constructed for every serial order; C47 for whole histories by the invariant `ShortSoFar` along the serial order (`Props/LongReplies.lean`)."
  },
  {
   "property": "C45",
   "status": "proved",
   "theorems": [
    "Knuckle.Props.C45_server",
    "Knuckle.Props.C45_no_request_after_close",
    "Knuckle.Props.C45_nothing_after_close"
   ],
   "note": "Modelled: `step`/`run`. Proof: invariants over event histories; refinement to serial executions; C40, C41, C45 also in terms of events only (`Spec/Anonymous.lean`): two runs in lock step, one without the events of the unauthenticated connection; C44 also conversely (`Props/Orders.lean`): a schedule is constructed for every serial order; C47 for whole histories by the invariant `ShortSoFar` along the serial order (`Props/LongReplies.lean`)."
  },
  {
   "property": "C46",
   "status": "proved",
   "theorems": [
    "Knuckle.Props.C46_accepting",
    "Knuckle.Props.C46_never_again"
   ],
   "note": "Modelled: `step`/`run`. Proof: invariants over event histories; refinement to serial executions; C40, C41, C45 also in terms of events only (`Spec/Anonymous.lean`): two runs in lock step, one without the events of the unauthenticated connection; C44 also conversely (`Props/Orders.lean`): a schedule is constructed for every serial order; C47 for whole histories by the invariant `ShortSoFar` along the serial order (`Props/LongReplies.lean`)."
  },
  {
   "property": "C47",
   "status": "proved",
   "theorems": [
    "Knuckle.Props.C47_history",
    "Knuckle.Props.C47_long_replies_are_not_delivered",
    "Knuckle.Props.C47_partial_writes_are_undefined",
    "Knuckle.Props.C47_short_replies_can_be_delivered"
   ],
   "note": "Modelled: `step`/`run`. Proof: invariants over event histories; refinement to serial executions; C40, C41, C45 also in terms of events only (`Spec/Anonymous.lean`): two runs in lock step, one without the events of the unauthenticated connection; C44 also conversely (`Props/Orders.lean`): a schedule is constructed for every serial order; C47 for whole histories by the invariant `ShortSoFar` along the serial order (`Props/LongReplies.lean`)."
  },
  {
   "property": "C48",
   "status": "proved",
   "theorems": [
    "Knuckle.Props.C48_complete_lines_can_be_executed",
    "Knuckle.Props.C48_pending_writes_can_complete",
    "Knuckle.Props.C48_others_cannot_interfere"
   ],
   "note": "Modelled: `step`/`run`. Proof: invariants over event histories; refinement to serial executions; C40, C41, C45 also in terms of events only (`Spec/Anonymous.lean`): two runs in lock step, one without the events of the unauthenticated connection; C44 also conversely (`Props/Orders.lean`): a schedule is constructed for every serial order; C47 for whole histories by the invariant `ShortSoFar` along the serial order (`Props/LongReplies.lean`)."
  },
  {
   "property": "C49",
   "status": "proved",
   "theorems": [
    "Knuckle.Props.C49_invalid_message",
    "Knuckle.Props.C49_wrong_number_of_arguments",
    "Knuckle.Props.C49_invalid_argument_why",
    "Knuckle.Props.C49_malformed_argument",
    "Knuckle.Props.C49_value_not_allowed",
    "Knuckle.Props.C49_name_already_used",
    "Knuckle.Props.C49_unknown_variable",
    "Knuckle.Props.C49_wrong_password",
    "Knuckle.Props.C49_other_errors"
   ],
   "note": "Modelled: `execute`. Proof: each error reply characterised by its cause (`Spec/Errors.lean`); case analysis over the tables."
  },
  {
   "property": "C50",
   "status": "proved",
   "theorems": [
    "Knuckle.Props.C50_server",
    "Knuckle.Props.C50_depends_only_on_touched_variables",
    "Knuckle.Props.C50_changes_only_touched_variables",
    "Knuckle.Props.C50_independent_requests_commute",
    "Knuckle.Props.C50_isolation"
   ],
   "note": "Modelled: `run`, `execute`. Proof: non-interference: projection of a serial execution to a set of variables is an execution; `Props/Disjoint.lean`: the same for event histories, by simulation (the others' events removed)."
  },
  {
   "property": "C51",
   "status": "proved",
   "theorems": [
    "Knuckle.Props.C51_logging_does_not_matter",
    "Knuckle.Props.C51_logging_never_matters",
    "Knuckle.Props.C51_server"
   ],
   "note": "Modelled: `run`, `execute`. Proof: non-interference: projection of a serial execution to a set of variables is an execution; `Props/Disjoint.lean`: the same for event histories, by simulation (the others' events removed)."
  },
  {
   "property": "C52",
   "status": "proved",
   "theorems": [
    "Knuckle.Props.C52_when_the_process_ends",
    "Knuckle.Props.C52_runs_while_accepting",
    "Knuckle.Props.C52_ended_iff_no_event"
   ],
   "note": "Modelled: `run`. Proof: invariant over event histories."
  },
  {
   "property": "C53",
   "status": "proved",
   "theorems": [
    "Knuckle.Props.C53_a_literal_writes_one_number",
    "Knuckle.Props.C53_denotes",
    "Knuckle.Props.C53_create",
    "Knuckle.Props.C53_denotes_integer",
    "Knuckle.Props.C53_set",
    "Knuckle.Props.C53_determined",
    "Knuckle.Props.C53_exact",
    "Knuckle.Props.C53_error",
    "Knuckle.Props.C53_monotone",
    "Knuckle.Props.C53_overflow"
   ],
   "note": "Modelled: `atof`, `toF32`. Proof: rounding as nearest element of a grid of rationals; a literal as a rational number."
  },
  {
   "property": "C54",
   "status": "proved",
   "theorems": [
    "Knuckle.Props.C54_get",
    "Knuckle.Props.C54_get_special",
    "Knuckle.Props.C54_special_not_literal",
    "Knuckle.Props.C54_reply_is_literal",
    "Knuckle.Props.C54_exact",
    "Knuckle.Props.C54_round_trip",
    "Knuckle.Props.C54_round_trip_large"
   ],
   "note": "Modelled: `fmtFixed`. Proof: division with remainder, half-even; spacing of floats against half a unit of the last decimal."
  },
  {
   "property": "C55",
   "status": "proved",
   "theorems": [
    "Knuckle.Props.C55_arithmetic",
    "Knuckle.Props.C55_determined",
    "Knuckle.Props.C55_integer_arithmetic"
   ],
   "note": "Modelled: `Fl.add` … `Fl.lt`. Proof: exact integer arithmetic in units of 2^-1074, uniqueness of rounding."
  },
  {
   "property": "C56",
   "status": "proved",
   "theorems": [
    "Knuckle.Props.C56_comparison",
    "Knuckle.Props.C56_comparison_integer",
    "Knuckle.Props.C56_less_is_sound"
   ],
   "note": "Modelled: `Fl.add` … `Fl.lt`. Proof: exact integer arithmetic in units of 2^-1074, uniqueness of rounding."
  },
  {
   "property": "C57",
   "status": "proved",
   "theorems": [
    "Knuckle.Props.C57_classes",
    "Knuckle.Props.C57_classes_are_disjoint"
   ],
   "note": "Modelled: character tables. Proof: case analysis over bytes, for every state."
  },
  {
   "property": "C58",
   "status": "proved",
   "theorems": [
    "Knuckle.Props.C58_same_parser",
    "Knuckle.Props.C58_at_most_cubic",
    "Knuckle.Props.C58_statements_at_most_quadratic",
    "Knuckle.Props.C58_cubic_is_reached",
    "Knuckle.Props.C58_same_server",
    "Knuckle.Props.C58_at_most_cubic_per_event",
    "Knuckle.Props.C58_before_authentication"
   ],
   "note": "Modelled: `Model/Cost.lean`, `Model/ServerCost.lean`. Proof: refinement (same results), induction on the recursion for upper and lower bounds."
  },
  {
   "property": "C59",
   "status": "proved",
   "theorems": [
    "Knuckle.Props.C59_one_object_per_request",
    "Knuckle.Props.C59_objects",
    "Knuckle.Props.C59_texts",
    "Knuckle.Props.C59_stored_bytes",
    "Knuckle.Props.C59_quadratic_is_reached",
    "Knuckle.Props.C59_replies_are_not_bounded"
   ],
   "note": "Modelled: `execute`. Proof: invariants on sizes over histories, explicit families of requests for the lower bounds."
  },
  {
   "property": "C60",
   "status": "proved",
   "theorems": [
    "Knuckle.Props.C60_reachable_data",
    "Knuckle.Props.C60_elements",
    "Knuckle.Props.C60_backup",
    "Knuckle.Props.C60_backup_variables",
    "Knuckle.Props.C60_copies_answer_alike"
   ],
   "note": "Modelled: `execute`. Proof: inductive invariant for one direction, explicit construction by requests for the other."
  },
  {
   "property": "C61",
   "status": "proved",
   "theorems": [
    "Knuckle.Props.C61_zero_tolerance_is_defined",
    "Knuckle.Props.C61_sets_ascend",
    "Knuckle.Props.C61_contains",
    "Knuckle.Props.C61_add",
    "Knuckle.Props.C61_remove",
    "Knuckle.Props.C61_sort",
    "Knuckle.Props.C61_containsKey",
    "Knuckle.Props.C61_getValueForKey",
    "Knuckle.Props.C61_getValueForKey_unknown",
    "Knuckle.Props.C61_associate",
    "Knuckle.Props.C61_removeKey"
   ],
   "note": "Modelled: `execute`. Proof: C60's invariant (containers hold no NaN and ascend), exactness of comparison at tolerance zero."
  },
  {
   "property": "C62",
   "status": "proved",
   "theorems": [
    "Knuckle.Props.C62_log_is_unambiguous",
    "Knuckle.Props.C62_log_can_be_replayed",
    "Knuckle.Props.C62_log_determines_data",
    "Knuckle.Props.C62_log_determines_data_on_the_wire",
    "Knuckle.Props.C62_password_is_logged"
   ],
   "note": "Modelled: `execute`, `Model/Log.lean`, `run`. Proof: a statement cannot be continued to another statement (`Proofs/Prefix.lean`), error replies end with a full stop and others never do; induction on histories for the replay."
  },
  {
   "property": "C63",
   "status": "proved",
   "theorems": [
    "Knuckle.Props.C63_when_it_serves",
    "Knuckle.Props.C63_help",
    "Knuckle.Props.C63_initial_state",
    "Knuckle.Props.C63_no_password_no_protection",
    "Knuckle.Props.C63_default_settings",
    "Knuckle.Props.C63_default_tolerance",
    "Knuckle.Props.C63_no_password_undefined",
    "Knuckle.Props.C63_password_protects",
    "Knuckle.Props.C63_log_file_that_cannot_be_opened"
   ],
   "note": "Modelled: `Model/Main.lean`, `run`. Proof: case analysis, corollaries of C38, C41, C44."
  },
  {
   "property": "C64",
   "status": "proved",
   "theorems": [
    "Knuckle.Props.C64_every_receiver_has_its_section",
    "Knuckle.Props.C64_understood_iff_documented",
    "Knuckle.Props.C64_documented_number_of_arguments",
    "Knuckle.Props.C64_documented_arguments_are_accepted",
    "Knuckle.Props.C64_documented_replies"
   ],
   "note": "Modelled: `execute`; `Spec/Reference.lean`, a table generated from README.md by `tools/reference.py`. Proof: the table and the signatures of C49 are the same (computation), kinds of replies by case analysis; the sessions of README.md are replayed in `Validation/Readme.lean`."
  },
  {
   "property": "C65",
   "status": "proved",
   "theorems": [
    "Knuckle.Props.C65_every_line_is_answered",
    "Knuckle.Props.C65_answered_without_errors"
   ],
   "note": "Modelled: infinite executions of `step` (`Spec/Liveness.lean`). Proof: induction on the number of unanswered lines, fairness to one connection only; the serial order of C44 tells which requests have been answered."
  },
  {
   "property": "C66",
   "status": "proved",
   "theorems": [
    "Knuckle.Props.C66_exists_iff",
    "Knuckle.Props.C66_claim_accepted_iff",
    "Knuckle.Props.C66_mutual_exclusion",
    "Knuckle.Props.C66_server"
   ],
   "note": "Modelled: serial executions (`Spec/Concurrency.lean`). Proof: induction on the log; projection to the updates of one variable, then C13, C22–C24; `Props/Schedules.lean` states C51, C66–C68, C79 and C95 for event histories (C44)."
  },
  {
   "property": "C67",
   "status": "proved",
   "theorems": [
    "Knuckle.Props.C67_every_history",
    "Knuckle.Props.C67_counter",
    "Knuckle.Props.C67_journal",
    "Knuckle.Props.C67_queue",
    "Knuckle.Props.C67_server"
   ],
   "note": "Modelled: serial executions (`Spec/Concurrency.lean`). Proof: induction on the log; projection to the updates of one variable, then C13, C22–C24; `Props/Schedules.lean` states C51, C66–C68, C79 and C95 for event histories (C44)."
  },
  {
   "property": "C68",
   "status": "proved",
   "theorems": [
    "Knuckle.Props.C68_counter_order",
    "Knuckle.Props.C68_set_order",
    "Knuckle.Props.C68_dictionary_order",
    "Knuckle.Props.C68_float_sets_depend_on_the_order",
    "Knuckle.Props.C68_server"
   ],
   "note": "Modelled: serial executions (`Spec/Concurrency.lean`). Proof: induction on the log; projection to the updates of one variable, then C13, C22–C24; `Props/Schedules.lean` states C51, C66–C68, C79 and C95 for event histories (C44)."
  },
  {
   "property": "C69",
   "status": "proved",
   "theorems": [
    "Knuckle.Props.C69_sort_of_floats",
    "Knuckle.Props.C69_retry",
    "Knuckle.Props.C69_same_reply",
    "Knuckle.Props.C69_no_other_message"
   ],
   "note": "Modelled: `execute` (`Spec/Retry.lean`). Proof: case analysis; searching stays defined after an insertion or removal; explicit witnesses for the converse."
  },
  {
   "property": "C70",
   "status": "proved",
   "theorems": [
    "Knuckle.Props.C70_sizes",
    "Knuckle.Props.C70_sizes_fit",
    "Knuckle.Props.C70_strangers_reach_it"
   ],
   "note": "Modelled: `run` (`Spec/Sizes.lean`). Proof: the serial order of C44 uses every received byte at most once; then C59 bounds names, strings and elements by the bytes of the requests; an explicit history for the lower bound."
  },
  {
   "property": "C71",
   "status": "proved",
   "theorems": [
    "Knuckle.Props.C71_same_parser",
    "Knuckle.Props.C71_at_most",
    "Knuckle.Props.C71_is_reached"
   ],
   "note": "Modelled: `Model/Depth.lean`: the recognizer with its call stack. Proof: equality with the recognizer; induction on the fuel; an explicit family of lines for the lower bound."
  },
  {
   "property": "C72",
   "status": "proved",
   "theorems": [
    "Knuckle.Props.C72_everything_can_be_observed",
    "Knuckle.Props.C72_nothing_else_can_be_observed",
    "Knuckle.Props.C72_observation"
   ],
   "note": "Modelled: `execute` (`Spec/Observe.lean`). Proof: one direction: set the precision to 46 decimals (different singles then have different texts), read settings and each variable by `get`, element types by clearing and inserting; the texts are injective. Other direction: C51 along the conversation."
  },
  {
   "property": "C73",
   "status": "proved",
   "theorems": [
    "Knuckle.Props.C73_precision",
    "Knuckle.Props.C73_precision_never_matters",
    "Knuckle.Props.C73_tolerance"
   ],
   "note": "Modelled: `execute` (`Spec/Settings.lean`). Proof: the same request in two contexts that differ in one setting, message by message through the dispatch tables; then along histories."
  },
  {
   "property": "C74",
   "status": "proved",
   "theorems": [
    "Knuckle.Props.C74_logged_before_answered",
    "Knuckle.Props.C74_one_line_at_a_time",
    "Knuckle.Props.C74_crash_recovery"
   ],
   "note": "Modelled: `step`, `logLine` (`Spec/Crash.lean`). Proof: the log file after a crash is the text of the records plus a prefix of the line being written; C38 along the serial order of C44; the last newline is unique; replay by C62."
  },
  {
   "property": "C75",
   "status": "proved",
   "theorems": [
    "Knuckle.Props.C75_names_do_not_matter",
    "Knuckle.Props.C75_histories",
    "Knuckle.Props.C75_no_references"
   ],
   "note": "Modelled: `execute`, `makeInstance` (`Spec/Rename.lean`). Proof: a relation between two contexts (equal up to an injective renaming) preserved by every kind of request; `makeInstance` uses its first argument only as a name; histories by induction; names are not literals, so C49's classification of endings leaves only refusals."
  },
  {
   "property": "C76",
   "status": "proved",
   "theorems": [
    "Knuckle.Props.C76_undone",
    "Knuckle.Props.C76_restored",
    "Knuckle.Props.C76_creation",
    "Knuckle.Props.C76_deletion"
   ],
   "note": "Modelled: `Instance.lean`, `Context.lean` (`Spec/Undo.lean`). Proof: from the table of messages (`Behaves`): the pairs of the table by calculation; for sets and dictionaries ascending lists with the same members are equal; histories in between by C28."
  },
  {
   "property": "C77",
   "status": "proved",
   "theorems": [
    "Knuckle.Props.C77_far_apart",
    "Knuckle.Props.C77_far_apart_is_defined",
    "Knuckle.Props.C77_sort",
    "Knuckle.Props.C77_like_tolerance_zero"
   ],
   "note": "Modelled: `Instance.lean`, `Float.lean` (`Spec/Apart.lean`). Proof: rounding is monotone, so a difference of at least twice the tolerance, itself a `float`, never rounds to the tolerance: the comparator agrees with that of tolerance zero on floats that are far apart; then row by row of the tables of messages; `sort` through its specification."
  },
  {
   "property": "C78",
   "status": "proved",
   "theorems": [
    "Knuckle.Props.C78_float",
    "Knuckle.Props.C78_vector"
   ],
   "note": "Modelled: `Float.lean`, `Instance.lean`. Proof: the text is nearest to the value; the float that is read is, up to the error of `double`, nearest to the text, so no farther from it than the value: it prints the same, unless the distance of neighbouring floats is within 2⁻²⁸ of the unit of the last decimal, which no pair of powers of 2 and 10 (up to 10⁴⁵, checked by evaluation in the kernel) is; from 46 decimals on C54; for vectors element by element."
  },
  {
   "property": "C79",
   "status": "proved",
   "theorems": [
    "Knuckle.Props.C79_register",
    "Knuckle.Props.C79_register_reply",
    "Knuckle.Props.C79_unchanged",
    "Knuckle.Props.C79_set",
    "Knuckle.Props.C79_dictionary",
    "Knuckle.Props.C79_dictionary_none",
    "Knuckle.Props.C79_server"
   ],
   "note": "Modelled: `Server.lean`, `Context.lean`, `Instance.lean`. Proof: from the serial execution of C44 and what the updates of one variable do (C23, C24, C67)."
  },
  {
   "property": "C80",
   "status": "proved",
   "theorems": [
    "Knuckle.Props.C80_every_request",
    "Knuckle.Props.C80_no_other_outcome",
    "Knuckle.Props.C80_deterministic",
    "Knuckle.Props.C80_server",
    "Knuckle.Props.C80_every_trace"
   ],
   "note": "Modelled: `Server.lean`, `Context.lean`, `Instance.lean` (`Spec/Machine.lean`: the abstract machine). Proof: forward simulation: case analysis of everything a request can do; backward: each rule of the machine by the theorem about it (C21, C29–C31, C37, C39, C49, …), ascending lists and sorted vectors being unique; the server by the serial execution of C44."
  },
  {
   "property": "C81",
   "status": "proved",
   "theorems": [
    "Knuckle.Props.C81_same_replies",
    "Knuckle.Props.C81_memory_safe",
    "Knuckle.Props.C81_server"
   ],
   "note": "Modelled: `Heap.lean` (the instances in memory, `std::shared_ptr` with counts, scopes, destruction) and `Context.lean`. Proof: refinement: every operator of the pointer-level model is simulated by the operator on values, under the invariant that counts equal the numbers of pointers, no pointer occurs twice and the pointers lead to the values; the loops by induction over the elements; histories by induction."
  },
  {
   "property": "C82",
   "status": "proved",
   "theorems": [
    "Knuckle.Props.C82_one_owner",
    "Knuckle.Props.C82_server"
   ],
   "note": "Modelled: `Heap.lean`. Proof: that invariant, stated about the pointers found in the variables and their containers."
  },
  {
   "property": "C83",
   "status": "proved",
   "theorems": [
    "Knuckle.Props.C83_no_leak",
    "Knuckle.Props.C83_count",
    "Knuckle.Props.C83_empty",
    "Knuckle.Props.C83_server"
   ],
   "note": "Modelled: `Heap.lean`. Proof: that invariant: an instance has a positive count, hence a pointer; counting without duplicates."
  },
  {
   "property": "C84",
   "status": "proved",
   "theorems": [
    "Knuckle.Props.C84_one_operation",
    "Knuckle.Props.C84_owners",
    "Knuckle.Props.C84_all_gone",
    "Knuckle.Props.C84_no_leak",
    "Knuckle.Props.C84_gone_for_good",
    "Knuckle.Props.C84_no_use_after_destruction"
   ],
   "note": "Modelled: `Sessions.lean` (`Session` objects with counts of owners, pending operations and their completion handlers) and `Server.lean`. Proof: refinement: every event of the server with session objects is simulated by the server with phases; the invariant gives each connection its session, with one owner, and its one pending operation, or neither; C81–C83 for the whole server from the same simulation."
  },
  {
   "property": "C85",
   "status": "proved",
   "theorems": [
    "Knuckle.Props.C85_unequal",
    "Knuckle.Props.C85_equal",
    "Knuckle.Props.C85_unequal_integer",
    "Knuckle.Props.C85_equal_integer",
    "Knuckle.Props.C85_vector_contains",
    "Knuckle.Props.C85_vector_count",
    "Knuckle.Props.C85_vector_first_index",
    "Knuckle.Props.C85_vector_remove_all",
    "Knuckle.Props.C85_set_contains",
    "Knuckle.Props.C85_dictionary_value"
   ],
   "note": "Modelled: comparison, vectors, sets, dictionaries. Proof: the test of the rounded difference against the tolerance is monotone in the tolerance; then message by message; for dictionaries uniqueness of the matching key while the keys are searchable."
  },
  {
   "property": "C86",
   "status": "proved",
   "theorems": [
    "Knuckle.Props.C86_request",
    "Knuckle.Props.C86_history",
    "Knuckle.Props.C86_server",
    "Knuckle.Props.C86_ties_at_zero",
    "Knuckle.Props.C86_ties_can_differ"
   ],
   "note": "Modelled: `StdSort` as a parameter of everything. Proof: two ascending permutations without ties are equal; then congruence of `execute`, induction over histories and event lists; two concrete algorithms that differ on ties."
  },
  {
   "property": "C87",
   "status": "proved",
   "theorems": [
    "Knuckle.Props.C87_servers",
    "Knuckle.Props.C87_one_client"
   ],
   "note": "Modelled: `Server.lean`, `Context.lean` (two servers with different passwords side by side). Proof: a message to the connection that presents neither password is executed alike with both; bisimulation over the events, using that no connection is authenticated (C41); for one client among others from the serial execution of C44 and the order of replies of C43."
  },
  {
   "property": "C88",
   "status": "proved",
   "theorems": [
    "Knuckle.Props.C88_computed_in_double",
    "Knuckle.Props.C88_single_precision",
    "Knuckle.Props.C88_commutative",
    "Knuckle.Props.C88_exact",
    "Knuckle.Props.C88_literals_are_rounded_twice"
   ],
   "note": "Modelled: `Float.lean`, `Instance.lean` (specification over the rationals: `Spec/Reals.lean`). Proof: rounding to 53 and then to 24 bits differs from rounding to 24 bits only if the 53-bit result lies in the middle of two floats and is not exact; sums, products and quotients of 24-bit numbers, subnormal ones included, never do that."
  },
  {
   "property": "C89",
   "status": "proved",
   "theorems": [
    "Knuckle.Props.C89_at_once",
    "Knuckle.Props.C89_arrival",
    "Knuckle.Props.C89_lone_client",
    "Knuckle.Props.C89_lone_client_answered"
   ],
   "note": "Modelled: `step`, `run` (`Spec/Arrival.lean`). Proof: simulation: the server ahead by the bytes still to arrive makes the same steps; for a lone client determinism of serial executions."
  },
  {
   "property": "C90",
   "status": "proved",
   "theorems": [
    "Knuckle.Props.C90_starts",
    "Knuckle.Props.C90_end_to_end",
    "Knuckle.Props.C90_undefined"
   ],
   "note": "Modelled: `hmain`, `hrun` (`Spec/Process.lean`). Proof: composition of C81/C84 (simulation), C44, C80 and C74."
  },
  {
   "property": "C91",
   "status": "proved",
   "theorems": [
    "Knuckle.Props.C91_as_if",
    "Knuckle.Props.C91_refines",
    "Knuckle.Props.C91_next",
    "Knuckle.Props.C91_enough",
    "Knuckle.Props.C91_clean",
    "Knuckle.Props.C91_told",
    "Knuckle.Props.C91_unknown"
   ],
   "note": "Modelled: `Scarce.lean` (the program of `Heap.lean` where each allocation may fail, destructors on the way out, `catch (...)`). Proof: refinement as for C81, with the states an interrupted operator can leave (`LeftOver`); each of these is reachable by ordinary requests (`clear`, `pushBack:`)."
  },
  {
   "property": "C92",
   "status": "proved",
   "theorems": [
    "Knuckle.Props.C92_explained",
    "Knuckle.Props.C92_next",
    "Knuckle.Props.C92_enough",
    "Knuckle.Props.C92_as_if",
    "Knuckle.Props.C92_lines",
    "Knuckle.Props.C92_only_the_password",
    "Knuckle.Props.C92_stranger",
    "Knuckle.Props.C92_noninterference",
    "Knuckle.Props.C92_logged"
   ],
   "note": "Modelled: `ScarceServer.lean` (the event loop over `Scarce.lean`, each allocation of the handlers may fail; `std::getline` swallows the failure). Proof: invariant as for C44 with pieces instead of lines (`ScarceExplains`), step by step; purging as for C40."
  },
  {
   "property": "C93",
   "status": "proved",
   "theorems": [
    "Knuckle.Props.C93_clients_do_not_notice",
    "Knuckle.Props.C93_nothing_overwritten",
    "Knuckle.Props.C93_complete",
    "Knuckle.Props.C93_never_again",
    "Knuckle.Props.C93_what_is_saved",
    "Knuckle.Props.C93_restarts",
    "Knuckle.Props.C93_restarts_unambiguous",
    "Knuckle.Props.C93_restarts_are_not_recorded",
    "Knuckle.Props.C93_restart_after_a_crash"
   ],
   "note": "Modelled: `Model/LogFile.lean` (the output stream with its error state over the file; `step`). Proof: induction on the history: the file is the old contents, the text of the records and a prefix of one line if an error occurred; then C74, C62; explicit histories for the two negative statements."
  },
  {
   "property": "C94",
   "status": "proved",
   "theorems": [
    "Knuckle.Props.C94_same",
    "Knuckle.Props.C94_usual",
    "Knuckle.Props.C94_at_most",
    "Knuckle.Props.C94_after",
    "Knuckle.Props.C94_sets",
    "Knuckle.Props.C94_dictionaries",
    "Knuckle.Props.C94_quadratic_is_reached",
    "Knuckle.Props.C94_vectors",
    "Knuckle.Props.C94_same_server",
    "Knuckle.Props.C94_strangers",
    "Knuckle.Props.C94_per_event",
    "Knuckle.Props.C94_same_run",
    "Knuckle.Props.C94_total"
   ],
   "note": "Modelled: `Model/Work.lean`: `execute` and the server once more with a count of steps, the searches and sorting of the library as a parameter (`Library`). Proof: equality of results function by function; bounds operator by operator through the dispatch tables, loops by induction; C58 for the parser, C59 for what is stored; an explicit family for the quadratic lower bound; `Proofs/Bisection.lean` shows that the parameter has a member."
  },
  {
   "property": "C95",
   "status": "proved",
   "theorems": [
    "Knuckle.Props.C95_at_most_one",
    "Knuckle.Props.C95_one_in_doubt",
    "Knuckle.Props.C95_send_again",
    "Knuckle.Props.C95_send_again_later",
    "Knuckle.Props.C95_server"
   ],
   "note": "Modelled: `Model/Server.lean` and the serial specification `Explains`, `Serial` of C44. Proof: number of complete replies against the number of executed lines, from C44's explanation (`Written`); two schedules from the same state that end with the same bytes written and the data before and after the request; retry on a new connection from C69, with requests on other variables in between by an induction that carries agreement outside and inside the touched variables (C50's frame lemmas)."
  },
  {
   "property": "C96",
   "status": "proved",
   "theorems": [
    "Knuckle.Props.C96_quoted_text_is_the_argument",
    "Knuckle.Props.C96_text_can_only_insert",
    "Knuckle.Props.C96_no_injection",
    "Knuckle.Props.C96_backslashes",
    "Knuckle.Props.C96_two_texts_can",
    "Knuckle.Props.C96_without_quotes_it_can",
    "Knuckle.Props.C96_unknown_messages_can_be_completed",
    "Knuckle.Props.C96_newlines_can"
   ],
   "note": "Modelled: the grammar (`Spec/Grammar.lean`) with holes (`Spec/Template.lean`), `parse`, `execute`. Proof: two readings of the same text agree up to the hole; after it, by descent on the length: a string cannot reach into the fixed text, because the quotes left over never pair up; then the tables of messages: no message is another one with a part inserted that takes a string (computation, for all element types), and C49."
  },
  {
   "property": "C97",
   "status": "proved",
   "theorems": [
    "Knuckle.Props.C97_vectors",
    "Knuckle.Props.C97_removeAll",
    "Knuckle.Props.C97_replaceAll",
    "Knuckle.Props.C97_sets",
    "Knuckle.Props.C97_dictionaries",
    "Knuckle.Props.C97_containsKey_iff_value",
    "Knuckle.Props.C97_strings"
   ],
   "note": "Modelled: the operators of `Model/Instance.lean` that read; answers collected in `Spec/Agree.lean`. Proof: C20, C23, C24 and C27 give each answer from the stored value; positions by induction on the list (`positionsFrom`); the printed form of a value that is not a float determines it (C26's lemma for one element)."
  },
  {
   "property": "C98",
   "status": "proved",
   "theorems": [
    "Knuckle.Props.C98_one_line",
    "Knuckle.Props.C98_decode",
    "Knuckle.Props.C98_store",
    "Knuckle.Props.C98_empty",
    "Knuckle.Props.C98_every_history",
    "Knuckle.Props.C98_server",
    "Knuckle.Props.C98_reply_size"
   ],
   "note": "Modelled: the whole server (`Model/Server.lean`), and a client program in `Spec/Client.lean` (not part of the repository). Proof: the client's lines are statements (grammar lemmas of C96); what the dictionary holds after any history (C24, C67) against the fold of the commands, by induction from the end of the history; hexadecimal digits by computation; schedules by C44."
  },
  {
   "property": "C99",
   "status": "proved",
   "theorems": [
    "Knuckle.Props.C99_decided_once",
    "Knuckle.Props.C99_first_wins",
    "Knuckle.Props.C99_proposals_are_accepted",
    "Knuckle.Props.C99_answer",
    "Knuckle.Props.C99_agreement",
    "Knuckle.Props.C99_wait_free",
    "Knuckle.Props.C99_server"
   ],
   "note": "Modelled: the whole server (`Model/Server.lean`); the protocol in `Spec/Consensus.lean`. Proof: existence of the name after any history (C66), creation (C29), what is kept by requests that do not change a variable (C67's chain with no updates), by induction from the end of the history; `get` (C79), unknown names (C49); schedules by C44."
  },
  {
   "property": "C100",
   "status": "proved",
   "theorems": [
    "Knuckle.Props.C100_conserved",
    "Knuckle.Props.C100_exclusive",
    "Knuckle.Props.C100_at_most",
    "Knuckle.Props.C100_available",
    "Knuckle.Props.C100_every_history",
    "Knuckle.Props.C100_server"
   ],
   "note": "Modelled: the whole server (`Model/Server.lean`); the discipline of the clients in `Spec/Pool.lean`. Proof: induction over the history: each accepted message permutes (elements of the vector) ++ (elements lent), using the meaning of the messages (C20), and that what a printed element denotes is printed in the same way (C11, C12); exclusion because printing is injective (C26); schedules by C44."
  },
  {
   "property": "C101",
   "status": "proved",
   "theorems": [
    "Knuckle.Props.C101_error",
    "Knuckle.Props.C101_exact",
    "Knuckle.Props.C101_stuck",
    "Knuckle.Props.C101_server",
    "Knuckle.Props.C101_order"
   ],
   "note": "Modelled: serial executions and `run`, floats as rational numbers (`Spec/Sums.lean`). Proof: error of each rounding (`Proofs/FloatError.lean`) accumulated by induction along the accepted updates of the serial order; exact case: partial sums are on the grid of `float`; stuck case: 2^24+1 is rounded back."
  },
  {
   "property": "C102",
   "status": "proved",
   "theorems": [
    "Knuckle.Props.C102_not_written",
    "Knuckle.Props.C102_errors_do_not_matter",
    "Knuckle.Props.C102_killed",
    "Knuckle.Props.C102_hangs",
    "Knuckle.Props.C102_only_then",
    "Knuckle.Props.C102_shown",
    "Knuckle.Props.C102_complete",
    "Knuckle.Props.C102_start"
   ],
   "note": "Modelled: `Model/Console.lean`: the server of `Model/Server.lean`, each event with the fate of what it writes to standard output; the greeting of `main`. Proof: each event either executes no line, and then writes nothing, or adds one record (C38); simulation with the server that ignores standard output; the text shown by induction over the history, explained by C44."
  },
  {
   "property": "C103",
   "status": "proved",
   "theorems": [
    "Knuckle.Props.C103_parser_stays_inside",
    "Knuckle.Props.C103_tests_stay_inside",
    "Knuckle.Props.C103_strings_stay_inside",
    "Knuckle.Props.C103_long_requests_are_undefined"
   ],
   "note": "Modelled: `Model/Indexed.lean`: `str_utils.cpp`, `grammar.cpp` and `parser.cpp` with `int` indices, wrapping casts, unchecked `operator[]`, and `substr` that throws. Proof: each loop is shown to compute the list recursion of the first model (`up_list`, `down_list`: invariants over what has been visited), function by function; then the grammar theorems (C01, C02) apply; long texts by computation."
  },
  {
   "property": "C104",
   "status": "proved",
   "theorems": [
    "Knuckle.Props.C104_short_strings",
    "Knuckle.Props.C104_short_strings_all",
    "Knuckle.Props.C104_long_strings",
    "Knuckle.Props.C104_long_strings_exist"
   ],
   "note": "Modelled: `Model/IndexedString.lean`: `StringInstance` with `int` indices, wrapping casts, unchecked accesses, `substr`, `insert`, `erase` that throw; the meaning for long strings in `Spec/LongStrings.lean`. Proof: each operator equals the one of the first model if the string is short (then C20 applies); for long strings each message by computation with the negative size."
  },
  {
   "property": "C105",
   "status": "proved",
   "theorems": [
    "Knuckle.Props.C105_short_vectors",
    "Knuckle.Props.C105_short_vectors_all",
    "Knuckle.Props.C105_long_vectors",
    "Knuckle.Props.C105_long_sort",
    "Knuckle.Props.C105_long_vectors_exist"
   ],
   "note": "Modelled: `Model/IndexedVector.lean`: `VectorInstance` with `int` indices, wrapping casts, unchecked accesses and iterator arithmetic; the meaning for long vectors in `Spec/LongVectors.lean`. Proof: each operator equals the one of the first model if the vector is short (loops by induction over what has been visited; then C20 applies); for long vectors each message by computation with the negative size."
  },
  {
   "property": "C106",
   "status": "proved",
   "theorems": [
    "Knuckle.Props.C106_stack_needed",
    "Knuckle.Props.C106_request",
    "Knuckle.Props.C106_server_while_small",
    "Knuckle.Props.C106_server",
    "Knuckle.Props.C106_nothing_else_goes_wrong",
    "Knuckle.Props.C106_strangers_overflow_the_stack",
    "Knuckle.Props.C106_strangers_send_long_lines"
   ],
   "note": "Modelled: `Model/IndexedServer.lean`: the remaining instances, `context.cpp`, and sessions and handlers of `server.cpp` with `int` indices, on top of the models of C103, C104 and C105; the stack is a number of calls. Proof: function by function equal to the first model if everything is short (`execute_eq`, `step_eq`), then induction over the history (for the total of the bytes, C70 bounds what the server holds); the stack by showing that the recursion with a bounded depth fails exactly when the number counted for C71 is greater."
  },
  {
   "property": "C107",
   "status": "proved",
   "theorems": [
    "Knuckle.Props.C107_low32",
    "Knuckle.Props.C107_sets",
    "Knuckle.Props.C107_dictionaries",
    "Knuckle.Props.C107_all_messages",
    "Knuckle.Props.C107_long_sets_exist"
   ],
   "note": "Modelled: `setTable`, `dictTable` of `Model/IndexedServer.lean`; the meaning in `Spec/LongSets.lean`. Proof: the tables equal those of the first model except for `size`, whatever the number of elements; then C20's specification applies; existence by induction over the requests."
  },
  {
   "property": "C108",
   "status": "proved",
   "theorems": [
    "Knuckle.Props.C108_counter_read",
    "Knuckle.Props.C108_barrier",
    "Knuckle.Props.C108_additions_are_accepted",
    "Knuckle.Props.C108_never_decreases",
    "Knuckle.Props.C108_server"
   ],
   "note": "Modelled: `add:`, `subtract:`, `get` of IntegerInstance under every schedule of the server (through C44). Proof: the counter's value after every prefix of the serial order (C67), one reply per read; the set of clients that have arrived has as many members as the counter says (induction over the log), so a subset of the group of the group's size is the group."
  },
  {
   "property": "C109",
   "status": "proved",
   "theorems": [
    "Knuckle.Props.C109_holds",
    "Knuckle.Props.C109_posted",
    "Knuckle.Props.C109_posts_are_accepted",
    "Knuckle.Props.C109_get",
    "Knuckle.Props.C109_size",
    "Knuckle.Props.C109_entry",
    "Knuckle.Props.C109_from",
    "Knuckle.Props.C109_follow",
    "Knuckle.Props.C109_server"
   ],
   "note": "Modelled: `pushBack:`, `size`, `get`, `atIndex:`, `sliceFromIndex:` of VectorInstance under every schedule of the server (through C44). Proof: induction over the log (each accepted `pushBack:` appends one value); the answers by C20 in the state before the request (one reply per read); the second slice of a follower by `drop` of an append."
  },
  {
   "property": "C110",
   "status": "proved",
   "theorems": [
    "Knuckle.Props.C110_where",
    "Knuckle.Props.C110_port",
    "Knuckle.Props.C110_no_port",
    "Knuckle.Props.C110_any_port",
    "Knuckle.Props.C110_no_address",
    "Knuckle.Props.C110_same_service",
    "Knuckle.Props.C110_main"
   ],
   "note": "Modelled: `Model/Listen.lean`: `main` with `--bind` and `--port`, the constructor of `Server`; what the network offers is a parameter. Proof: by cases on the command line; the conversion to `unsigned short` by arithmetic modulo 2^16."
  },
  {
   "property": "C111",
   "status": "proved",
   "theorems": [
    "Knuckle.Props.C111_settings_are_taken",
    "Knuckle.Props.C111_any_settings_start",
    "Knuckle.Props.C111_requests_keep_valid",
    "Knuckle.Props.C111_negative_precision",
    "Knuckle.Props.C111_negative_tolerance",
    "Knuckle.Props.C111_negative_tolerance_set",
    "Knuckle.Props.C111_negative_tolerance_sort",
    "Knuckle.Props.C111_nan_tolerance",
    "Knuckle.Props.C111_nan_tolerance_set"
   ],
   "note": "Modelled: `main` (C63's model) and the settings of the context. Proof: the settings by computation; that requests keep them valid by induction over the history; comparisons with a negative tolerance because rounding keeps the sign of a difference; undefined behaviour because no order in which something is less than itself is strict."
  },
  {
   "property": "C112",
   "status": "proved",
   "theorems": [
    "Knuckle.Props.C112_fifo",
    "Knuckle.Props.C112_every_history",
    "Knuckle.Props.C112_take",
    "Knuckle.Props.C112_posts_are_accepted",
    "Knuckle.Props.C112_order",
    "Knuckle.Props.C112_server"
   ],
   "note": "Modelled: `pushBack:`, `popFront` of VectorInstance under every schedule of the server (through C44). Proof: induction over the log: what was taken followed by what is left is what was there followed by what was posted; the answers by C20 in the state before the request."
  },
  {
   "property": "C113",
   "status": "proved",
   "theorems": [
    "Knuckle.Props.C113_reply",
    "Knuckle.Props.C113_change",
    "Knuckle.Props.C113_blind",
    "Knuckle.Props.C113_no_read_modify_write",
    "Knuckle.Props.C113_history",
    "Knuckle.Props.C113_server",
    "Knuckle.Props.C113_tickets_coincide"
   ],
   "note": "Modelled: every message of every type of variable, of the context and of the connection, under every schedule of the server (through C44). Proof: by cases on what each message means (C20 and its companions): no message but a question answers anything but `null`, except taking out."
  },
  {
   "property": "C114",
   "status": "proved",
   "theorems": [
    "Knuckle.Props.C114_restores",
    "Knuckle.Props.C114_matching",
    "Knuckle.Props.C114_every_pop",
    "Knuckle.Props.C114_unique_match",
    "Knuckle.Props.C114_server"
   ],
   "note": "Modelled: `pushBack:`, `popBack` of VectorInstance under every schedule of the server (through C44). Proof: by induction over the matching of pushes and pops, which are read from the log alone, as brackets; that the match is unique by counting."
  },
  {
   "property": "C115",
   "status": "proved",
   "theorems": [
    "Knuckle.Props.C115_holds",
    "Knuckle.Props.C115_contains",
    "Knuckle.Props.C115_stays",
    "Knuckle.Props.C115_size",
    "Knuckle.Props.C115_any_order",
    "Knuckle.Props.C115_server"
   ],
   "note": "Modelled: `add:`, `contains?`, `size` of SetInstance under every schedule of the server (through C44). Proof: from C23 and C79: with no removal in the log, the elements are those that were there and those added; sizes by inclusion of lists without repetitions."
  },
  {
   "property": "C116",
   "status": "proved",
   "theorems": [
    "Knuckle.Props.C116_holds",
    "Knuckle.Props.C116_containsKey",
    "Knuckle.Props.C116_none",
    "Knuckle.Props.C116_reads",
    "Knuckle.Props.C116_reads_own",
    "Knuckle.Props.C116_owner",
    "Knuckle.Props.C116_independent",
    "Knuckle.Props.C116_server"
   ],
   "note": "Modelled: `associateValue:withKey:`, `removeKey:`, `clear`, `getValueForKey:` of DictionaryInstance under every schedule of the server (through C44). Proof: from C24 and C79: the messages of a history and the requests of the log are split at corresponding places, so the value of a key is told by the requests that write it; histories are compared by filtering them."
  },
  {
   "property": "C117",
   "status": "proved",
   "theorems": [
    "Knuckle.Props.C117_unique",
    "Knuckle.Props.C117_content",
    "Knuckle.Props.C117_every_history",
    "Knuckle.Props.C117_reads",
    "Knuckle.Props.C117_origin",
    "Knuckle.Props.C117_won",
    "Knuckle.Props.C117_keeps",
    "Knuckle.Props.C117_lock",
    "Knuckle.Props.C117_server"
   ],
   "note": "Modelled: `replaceFirst:with:`, `contains?`, `get` of VectorInstance under every schedule of the server (through C44). Proof: induction over the log: each swap is a step of a relation that is read from the log alone and is functional; the content by C20 in the state before the request; origins, persistence and the lock by induction on this relation."
  },
  {
   "property": "C118",
   "status": "proved",
   "theorems": [
    "Knuckle.Props.C118_still",
    "Knuckle.Props.C118_snapshot",
    "Knuckle.Props.C118_repeatable",
    "Knuckle.Props.C118_change",
    "Knuckle.Props.C118_server"
   ],
   "note": "Modelled: `Context::execute` under every schedule of the server (through C44). Proof: induction over the part of the log: such requests keep the data (C32, C33), and replies depend on the data only (C51), not on the session."
  },
  {
   "property": "C119",
   "status": "proved",
   "theorems": [
    "Knuckle.Props.C119_one",
    "Knuckle.Props.C119_halfway",
    "Knuckle.Props.C119_server"
   ],
   "note": "Modelled: `Context::execute` under every schedule of the server (through C44). Proof: by cases on what a request can concern (C28, C29, C30), which its text determines; the moment by induction over the log."
  },
  {
   "property": "C120",
   "status": "proved",
   "theorems": [
    "Knuckle.Props.C120_without",
    "Knuckle.Props.C120_insert",
    "Knuckle.Props.C120_server"
   ],
   "note": "Modelled: `Context::execute` under every schedule of the server (through C44). Proof: a history is rebuilt request by request from data that are the same (C33, C51, C118); authentication and closing are not touched by what is left out or inserted."
  }
 ]
}