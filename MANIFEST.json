{
 "claims": [
  {
   "property": "C01",
   "status": "proved",
   "theorems": [
    "Lulua.Props.C01_typing_lossless",
    "Lulua.Props.C01_typing_prefix",
    "Lulua.Props.C01_no_text_no_events"
   ],
   "note": ""
  },
  {
   "property": "C02",
   "status": "proved",
   "theorems": [
    "Lulua.Props.C02_match_is_longest",
    "Lulua.Props.C02_skip_only_untypeable",
    "Lulua.Props.C02_skip_without_finger"
   ],
   "note": ""
  },
  {
   "property": "C03",
   "status": "proved",
   "theorems": [
    "Lulua.Props.C03_combination_types_match",
    "Lulua.Props.C03_ambiguous_modifiers"
   ],
   "note": ""
  },
  {
   "property": "C04",
   "status": "proved",
   "theorems": [
    "Lulua.Props.C04_lookup_exact",
    "Lulua.Props.C04_lookup_order"
   ],
   "note": ""
  },
  {
   "property": "C05",
   "status": "proved",
   "theorems": [
    "Lulua.Props.C05_terminates",
    "Lulua.Props.C05_no_exception",
    "Lulua.Props.C05_unreachable_layer_raises",
    "Lulua.Props.C05_empty_text_asserts"
   ],
   "note": ""
  },
  {
   "property": "C06",
   "status": "proved",
   "theorems": [
    "Lulua.Props.C06_choice_is_best",
    "Lulua.Props.C06_typed_is_best"
   ],
   "note": ""
  },
  {
   "property": "C07",
   "status": "proved",
   "theorems": [
    "Lulua.Props.C07_shift_opposite_hand"
   ],
   "note": ""
  },
  {
   "property": "C08",
   "status": "proved",
   "theorems": [
    "Lulua.Props.C08_space_other_hand",
    "Lulua.Props.C08_no_previous_takes_first",
    "Lulua.Props.C08_left_not_preferred"
   ],
   "note": "The comment in the source that the left hand is preferred without a previous press is refuted (C08_left_not_preferred); what holds instead is C08_no_previous_takes_first."
  },
  {
   "property": "C09",
   "status": "proved",
   "theorems": [
    "Lulua.Props.C09_bounded_lookahead",
    "Lulua.Props.C09_bufferLen_is_longest"
   ],
   "note": ""
  },
  {
   "property": "C10",
   "status": "proved",
   "theorems": [
    "Lulua.Props.C10_equal_iff_same_name"
   ],
   "note": ""
  },
  {
   "property": "C11",
   "status": "proved",
   "theorems": [
    "Lulua.Props.C11_name_by_creation_order",
    "Lulua.Props.C11_pickled_buttons",
    "Lulua.Props.C11_later_buttons_keep_names",
    "Lulua.Props.C11_order_matters"
   ],
   "note": ""
  },
  {
   "property": "C12",
   "status": "proved",
   "theorems": [
    "Lulua.Props.C12_find",
    "Lulua.Props.C12_find_every_button",
    "Lulua.Props.C12_len",
    "Lulua.Props.C12_keys",
    "Lulua.Props.C12_getRow",
    "Lulua.Props.C12_getRow_unique",
    "Lulua.Props.C12_shipped_rows"
   ],
   "note": ""
  },
  {
   "property": "C13",
   "status": "proved",
   "theorems": [
    "Lulua.Props.C13_keyboard_roundtrip",
    "Lulua.Props.C13_deserialized_is_constructed",
    "Lulua.Props.C13_description_roundtrip"
   ],
   "note": ""
  },
  {
   "property": "C14",
   "status": "partial",
   "theorems": [
    "Lulua.Props.C14_serialize_changes_button",
    "Lulua.Props.C14_deserialize_consumes_kind",
    "Lulua.Props.C14_second_deserialize_differs",
    "Lulua.Props.C14_no_side_effect_partial"
   ],
   "note": "The expectation is false of the code: C14_serialize_changes_button, C14_deserialize_consumes_kind and C14_second_deserialize_differs prove the side effects; the partial theorem says when there are none."
  },
  {
   "property": "C15",
   "status": "proved",
   "theorems": [
    "Lulua.Props.C15_layout_roundtrip",
    "Lulua.Props.C15_description_roundtrip",
    "Lulua.Props.C15_description_exact"
   ],
   "note": ""
  },
  {
   "property": "C16",
   "status": "proved",
   "theorems": [
    "Lulua.Props.C16_specialize_succeeds_iff",
    "Lulua.Props.C16_specialize_correct"
   ],
   "note": ""
  },
  {
   "property": "C17",
   "status": "proved",
   "theorems": [
    "Lulua.Props.C17_counts",
    "Lulua.Props.C17_total",
    "Lulua.Props.C17_text_length"
   ],
   "note": ""
  },
  {
   "property": "C18",
   "status": "proved",
   "theorems": [
    "Lulua.Props.C18_triads",
    "Lulua.Props.C18_ignored",
    "Lulua.Props.C18_typed_texts"
   ],
   "note": ""
  },
  {
   "property": "C19",
   "status": "proved",
   "theorems": [
    "Lulua.Props.C19_hand_runs",
    "Lulua.Props.C19_typed_texts"
   ],
   "note": ""
  },
  {
   "property": "C20",
   "status": "partial",
   "theorems": [
    "Lulua.Props.C20_finger_runs_partial",
    "Lulua.Props.C20_attribution_refuted",
    "Lulua.Props.C20_update_drops"
   ],
   "note": "The expectation is false of the code: C20_attribution_refuted shows a run booked on the wrong finger, C20_update_drops that combining loses finger runs. The partial theorem says what is recorded instead."
  },
  {
   "property": "C21",
   "status": "proved",
   "theorems": [
    "Lulua.Props.C21_words",
    "Lulua.Props.C21_typed_texts",
    "Lulua.Props.C21_undelimited_lost"
   ],
   "note": ""
  },
  {
   "property": "C22",
   "status": "proved",
   "theorems": [
    "Lulua.Props.C22_merge_pointwise",
    "Lulua.Props.C22_merge_raises_iff",
    "Lulua.Props.C22_merge_exceptions",
    "Lulua.Props.C22_counts"
   ],
   "note": ""
  },
  {
   "property": "C23",
   "status": "partial",
   "theorems": [
    "Lulua.Props.C23_flat_partial",
    "Lulua.Props.C23_nested_partial",
    "Lulua.Props.C23_shared_refuted"
   ],
   "note": "False in general: C23_shared_refuted. The partial theorems cover flat dicts and two-level dicts whose outer keys are all present, which are the only shapes the statistics use."
  },
  {
   "property": "C24",
   "status": "proved",
   "theorems": [
    "Lulua.Props.C24_order",
    "Lulua.Props.C24_grouping",
    "Lulua.Props.C24_sums",
    "Lulua.Props.C24_nothing",
    "Lulua.Props.C24_processed_ok",
    "Lulua.Props.C24_continue"
   ],
   "note": ""
  },
  {
   "property": "C25",
   "status": "proved",
   "theorems": [
    "Lulua.Props.C25_workers",
    "Lulua.Props.C25_texts",
    "Lulua.Props.C25_one_text",
    "Lulua.Props.C25_failure"
   ],
   "note": ""
  },
  {
   "property": "C26",
   "status": "proved",
   "theorems": [
    "Lulua.Props.C26_exactly_once",
    "Lulua.Props.C26_no_deadlock",
    "Lulua.Props.C26_terminates",
    "Lulua.Props.C26_statistics"
   ],
   "note": "Queues are modelled as FIFO with the capacities of the code; Queue.empty may lag behind (any stale answer is allowed)."
  },
  {
   "property": "C27",
   "status": "partial",
   "theorems": [
    "Lulua.Props.C27_done_partial",
    "Lulua.Props.C27_raised_partial",
    "Lulua.Props.C27_reported_partial",
    "Lulua.Props.C27_false"
   ],
   "note": "False: C27_false proves a deadlock for every number of workers. C27_reported_partial shows that it needs at least as many failing items as workers: with fewer, every execution ends and raises a failing item’s exception; C27_done_partial and C27_raised_partial hold always."
  },
  {
   "property": "C28",
   "status": "proved",
   "theorems": [
    "Lulua.Props.C28_totals",
    "Lulua.Props.C28_raises_iff"
   ],
   "note": ""
  },
  {
   "property": "C29",
   "status": "proved",
   "theorems": [
    "Lulua.Props.C29_correct",
    "Lulua.Props.C29_total",
    "Lulua.Props.C29_translation"
   ],
   "note": ""
  },
  {
   "property": "C30",
   "status": "proved",
   "theorems": [
    "Lulua.Props.C30_position",
    "Lulua.Props.C30_correct",
    "Lulua.Props.C30_total",
    "Lulua.Props.C30_mirror"
   ],
   "note": ""
  },
  {
   "property": "C31",
   "status": "proved",
   "theorems": [
    "Lulua.Props.C31_correct",
    "Lulua.Props.C31_symmetric"
   ],
   "note": ""
  },
  {
   "property": "C32",
   "status": "proved",
   "theorems": [
    "Lulua.Props.C32_cache"
   ],
   "note": ""
  },
  {
   "property": "C33",
   "status": "proved",
   "theorems": [
    "Lulua.Props.C33_mean",
    "Lulua.Props.C33_order",
    "Lulua.Props.C33_undo"
   ],
   "note": ""
  },
  {
   "property": "C34",
   "status": "proved",
   "theorems": [
    "Lulua.Props.C34_nonneg",
    "Lulua.Props.C34_range",
    "Lulua.Props.C34_monotone",
    "Lulua.Props.C34_shipped"
   ],
   "note": ""
  },
  {
   "property": "C35",
   "status": "proved",
   "theorems": [
    "Lulua.Props.C35_order"
   ],
   "note": ""
  },
  {
   "property": "C36",
   "status": "partial",
   "theorems": [
    "Lulua.Props.C36_rateable_partial",
    "Lulua.Props.C36_false"
   ],
   "note": "False for texts with backspaces: C36_false. The partial theorem covers every text without one, every shipped layout and both models."
  },
  {
   "property": "C37",
   "status": "proved",
   "theorems": [
    "Lulua.Props.C37_permutes",
    "Lulua.Props.C37_randomize",
    "Lulua.Props.C37_result"
   ],
   "note": ""
  },
  {
   "property": "C38",
   "status": "proved",
   "theorems": [
    "Lulua.Props.C38_pinned_button",
    "Lulua.Props.C38_pinned_layer",
    "Lulua.Props.C38_randomize",
    "Lulua.Props.C38_pattern",
    "Lulua.Props.C38_layer"
   ],
   "note": ""
  },
  {
   "property": "C39",
   "status": "proved",
   "theorems": [
    "Lulua.Props.C39_incremental",
    "Lulua.Props.C39_unique"
   ],
   "note": ""
  },
  {
   "property": "C40",
   "status": "proved",
   "theorems": [
    "Lulua.Props.C40_best",
    "Lulua.Props.C40_energy",
    "Lulua.Props.C40_largest",
    "Lulua.Props.C40_step"
   ],
   "note": ""
  },
  {
   "property": "C41",
   "status": "proved",
   "theorems": [
    "Lulua.Props.C41_emitted",
    "Lulua.Props.C41_bijective",
    "Lulua.Props.C41_usable",
    "Lulua.Props.C41_ambiguous_lost",
    "Lulua.Props.C41_unreachable_fails"
   ],
   "note": ""
  },
  {
   "property": "C42",
   "status": "partial",
   "theorems": [
    "Lulua.Props.C42_false",
    "Lulua.Props.C42_never_lower_partial",
    "Lulua.Props.C42_checks_pass_partial"
   ],
   "note": "The expectation is false of the code: C42_false. The partial theorems say that the energy printed is never lower than that of the emitted layout, that the latter is not worse than the input, and that the plausibility checks at the end pass."
  },
  {
   "property": "C43",
   "status": "proved",
   "theorems": [
    "Lulua.Props.C43_first_admissible",
    "Lulua.Props.C43_admissible",
    "Lulua.Props.C43_never_returns",
    "Lulua.Props.C43_no_buttons",
    "Lulua.Props.C43_fraction",
    "Lulua.Props.C43_almost_surely"
   ],
   "note": "Draws are a list supplied from outside; almost sure termination is stated as the limit of the fraction of draw sequences that do not end the loop."
  },
  {
   "property": "C44",
   "status": "proved",
   "theorems": [
    "Lulua.Props.C44_limit",
    "Lulua.Props.C44_limit_mutation",
    "Lulua.Props.C44_unlimited",
    "Lulua.Props.C44_roundtrip",
    "Lulua.Props.C44_documented_rejected",
    "Lulua.Props.C44_mutation_roundtrip"
   ],
   "note": "Python refuses to convert numbers of more than 4300 digits: C44_roundtrip is without this limit, C44_limit and C44_limit_mutation are with any."
  },
  {
   "property": "C45",
   "status": "proved",
   "theorems": [
    "Lulua.Props.C45_local",
    "Lulua.Props.C45_append",
    "Lulua.Props.C45_complete",
    "Lulua.Props.C45_idempotent",
    "Lulua.Props.C45_digits"
   ],
   "note": ""
  },
  {
   "property": "C46",
   "status": "partial",
   "theorems": [
    "Lulua.Props.C46_pieces_partial",
    "Lulua.Props.C46_only_cr_partial",
    "Lulua.Props.C46_clean_partial",
    "Lulua.Props.C46_refuted",
    "Lulua.Props.C46_remains_iff"
   ],
   "note": "False in general: C46_refuted; C46_remains_iff says exactly when a CR LF remains. The partial theorems hold for every text (with the proviso for C46_clean_partial)."
  },
  {
   "property": "C47",
   "status": "proved",
   "theorems": [
    "Lulua.Props.C47_iterchar"
   ],
   "note": ""
  },
  {
   "property": "C48",
   "status": "proved",
   "theorems": [
    "Lulua.Props.C48_order",
    "Lulua.Props.C48_split_filters",
    "Lulua.Props.C48_split_items",
    "Lulua.Props.C48_empty"
   ],
   "note": ""
  },
  {
   "property": "C49",
   "status": "proved",
   "theorems": [
    "Lulua.Props.C49_reads",
    "Lulua.Props.C49_plain"
   ],
   "note": "The decompressor is any one that satisfies the contract Spec.Intact; the brotli library itself is not modelled."
  },
  {
   "property": "C50",
   "status": "partial",
   "theorems": [
    "Lulua.Props.C50_truncated_hangs",
    "Lulua.Props.C50_available_partial"
   ],
   "note": "False: C50_truncated_hangs proves that the read never returns, for every decompressor that stays idle without input (the brotli library is not modelled, only its interface). The partial theorem covers reads within the available data."
  },
  {
   "property": "C51",
   "status": "proved",
   "theorems": [
    "Lulua.Props.C51_contents",
    "Lulua.Props.C51_truncated",
    "Lulua.Props.C51_other_format"
   ],
   "note": ""
  },
  {
   "property": "C52",
   "status": "proved",
   "theorems": [
    "Lulua.Props.C52_selection",
    "Lulua.Props.C52_nested_loses_rest",
    "Lulua.Props.C52_functions",
    "Lulua.Props.C52_selects",
    "Lulua.Props.C52_any",
    "Lulua.Props.C52_complete_iff"
   ],
   "note": "Token streams are those of trees as walked by html5lib, which is not modelled."
  },
  {
   "property": "C53",
   "status": "proved",
   "theorems": [
    "Lulua.Props.C53_document",
    "Lulua.Props.C53_selected",
    "Lulua.Props.C53_stream"
   ],
   "note": ""
  },
  {
   "property": "C54",
   "status": "proved",
   "theorems": [
    "Lulua.Props.C54_tei2",
    "Lulua.Props.C54_subtitles",
    "Lulua.Props.C54_strip",
    "Lulua.Props.C54_nested_duplicates",
    "Lulua.Props.C54_any"
   ],
   "note": ""
  },
  {
   "property": "C55",
   "status": "proved",
   "theorems": [
    "Lulua.Props.C55_prefix",
    "Lulua.Props.C55_end",
    "Lulua.Props.C55_not_more",
    "Lulua.Props.C55_rest"
   ],
   "note": ""
  },
  {
   "property": "C56",
   "status": "proved",
   "theorems": [
    "Lulua.Props.C56_none",
    "Lulua.Props.C56_combining",
    "Lulua.Props.C56_format",
    "Lulua.Props.C56_replaced",
    "Lulua.Props.C56_unchanged",
    "Lulua.Props.C56_nonempty",
    "Lulua.Props.C56_invisible_refuted"
   ],
   "note": "The docstring's claim that the result has no control or invisible characters is refuted (C56_invisible_refuted); what the code does with every text is proved."
  },
  {
   "property": "C57",
   "status": "partial",
   "theorems": [
    "Lulua.Props.C57_order",
    "Lulua.Props.C57_keyError",
    "Lulua.Props.C57_iterate",
    "Lulua.Props.C57_false",
    "Lulua.Props.C57_package_partial",
    "Lulua.Props.C57_only_package"
   ],
   "note": "False for things in the working directory that cannot be opened or decoded (C57_false). C57_order is the exact order, C57_keyError and C57_iterate hold; C57_package_partial is for files that are missing or rejected by the reader of the parser, C57_only_package for onlyRes."
  },
  {
   "property": "C58",
   "status": "partial",
   "theorems": [
    "Lulua.Props.C58_accurate_partial",
    "Lulua.Props.C58_long_partial",
    "Lulua.Props.C58_huge_fails",
    "Lulua.Props.C58_long_refuted"
   ],
   "note": "False for values of 10^27 and more (C58_huge_fails: decimal.InvalidOperation) and, by at most one part in 2*10^27, for values with more than 28 digits (C58_long_refuted). Proved for all others (C58_accurate_partial, C58_long_partial). Decimal's exponent limits, NaN and infinity are not modelled."
  },
  {
   "property": "C59",
   "status": "proved",
   "theorems": [
    "Lulua.Props.C59_arabnum",
    "Lulua.Props.C59_reversible",
    "Lulua.Props.C59_numspace"
   ],
   "note": ""
  },
  {
   "property": "C60",
   "status": "proved",
   "theorems": [
    "Lulua.Props.C60_works",
    "Lulua.Props.C60_cutoff",
    "Lulua.Props.C60_heaviest",
    "Lulua.Props.C60_nothing",
    "Lulua.Props.C60_everything"
   ],
   "note": ""
  },
  {
   "property": "C61",
   "status": "proved",
   "theorems": [
    "Lulua.Props.C61_points",
    "Lulua.Props.C61_monotone",
    "Lulua.Props.C61_few",
    "Lulua.Props.C61_empty"
   ],
   "note": ""
  },
  {
   "property": "C62",
   "status": "proved",
   "theorems": [
    "Lulua.Props.C62_counts",
    "Lulua.Props.C62_sums",
    "Lulua.Props.C62_works"
   ],
   "note": ""
  },
  {
   "property": "C63",
   "status": "proved",
   "theorems": [
    "Lulua.Props.C63_positions",
    "Lulua.Props.C63_size",
    "Lulua.Props.C63_disjoint",
    "Lulua.Props.C63_works",
    "Lulua.Props.C63_margins"
   ],
   "note": ""
  },
  {
   "property": "C64",
   "status": "proved",
   "theorems": [
    "Lulua.Props.C64_lines",
    "Lulua.Props.C64_works",
    "Lulua.Props.C64_shipped"
   ],
   "note": ""
  },
  {
   "property": "C65",
   "status": "proved",
   "theorems": [
    "Lulua.Props.C65_works",
    "Lulua.Props.C65_heat",
    "Lulua.Props.C65_range"
   ],
   "note": ""
  },
  {
   "property": "C66",
   "status": "proved",
   "theorems": [
    "Lulua.Props.C66_unprefixed",
    "Lulua.Props.C66_prefixed",
    "Lulua.Props.C66_names"
   ],
   "note": ""
  },
  {
   "property": "C67",
   "status": "proved",
   "theorems": [
    "Lulua.Props.C67_entries",
    "Lulua.Props.C67_layers"
   ],
   "note": ""
  },
  {
   "property": "C68",
   "status": "proved",
   "theorems": [
    "Lulua.Props.C68_tables",
    "Lulua.Props.C68_works"
   ],
   "note": ""
  },
  {
   "property": "C69",
   "status": "partial",
   "theorems": [
    "Lulua.Props.C69_false",
    "Lulua.Props.C69_partial"
   ],
   "note": "The expectation is false of the code: C69_false shows that no import can be specialized. The partial theorem says when the layers without AltGr could be."
  },
  {
   "property": "C70",
   "status": "partial",
   "theorems": [
    "Lulua.Props.C70_partial",
    "Lulua.Props.C70_false"
   ],
   "note": "False for comments with ;: C70_false. The partial theorem covers comments with //."
  },
  {
   "property": "C71",
   "status": "proved",
   "theorems": [
    "Lulua.Props.C71_wellformed",
    "Lulua.Props.C71_typing"
   ],
   "note": ""
  },
  {
   "property": "C72",
   "status": "proved",
   "theorems": [
    "Lulua.Props.C72_no_silent_loss"
   ],
   "note": ""
  },
  {
   "property": "C73",
   "status": "partial",
   "theorems": [
    "Lulua.Props.C73_false",
    "Lulua.Props.C73_interrupted_partial"
   ],
   "note": "False: C73_false. The partial theorem covers interrupts."
  },
  {
   "property": "C74",
   "status": "partial",
   "theorems": [
    "Lulua.Props.C74_false",
    "Lulua.Props.C74_always",
    "Lulua.Props.C74_partial"
   ],
   "note": "False for zero workers: C74_false, C74_always. The partial theorem covers one or more."
  },
  {
   "property": "C75",
   "status": "proved",
   "theorems": [
    "Lulua.Props.C75_idempotent"
   ],
   "note": ""
  },
  {
   "property": "C76",
   "status": "proved",
   "theorems": [
    "Lulua.Props.C76_nearest",
    "Lulua.Props.C76_exact",
    "Lulua.Props.C76_limit"
   ],
   "note": "Fraction.limit_denominator is the standard library's; its algorithm is modelled and proved to be optimal."
  },
  {
   "property": "C77",
   "status": "proved",
   "theorems": [
    "Lulua.Props.C77_caps",
    "Lulua.Props.C77_labels",
    "Lulua.Props.C77_modifiers",
    "Lulua.Props.C77_fails"
   ],
   "note": ""
  },
  {
   "property": "C78",
   "status": "partial",
   "theorems": [
    "Lulua.Props.C78_partial",
    "Lulua.Props.C78_false"
   ],
   "note": "The expectation is false of the code: C78_false shows that the tables of prefixed scancodes are never terminated. The partial theorem covers the other tables."
  },
  {
   "property": "C79",
   "status": "proved",
   "theorems": [
    "Lulua.Props.C79_types",
    "Lulua.Props.C79_shipped"
   ],
   "note": ""
  },
  {
   "property": "C80",
   "status": "partial",
   "theorems": [
    "Lulua.Props.C80_false",
    "Lulua.Props.C80_partial"
   ],
   "note": "The expectation is false of the code: C80_false. The partial theorem covers characters given by four digits."
  },
  {
   "property": "C81",
   "status": "partial",
   "theorems": [
    "Lulua.Props.C81_false",
    "Lulua.Props.C81_partial"
   ],
   "note": "The expectation is false of the code: C81_false. The partial theorem covers what is in front of the section and behind LIGATURE."
  },
  {
   "property": "C82",
   "status": "proved",
   "theorems": [
    "Lulua.Props.C82_cells",
    "Lulua.Props.C82_works"
   ],
   "note": ""
  },
  {
   "property": "C83",
   "status": "proved",
   "theorems": [
    "Lulua.Props.C83_rules",
    "Lulua.Props.C83_works",
    "Lulua.Props.C83_consistent",
    "Lulua.Props.C83_shipped"
   ],
   "note": ""
  },
  {
   "property": "C84",
   "status": "partial",
   "theorems": [
    "Lulua.Props.C84_maps",
    "Lulua.Props.C84_partial",
    "Lulua.Props.C84_false"
   ],
   "note": "The expectation that all shipped layouts can be written is false (C84_false): eight use a button without macOS code, and null has no name. C84_partial says when it works, C84_maps what is written."
  },
  {
   "property": "C85",
   "status": "partial",
   "theorems": [
    "Lulua.Props.C85_works",
    "Lulua.Props.C85_partial",
    "Lulua.Props.C85_false"
   ],
   "note": "The expectation is false for five shipped layouts (C85_false). C85_partial says exactly when it holds, C85_works when there is a file at all."
  },
  {
   "property": "C86",
   "status": "partial",
   "theorems": [
    "Lulua.Props.C86_partial",
    "Lulua.Props.C86_works",
    "Lulua.Props.C86_false"
   ],
   "note": "The keys of the bottom row have no attributes (C86_false), because the argument is missing in the source. C86_partial covers the other rows, C86_works when there is a file."
  },
  {
   "property": "C87",
   "status": "proved",
   "theorems": [
    "Lulua.Props.C87_hamza_figures",
    "Lulua.Props.C87_raises_iff",
    "Lulua.Props.C87_typed_texts",
    "Lulua.Props.C87_no_alef_fails",
    "Lulua.Props.C87_duplicate_modifiers",
    "Lulua.Props.C87_shipped"
   ],
   "note": ""
  },
  {
   "property": "C88",
   "status": "proved",
   "theorems": [
    "Lulua.Props.C88_lines",
    "Lulua.Props.C88_unique",
    "Lulua.Props.C88_range",
    "Lulua.Props.C88_negative",
    "Lulua.Props.C88_line_injective",
    "Lulua.Props.C88_words_are_letters"
   ],
   "note": ""
  },
  {
   "property": "C89",
   "status": "proved",
   "theorems": [
    "Lulua.Props.C89_works_iff",
    "Lulua.Props.C89_heatmap",
    "Lulua.Props.C89_drawn"
   ],
   "note": ""
  },
  {
   "property": "C90",
   "status": "partial",
   "theorems": [
    "Lulua.Props.C90_characters_refuted",
    "Lulua.Props.C90_characters_partial",
    "Lulua.Props.C90_words",
    "Lulua.Props.C90_report_total"
   ],
   "note": "The number of characters is the number of combinations pressed (C90_characters_refuted). C90_characters_partial says when both agree; words and totals are as expected."
  },
  {
   "property": "C91",
   "status": "partial",
   "theorems": [
    "Lulua.Props.C91_table",
    "Lulua.Props.C91_figures",
    "Lulua.Props.C91_needs_all_fingers",
    "Lulua.Props.C91_refuted"
   ],
   "note": "The table cannot be made if a finger has not pressed any button (C91_refuted); C91_needs_all_fingers says exactly when it can, C91_table that its numbers add up."
  },
  {
   "property": "C92",
   "status": "partial",
   "theorems": [
    "Lulua.Props.C92_eq_iff",
    "Lulua.Props.C92_same_presses_partial",
    "Lulua.Props.C92_same_texts",
    "Lulua.Props.C92_refuted"
   ],
   "note": "Equal layouts may press different buttons (C92_refuted). C92_same_presses_partial: not if no layer has a text on two buttons; C92_same_texts: the texts are always the same."
  },
  {
   "property": "C93",
   "status": "proved",
   "theorems": [
    "Lulua.Props.C93_enumerates",
    "Lulua.Props.C93_specialize_keeps"
   ],
   "note": ""
  },
  {
   "property": "C94",
   "status": "partial",
   "theorems": [
    "Lulua.Props.C94_initial_partial",
    "Lulua.Props.C94_false"
   ],
   "note": "False in general (C94_false, on a shipped layout). C94_initial_partial: true if all combinations have the first modifier of their layer."
  },
  {
   "property": "C95",
   "status": "partial",
   "theorems": [
    "Lulua.Props.C95_no_exception",
    "Lulua.Props.C95_shipped_partial",
    "Lulua.Props.C95_false"
   ],
   "note": "False for texts with backspaces and for the empty layout (C95_false). C95_no_exception says when it holds in general, C95_shipped_partial that it holds for all other texts and shipped layouts."
  },
  {
   "property": "C96",
   "status": "proved",
   "theorems": [
    "Lulua.Props.C96_same_texts",
    "Lulua.Props.C96_shipped"
   ],
   "note": ""
  },
  {
   "property": "C97",
   "status": "proved",
   "theorems": [
    "Lulua.Props.C97_formula",
    "Lulua.Props.C97_unique"
   ],
   "note": ""
  },
  {
   "property": "C98",
   "status": "proved",
   "theorems": [
    "Lulua.Props.C98_mutations",
    "Lulua.Props.C98_single",
    "Lulua.Props.C98_printed"
   ],
   "note": ""
  },
  {
   "property": "C99",
   "status": "proved",
   "theorems": [
    "Lulua.Props.C99_most_frequent",
    "Lulua.Props.C99_ties"
   ],
   "note": ""
  },
  {
   "property": "C100",
   "status": "proved",
   "theorems": [
    "Lulua.Props.C100_reads",
    "Lulua.Props.C100_writes",
    "Lulua.Props.C100_roundtrip",
    "Lulua.Props.C100_texts",
    "Lulua.Props.C100_other_version"
   ],
   "note": ""
  },
  {
   "property": "C101",
   "status": "partial",
   "theorems": [
    "Lulua.Props.C101_false",
    "Lulua.Props.C101_files_partial",
    "Lulua.Props.C101_lines",
    "Lulua.Props.C101_ends"
   ],
   "note": "False for names that end with white space (C101_false). C101_files_partial: true for all other names without line ends."
  },
  {
   "property": "C102",
   "status": "partial",
   "theorems": [
    "Lulua.Props.C102_projects",
    "Lulua.Props.C102_terminates",
    "Lulua.Props.C102_no_deadlock",
    "Lulua.Props.C102_shown",
    "Lulua.Props.C102_dead",
    "Lulua.Props.C102_refuted"
   ],
   "note": "If the display dies, write waits for ever (C102_refuted, C102_dead). Otherwise it holds: C102_projects, C102_terminates, C102_no_deadlock, C102_shown."
  },
  {
   "property": "C103",
   "status": "partial",
   "theorems": [
    "Lulua.Props.C103_never",
    "Lulua.Props.C103_left_out",
    "Lulua.Props.C103_kept_partial",
    "Lulua.Props.C103_false",
    "Lulua.Props.C103_shipped_partial",
    "Lulua.Props.C103_no_digits"
   ],
   "note": "False for seven shipped layouts (C103_false; C103_no_digits for four of them). C103_shipped_partial and C103_kept_partial say when it holds."
  },
  {
   "property": "C104",
   "status": "partial",
   "theorems": [
    "Lulua.Props.C104_partial",
    "Lulua.Props.C104_false"
   ],
   "note": "False for OEM_3 and OEM_5 (C104_false); proved for all other keys."
  },
  {
   "property": "C105",
   "status": "partial",
   "theorems": [
    "Lulua.Props.C105_columns",
    "Lulua.Props.C105_false",
    "Lulua.Props.C105_partial"
   ],
   "note": "False for the layers with two modifiers (C105_false); proved for those with at most one."
  },
  {
   "property": "C106",
   "status": "partial",
   "theorems": [
    "Lulua.Props.C106_windows",
    "Lulua.Props.C106_false",
    "Lulua.Props.C106_partial"
   ],
   "note": "False on macOS and X11 (C106_false); proved for Windows and for all but six modifiers elsewhere."
  },
  {
   "property": "C107",
   "status": "partial",
   "theorems": [
    "Lulua.Props.C107_tables",
    "Lulua.Props.C107_false",
    "Lulua.Props.C107_effort",
    "Lulua.Props.C107_works",
    "Lulua.Props.C107_shipped"
   ],
   "note": "The order of the runs of both hands is false (C107_false); everything else is proved."
  },
  {
   "property": "C108",
   "status": "proved",
   "theorems": [
    "Lulua.Props.C108_eq_iff",
    "Lulua.Props.C108_specialize_iff",
    "Lulua.Props.C108_specialize_together",
    "Lulua.Props.C108_roundtrip",
    "Lulua.Props.C108_shipped"
   ],
   "note": ""
  },
  {
   "property": "C109",
   "status": "proved",
   "theorems": [
    "Lulua.Props.C109_patterns",
    "Lulua.Props.C109_printed",
    "Lulua.Props.C109_optpins",
    "Lulua.Props.C109_shipped"
   ],
   "note": ""
  },
  {
   "property": "C110",
   "status": "partial",
   "theorems": [
    "Lulua.Props.C110_unquoted",
    "Lulua.Props.C110_rule",
    "Lulua.Props.C110_single_partial"
   ],
   "note": "False: the pins contain \";\" and are not quoted. C110_unquoted: with two pins or more the first command is lulua-optimize with the first pin only, without layout, model and input; C110_rule: the five commands of the rule as it is. C110_single_partial: with one pin the rule is one command with all options. Of sh only the separation at ; and blanks is modelled."
  },
  {
   "property": "C111",
   "status": "partial",
   "theorems": [
    "Lulua.Props.C111_roundtrip",
    "Lulua.Props.C111_wellFormed",
    "Lulua.Props.C111_partial",
    "Lulua.Props.C111_maps",
    "Lulua.Props.C111_false",
    "Lulua.Props.C111_ask",
    "Lulua.Props.C111_shipped"
   ],
   "note": "The property is false: ElementTree escapes only markup and white space, so the file for macOS of ar-lulua contains U+0008 and is not well-formed (C111_false). Proved: what is written is read back if and only if all values are texts of XML characters (C111_roundtrip, C111_wellFormed, C111_partial), and then has the maps (C111_maps, C111_ask)."
  },
  {
   "property": "C112",
   "status": "partial",
   "theorems": [
    "Lulua.Props.C112_works",
    "Lulua.Props.C112_names",
    "Lulua.Props.C112_read",
    "Lulua.Props.C112_entry_partial",
    "Lulua.Props.C112_false",
    "Lulua.Props.C112_driver",
    "Lulua.Props.C112_shipped"
   ],
   "note": "The property is false: wchar_t has 16 bits on Windows, so U+1D11E becomes U+D11E, and U+F000 to U+F002 are marks (C112_false). Proved: the text always reads as C and has the numbers of the tables of C68 cut off after 16 bits (C112_read, C112_driver), so all other characters are typed as they are (C112_entry_partial), among them all of ar-lulua (C112_shipped)."
  },
  {
   "property": "C113",
   "status": "partial",
   "theorems": [
    "Lulua.Props.C113_labels",
    "Lulua.Props.C113_quarters",
    "Lulua.Props.C113_cell",
    "Lulua.Props.C113_caps",
    "Lulua.Props.C113_picture",
    "Lulua.Props.C113_apart_partial",
    "Lulua.Props.C113_heat",
    "Lulua.Props.C113_shipped",
    "Lulua.Props.C113_false"
   ],
   "note": "The property is false for buttons narrower than 0.91: the box around the name of a control character is 80 wide whatever the button is (C113_false). Proved for all wider ones (C113_apart_partial), among them those of the shipped keyboard (C113_shipped)."
  },
  {
   "property": "C114",
   "status": "proved",
   "theorems": [
    "Lulua.Props.C114_works",
    "Lulua.Props.C114_reads",
    "Lulua.Props.C114_scancodes",
    "Lulua.Props.C114_names",
    "Lulua.Props.C114_layers",
    "Lulua.Props.C114_chars",
    "Lulua.Props.C114_driver",
    "Lulua.Props.C114_shipped"
   ],
   "note": ""
  },
  {
   "property": "C115",
   "status": "partial",
   "theorems": [
    "Lulua.Props.C115_decomposed",
    "Lulua.Props.C115_exactly",
    "Lulua.Props.C115_equivalent_partial",
    "Lulua.Props.C115_false",
    "Lulua.Props.C115_skipped"
   ],
   "note": "The property is false: of the eight ligatures of lam and alef only three are replaced (C115_false), and with ar-lulua the others are left out of the statistics (C115_skipped). Proved for texts without them and without letters of other languages (C115_equivalent_partial)."
  },
  {
   "property": "C116",
   "status": "partial",
   "theorems": [
    "Lulua.Props.C116_letters",
    "Lulua.Props.C116_missing",
    "Lulua.Props.C116_counts_partial",
    "Lulua.Props.C116_false",
    "Lulua.Props.C116_modifiers"
   ],
   "note": "The property is false: the report counts three single quotes on ar-osman, but there are only an apostrophe and a grave accent (C116_false). Everything else it says about places and numbers is proved (C116_letters, C116_missing, C116_modifiers, C116_counts_partial)."
  },
  {
   "property": "C117",
   "status": "partial",
   "theorems": [
    "Lulua.Props.C117_shipped_usable",
    "Lulua.Props.C117_only_filters_fail",
    "Lulua.Props.C117_counts_partial",
    "Lulua.Props.C117_returns",
    "Lulua.Props.C117_false",
    "Lulua.Props.C117_at_most",
    "Lulua.Props.C117_totals",
    "Lulua.Props.C117_counts_false"
   ],
   "note": "The property is false: the exit status of lulua-write is lost in the pipelines of gen.sh, so after a failure the files exist but count only what was written before, possibly nothing (C117_false, C117_counts_false). Proved without failure (C117_counts_partial, C117_returns), and in general that nothing is counted twice or invented (C117_at_most) and that the totals of the report agree with all.pickle (C117_totals)."
  },
  {
   "property": "C118",
   "status": "partial",
   "theorems": [
    "Lulua.Props.C118_fit",
    "Lulua.Props.C118_errors",
    "Lulua.Props.C118_misfits",
    "Lulua.Props.C118_texts",
    "Lulua.Props.C118_report",
    "Lulua.Props.C118_invalid_lost",
    "Lulua.Props.C118_choice",
    "Lulua.Props.C118_damaged",
    "Lulua.Props.C118_xml_line",
    "Lulua.Props.C118_readme_false"
   ],
   "note": "The command of README.rst reads a corpus of text with the filters file and text, so that its lines are taken as names of files (C118_readme_false)."
  },
  {
   "property": "C119",
   "status": "partial",
   "theorems": [
    "Lulua.Props.C119_renders_iff",
    "Lulua.Props.C119_corpora",
    "Lulua.Props.C119_layouts",
    "Lulua.Props.C119_link_partial",
    "Lulua.Props.C119_link_false",
    "Lulua.Props.C119_shipped",
    "Lulua.Props.C119_letters",
    "Lulua.Props.C119_letter_names",
    "Lulua.Props.C119_references",
    "Lulua.Props.C119_references_false"
   ],
   "note": "Nothing is escaped, so a name with < or an address with a quotation mark is taken as markup (C119_link_false; C119_link_partial for the others, including all shipped corpora). The page refers to INSTALL.txt, which the archive does not have, and two ids occur twice (C119_references_false)."
  },
  {
   "property": "C120",
   "status": "partial",
   "theorems": [
    "Lulua.Props.C120_one_rule",
    "Lulua.Props.C120_no_cycle",
    "Lulua.Props.C120_complete",
    "Lulua.Props.C120_commands",
    "Lulua.Props.C120_reads",
    "Lulua.Props.C120_own",
    "Lulua.Props.C120_own_one",
    "Lulua.Props.C120_write",
    "Lulua.Props.C120_all",
    "Lulua.Props.C120_no_files_false",
    "Lulua.Props.C120_rebuilt",
    "Lulua.Props.C120_page",
    "Lulua.Props.C120_stale_false",
    "Lulua.Props.C120_report_files",
    "Lulua.Props.C120_driver",
    "Lulua.Props.C120_archive",
    "Lulua.Props.C120_shipped",
    "Lulua.Props.C120_layout_lines",
    "Lulua.Props.C120_once_lines",
    "Lulua.Props.C120_corpus_lines",
    "Lulua.Props.C120_listed_lines",
    "Lulua.Props.C120_page_lines",
    "Lulua.Props.C120_all_lines",
    "Lulua.Props.C120_driver_lines",
    "Lulua.Props.C120_files",
    "Lulua.Props.C120_driver_files",
    "Lulua.Props.C120_opt_false"
   ],
   "note": "Nothing is made again after a layout or the program has changed (C120_stale_false; C120_rebuilt and C120_page for the corpora and the page). If a corpus has no files, find is called without a path and searches the current directory (C120_no_files_false)."
  },
  {
   "property": "C121",
   "status": "partial",
   "theorems": [
    "Lulua.Props.C121_works_partial",
    "Lulua.Props.C121_false",
    "Lulua.Props.C121_lines",
    "Lulua.Props.C121_buttons",
    "Lulua.Props.C121_in_view",
    "Lulua.Props.C121_shipped"
   ],
   "note": "With fewer than three or more than twelve layouts there is KeyError, since the palette has no such number of colors (C121_false); proved for three to twelve different layouts (C121_works_partial)."
  },
  {
   "property": "C122",
   "status": "partial",
   "theorems": [
    "Lulua.Props.C122_whole_partial",
    "Lulua.Props.C122_some",
    "Lulua.Props.C122_layoutstats",
    "Lulua.Props.C122_layoutstats_iff",
    "Lulua.Props.C122_fingers",
    "Lulua.Props.C122_heat",
    "Lulua.Props.C122_letters",
    "Lulua.Props.C122_words",
    "Lulua.Props.C122_curve",
    "Lulua.Props.C122_shipped",
    "Lulua.Props.C122_page",
    "Lulua.Props.C122_page_needs",
    "Lulua.Props.C122_plot",
    "Lulua.Props.C122_page_demo",
    "Lulua.Props.C122_page_false"
   ],
   "note": "If lulua-write fails the figures are those of some of the texts (C122_some, C117_false); and with corpora of all letters and spaces there is no page, since the right thumb is not used on ar-phonetic (C122_page_false). Proved if no lulua-write fails (C122_whole_partial), with the exact condition for the page (C122_page, C122_page_needs)."
  },
  {
   "property": "C123",
   "status": "proved",
   "theorems": [
    "Lulua.Props.C123_works",
    "Lulua.Props.C123_compiles",
    "Lulua.Props.C123_program",
    "Lulua.Props.C123_entry",
    "Lulua.Props.C123_sizes",
    "Lulua.Props.C123_offsets",
    "Lulua.Props.C123_layout",
    "Lulua.Props.C123_shipped",
    "Lulua.Props.C123_false"
   ],
   "note": ""
  },
  {
   "property": "C124",
   "status": "partial",
   "theorems": [
    "Lulua.Props.C124_figure",
    "Lulua.Props.C124_order",
    "Lulua.Props.C124_lines",
    "Lulua.Props.C124_columns",
    "Lulua.Props.C124_sorted",
    "Lulua.Props.C124_sum",
    "Lulua.Props.C124_sum_false",
    "Lulua.Props.C124_columns_false",
    "Lulua.Props.C124_table",
    "Lulua.Props.C124_bars_false",
    "Lulua.Props.C124_hamza",
    "Lulua.Props.C124_ask",
    "Lulua.Props.C124_ask_false",
    "Lulua.Props.C124_ask_shipped",
    "Lulua.Props.C124_ask_files"
   ],
   "note": "False for sums: three equal counts are printed as 33.3 % each (C124_sum_false), bars of fingers may be 100.001 % wide (C124_bars_false), seven keys 100.03 % (C124_ask_false); columns of the table of words are not aligned (C124_columns_false). Proved: what each figure is (C124_figure), order, lines, columns of the other tables, sums up to half a digit per entry (C124_sum, C124_table, C124_ask), hands add up to exactly 100 (C124_table), rows of shipped layouts fit (C124_ask_shipped)."
  },
  {
   "property": "C125",
   "status": "partial",
   "theorems": [
    "Lulua.Props.C125_names",
    "Lulua.Props.C125_partial",
    "Lulua.Props.C125_same",
    "Lulua.Props.C125_workers",
    "Lulua.Props.C125_false"
   ],
   "note": "False for letterfreq, triadfreq and triadeffortdata, which ignore -k (C125_false). C125_names and C125_partial say for which keyboards they are right; C125_same covers the other commands, C125_workers the workers of write, which load ibmpc105 too but keep the names."
  },
  {
   "property": "C126",
   "status": "partial",
   "theorems": [
    "Lulua.Props.C126_shapes",
    "Lulua.Props.C126_fonts",
    "Lulua.Props.C126_cascade",
    "Lulua.Props.C126_hits",
    "Lulua.Props.C126_fingers",
    "Lulua.Props.C126_caps",
    "Lulua.Props.C126_heat",
    "Lulua.Props.C126_labels",
    "Lulua.Props.C126_legible_partial",
    "Lulua.Props.C126_paper_false",
    "Lulua.Props.C126_classes",
    "Lulua.Props.C126_selectors"
   ],
   "note": "False for heat maps with the style sheet for printing (C126_paper_false): circles and labels are both black. C126_fingers, C126_caps, C126_heat and C126_labels say how everything looks with either style sheet, C126_legible_partial which colours differ."
  },
  {
   "property": "C127",
   "status": "partial",
   "theorems": [
    "Lulua.Props.C127_build",
    "Lulua.Props.C127_render",
    "Lulua.Props.C127_svg",
    "Lulua.Props.C127_render_unknown",
    "Lulua.Props.C127_analyze",
    "Lulua.Props.C127_triadfreq",
    "Lulua.Props.C127_corpusstats",
    "Lulua.Props.C127_analyze_unknown",
    "Lulua.Props.C127_write",
    "Lulua.Props.C127_optimize",
    "Lulua.Props.C127_report",
    "Lulua.Props.C127_no_corpora",
    "Lulua.Props.C127_files",
    "Lulua.Props.C127_no_command_false",
    "Lulua.Props.C127_help_false",
    "Lulua.Props.C127_help_partial"
   ],
   "note": "False without a command (C127_no_command_false: exception of lulua-analyze and lulua-import) and for the help of triadfreq (C127_help_false: exception). C127_render, C127_svg, C127_analyze, C127_triadfreq, C127_corpusstats, C127_write, C127_optimize, C127_report and C127_files say what each program gets, C127_build that the build file uses them rightly, C127_help_partial that all other help works."
  },
  {
   "property": "C128",
   "status": "proved",
   "theorems": [
    "Lulua.Props.C128_tidy",
    "Lulua.Props.C128_forms",
    "Lulua.Props.C128_forms_before",
    "Lulua.Props.C128_forms_within",
    "Lulua.Props.C128_forms_joined",
    "Lulua.Props.C128_forms_negative",
    "Lulua.Props.C128_unknown",
    "Lulua.Props.C128_unknown_before",
    "Lulua.Props.C128_missing_value",
    "Lulua.Props.C128_bad_value",
    "Lulua.Props.C128_unexpected",
    "Lulua.Props.C128_missing"
   ],
   "note": ""
  },
  {
   "property": "C129",
   "status": "partial",
   "theorems": [
    "Lulua.Props.C129_xmodmap_partial",
    "Lulua.Props.C129_keyman_partial",
    "Lulua.Props.C129_false",
    "Lulua.Props.C129_shipped_partial",
    "Lulua.Props.C129_klavaro_partial",
    "Lulua.Props.C129_klavaro_text"
   ],
   "note": "False if a name contains the end of a line (C129_false: the rest is a command). C129_xmodmap_partial and C129_keyman_partial are for all other names, C129_shipped_partial for the shipped layouts. C129_klavaro_partial is for texts of at most one character, C129_klavaro_text for all."
  },
  {
   "property": "C130",
   "status": "partial",
   "theorems": [
    "Lulua.Props.C130_partial",
    "Lulua.Props.C130_left",
    "Lulua.Props.C130_false",
    "Lulua.Props.C130_winkbd_false",
    "Lulua.Props.C130_reported"
   ],
   "note": "False for xmodmap (C130_false: ten shipped layouts fail and leave a file that clears the modifiers), Keyman, macOS and winkbd (C130_left says what is left, C130_winkbd_false that winkbd may succeed without a file). C130_partial is for the rest."
  },
  {
   "property": "C131",
   "status": "partial",
   "theorems": [
    "Lulua.Props.C131_worker",
    "Lulua.Props.C131_false",
    "Lulua.Props.C131_nothing_partial",
    "Lulua.Props.C131_failures",
    "Lulua.Props.C131_results",
    "Lulua.Props.C131_analysis"
   ],
   "note": "False: statistics without counts are written whenever there is a text (C131_false). C131_nothing_partial says that merging them changes nothing; C131_worker, C131_failures and C131_results what else is as expected."
  },
  {
   "property": "C132",
   "status": "partial",
   "theorems": [
    "Lulua.Props.C132_stopped",
    "Lulua.Props.C132_one_file",
    "Lulua.Props.C132_program_partial",
    "Lulua.Props.C132_unknown",
    "Lulua.Props.C132_false",
    "Lulua.Props.C132_again_partial",
    "Lulua.Props.C132_again_false",
    "Lulua.Props.C132_shipped_keyman",
    "Lulua.Props.C132_shipped_xmodmap"
   ],
   "note": "False without -l (C132_false: TypeError instead of a message) and if the output is called like the layout (C132_again_false: the output is read as layout the next time). C132_program_partial and C132_again_partial are for all other command lines; C132_unknown, C132_shipped_keyman and C132_shipped_xmodmap say more."
  },
  {
   "property": "C133",
   "status": "partial",
   "theorems": [
    "Lulua.Props.C133_ends",
    "Lulua.Props.C133_counts_partial",
    "Lulua.Props.C133_benchmark",
    "Lulua.Props.C133_false",
    "Lulua.Props.C133_false_counts",
    "Lulua.Props.C133_unknown"
   ],
   "note": "False with -j 0 (C133_false: input is read, nothing is written, no error; C133_false_counts: the statistics made of it are not those of the input). C133_counts_partial is for all other numbers of workers and shipped layouts if no filter fails; C133_ends, C133_benchmark and C133_unknown say more. What happens after write has returned (waiting for the threads of the queues) is not modelled."
  },
  {
   "property": "C134",
   "status": "partial",
   "theorems": [
    "Lulua.Props.C134_program_partial",
    "Lulua.Props.C134_false",
    "Lulua.Props.C134_unreadable",
    "Lulua.Props.C134_printed",
    "Lulua.Props.C134_fine_partial",
    "Lulua.Props.C134_pins"
   ],
   "note": "False without -l (C134_false: TypeError after the statistics have been read). C134_program_partial is for all other command lines; C134_printed, C134_pins, C134_fine_partial (statistics with backspaces and the empty layout raise exceptions, C95_false) and C134_unreadable say more."
  },
  {
   "property": "C135",
   "status": "partial",
   "theorems": [
    "Lulua.Props.C135_parts_false",
    "Lulua.Props.C135_nothing",
    "Lulua.Props.C135_figures_partial",
    "Lulua.Props.C135_unreadable",
    "Lulua.Props.C135_false",
    "Lulua.Props.C135_false_triads",
    "Lulua.Props.C135_keyboard_ignored",
    "Lulua.Props.C135_heatmap",
    "Lulua.Props.C135_combine",
    "Lulua.Props.C135_pipeline_partial"
   ],
   "note": "False without -l (C135_false, C135_false_triads: TypeError) and for -k with the commands of plot.py (C135_keyboard_ignored, see also C125_false); statistics in several parts are cut to the first (C135_parts_false). C135_figures_partial is for all other command lines; C135_heatmap, C135_combine, C135_unreadable, C135_nothing and C135_pipeline_partial (shipped layouts, filters that do not fail, at least one worker) say more."
  },
  {
   "property": "C136",
   "status": "partial",
   "theorems": [
    "Lulua.Props.C136_read",
    "Lulua.Props.C136_import_partial",
    "Lulua.Props.C136_refused",
    "Lulua.Props.C136_false",
    "Lulua.Props.C136_unusable"
   ],
   "note": "False for files in UTF-8 (C136_false) and for using the result (C136_unusable, see C69). C136_import_partial and C136_read are for files in UTF-16 with a byte order mark; C136_refused for all others."
  },
  {
   "property": "C137",
   "status": "partial",
   "theorems": [
    "Lulua.Props.C137_renders_partial",
    "Lulua.Props.C137_page_partial",
    "Lulua.Props.C137_false",
    "Lulua.Props.C137_missing_false",
    "Lulua.Props.C137_unreadable",
    "Lulua.Props.C137_first_error",
    "Lulua.Props.C137_lost_false"
   ],
   "note": "False if an option is given several times (C137_false, C137_lost_false) or missing (C137_missing_false). C137_renders_partial and C137_page_partial are for each option given once; C137_unreadable for all."
  },
  {
   "property": "C138",
   "status": "partial",
   "theorems": [
    "Lulua.Props.C138_complete_partial",
    "Lulua.Props.C138_broken_partial",
    "Lulua.Props.C138_prefix",
    "Lulua.Props.C138_false",
    "Lulua.Props.C138_missing"
   ],
   "note": "False for other versions of the format (C138_false). C138_complete_partial and C138_broken_partial are for version 0.10; C138_prefix holds for all."
  },
  {
   "property": "C139",
   "status": "partial",
   "theorems": [
    "Lulua.Props.C139_described",
    "Lulua.Props.C139_missing",
    "Lulua.Props.C139_first_part",
    "Lulua.Props.C139_zero",
    "Lulua.Props.C139_whole_partial",
    "Lulua.Props.C139_pipeline_partial",
    "Lulua.Props.C139_report_partial",
    "Lulua.Props.C139_false"
   ],
   "note": "False for statistics in several parts (C139_false, C139_first_part). C139_whole_partial and C139_pipeline_partial are for combined statistics (the latter for shipped layouts, filters that do not fail, at least one worker), C139_report_partial for each option of lulua-report given once; C139_described, C139_missing and C139_zero (counts of zero) hold for all."
  },
  {
   "property": "C140",
   "status": "partial",
   "theorems": [
    "Lulua.Props.C140_index",
    "Lulua.Props.C140_hand",
    "Lulua.Props.C140_back_partial",
    "Lulua.Props.C140_false",
    "Lulua.Props.C140_writer",
    "Lulua.Props.C140_finger_text",
    "Lulua.Props.C140_text_exactly",
    "Lulua.Props.C140_text_false",
    "Lulua.Props.C140_hand_text"
   ],
   "note": "False for fingers added to two hands (C140_false). C140_back_partial is for fingers added once; C140_index, C140_hand, C140_writer and C140_hand_text hold as stated. That every finger can be shown is false (C140_text_false); C140_text_exactly says which can."
  },
  {
   "property": "C141",
   "status": "partial",
   "theorems": [
    "Lulua.Props.C141_equal",
    "Lulua.Props.C141_hash",
    "Lulua.Props.C141_loaded",
    "Lulua.Props.C141_lookup",
    "Lulua.Props.C141_keys",
    "Lulua.Props.C141_first_key",
    "Lulua.Props.C141_stored_hash",
    "Lulua.Props.C141_len_iter",
    "Lulua.Props.C141_iter",
    "Lulua.Props.C141_len_partial",
    "Lulua.Props.C141_len_false",
    "Lulua.Props.C141_names"
   ],
   "note": "False for len: a button that is also a modifier counts twice (C141_len_false); C141_len_partial says exactly when len is the number of buttons. The rest is proved for all."
  },
  {
   "property": "C142",
   "status": "partial",
   "theorems": [
    "Lulua.Props.C142_not_silent",
    "Lulua.Props.C142_reported_partial",
    "Lulua.Props.C142_terminates",
    "Lulua.Props.C142_false",
    "Lulua.Props.C142_interrupt",
    "Lulua.Props.C142_exactly",
    "Lulua.Props.C142_cause"
   ],
   "note": "False for inputs of at least twice as many lines as workers (C142_false, C142_interrupt). C142_reported_partial is for shorter inputs, C142_exactly says there are no others; C142_not_silent and C142_terminates hold for all. Supposes that all workers fail with the same exception."
  },
  {
   "property": "C143",
   "status": "partial",
   "theorems": [
    "Lulua.Props.C143_returned",
    "Lulua.Props.C143_partial",
    "Lulua.Props.C143_false",
    "Lulua.Props.C143_no_workers"
   ],
   "note": "False after an exception (C143_false) and without workers (C143_no_workers). C143_partial is for at least one worker and lines of which twice the number of workers fit into the pipe; C143_returned is for normal returns. What the interpreter waits for is taken from the documentation of multiprocessing, in the definition of CanLeave."
  },
  {
   "property": "C144",
   "status": "partial",
   "theorems": [
    "Lulua.Props.C144_nothing_written",
    "Lulua.Props.C144_not_silent",
    "Lulua.Props.C144_reported_partial",
    "Lulua.Props.C144_reported",
    "Lulua.Props.C144_terminates",
    "Lulua.Props.C144_false"
   ],
   "note": "That nothing is lost is false (C144_false, C144_nothing_written). C144_reported_partial is for fewer failing items than workers; C144_reported, C144_not_silent and C144_terminates hold as stated."
  },
  {
   "property": "C145",
   "status": "partial",
   "theorems": [
    "Lulua.Props.C145_result",
    "Lulua.Props.C145_partial",
    "Lulua.Props.C145_finite",
    "Lulua.Props.C145_false",
    "Lulua.Props.C145_fits_partial",
    "Lulua.Props.C145_exactly",
    "Lulua.Props.C145_exits",
    "Lulua.Props.C145_filter"
   ],
   "note": "False for programs that write while they read (C145_false; C145_exactly says for which texts) or exit early (C145_exits). C145_partial is for programs that read all of their input first, C145_fits_partial for texts or results that fit into a pipe; C145_result and C145_finite hold for all. C145_filter connects the processes with the filter of Model/Filters.lean."
  }
 ]
}