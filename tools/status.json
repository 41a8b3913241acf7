{
 "C08": {
  "status": "proved",
  "note": "The comment in the source that the left hand is preferred without a previous press is refuted (C08_left_not_preferred); what holds instead is C08_no_previous_takes_first."
 },
 "C14": {
  "status": "partial",
  "note": "The expectation is false of the code: C14_serialize_changes_button, C14_deserialize_consumes_kind and C14_second_deserialize_differs prove the side effects; the partial theorem says when there are none."
 },
 "C20": {
  "status": "partial",
  "note": "The expectation is false of the code: C20_attribution_refuted shows a run booked on the wrong finger, C20_update_drops that combining loses finger runs. The partial theorem says what is recorded instead."
 },
 "C23": {
  "status": "partial",
  "note": "False in general: C23_shared_refuted. The partial theorems cover flat dicts and two-level dicts whose outer keys are all present, which are the only shapes the statistics use."
 },
 "C46": {
  "status": "partial",
  "note": "False in general: C46_refuted; C46_remains_iff says exactly when a CR LF remains. The partial theorems hold for every text (with the proviso for C46_clean_partial)."
 },
 "C50": {
  "status": "partial",
  "note": "False: C50_truncated_hangs proves that the read never returns, for every decompressor that stays idle without input (the brotli library is not modelled, only its interface). The partial theorem covers reads within the available data."
 },
 "C49": {
  "status": "proved",
  "note": "The decompressor is any one that satisfies the contract Spec.Intact; the brotli library itself is not modelled."
 },
 "C52": {
  "status": "proved",
  "note": "Token streams are those of trees as walked by html5lib, which is not modelled."
 },
 "C27": {
  "status": "partial",
  "note": "False: C27_false proves a deadlock for every number of workers. C27_reported_partial shows that it needs at least as many failing items as workers: with fewer, every execution ends and raises a failing item’s exception; C27_done_partial and C27_raised_partial hold always."
 },
 "C26": {
  "status": "proved",
  "note": "Queues are modelled as FIFO with the capacities of the code; Queue.empty may lag behind (any stale answer is allowed)."
 },
 "C73": {
  "status": "partial",
  "note": "False: C73_false. The partial theorem covers interrupts."
 },
 "C74": {
  "status": "partial",
  "note": "False for zero workers: C74_false, C74_always. The partial theorem covers one or more."
 },
 "C36": {
  "status": "partial",
  "note": "False for texts with backspaces: C36_false. The partial theorem covers every text without one, every shipped layout and both models."
 },
 "C42": {
  "status": "partial",
  "note": "The expectation is false of the code: C42_false. The partial theorems say that the energy printed is never lower than that of the emitted layout, that the latter is not worse than the input, and that the plausibility checks at the end pass."
 },
 "C44": {
  "status": "proved",
  "note": "Python refuses to convert numbers of more than 4300 digits: C44_roundtrip is without this limit, C44_limit and C44_limit_mutation are with any."
 },
 "C43": {
  "status": "proved",
  "note": "Draws are a list supplied from outside; almost sure termination is stated as the limit of the fraction of draw sequences that do not end the loop."
 },
 "C58": {
  "status": "partial",
  "note": "False for values of 10^27 and more (C58_huge_fails: decimal.InvalidOperation) and, by at most one part in 2*10^27, for values with more than 28 digits (C58_long_refuted). Proved for all others (C58_accurate_partial, C58_long_partial). Decimal's exponent limits, NaN and infinity are not modelled."
 },
 "C56": {
  "status": "proved",
  "note": "The docstring's claim that the result has no control or invisible characters is refuted (C56_invisible_refuted); what the code does with every text is proved."
 },
 "C76": {
  "status": "proved",
  "note": "Fraction.limit_denominator is the standard library's; its algorithm is modelled and proved to be optimal."
 },
 "C78": {
  "status": "partial",
  "note": "The expectation is false of the code: C78_false shows that the tables of prefixed scancodes are never terminated. The partial theorem covers the other tables."
 },
 "C69": {
  "status": "partial",
  "note": "The expectation is false of the code: C69_false shows that no import can be specialized. The partial theorem says when the layers without AltGr could be."
 },
 "C70": {
  "status": "partial",
  "note": "False for comments with ;: C70_false. The partial theorem covers comments with //."
 },
 "C80": {
  "status": "partial",
  "note": "The expectation is false of the code: C80_false. The partial theorem covers characters given by four digits."
 },
 "C81": {
  "status": "partial",
  "note": "The expectation is false of the code: C81_false. The partial theorem covers what is in front of the section and behind LIGATURE."
 },
 "C84": {
  "status": "partial",
  "note": "The expectation that all shipped layouts can be written is false (C84_false): eight use a button without macOS code, and null has no name. C84_partial says when it works, C84_maps what is written."
 },
 "C85": {
  "status": "partial",
  "note": "The expectation is false for five shipped layouts (C85_false). C85_partial says exactly when it holds, C85_works when there is a file at all."
 },
 "C86": {
  "status": "partial",
  "note": "The keys of the bottom row have no attributes (C86_false), because the argument is missing in the source. C86_partial covers the other rows, C86_works when there is a file."
 },
 "C90": {
  "status": "partial",
  "note": "The number of characters is the number of combinations pressed (C90_characters_refuted). C90_characters_partial says when both agree; words and totals are as expected."
 },
 "C91": {
  "status": "partial",
  "note": "The table cannot be made if a finger has not pressed any button (C91_refuted); C91_needs_all_fingers says exactly when it can, C91_table that its numbers add up."
 },
 "C92": {
  "status": "partial",
  "note": "Equal layouts may press different buttons (C92_refuted). C92_same_presses_partial: not if no layer has a text on two buttons; C92_same_texts: the texts are always the same."
 },
 "C94": {
  "status": "partial",
  "note": "False in general (C94_false, on a shipped layout). C94_initial_partial: true if all combinations have the first modifier of their layer."
 },
 "C95": {
  "status": "partial",
  "note": "False for texts with backspaces and for the empty layout (C95_false). C95_no_exception says when it holds in general, C95_shipped_partial that it holds for all other texts and shipped layouts."
 },
 "C101": {
  "status": "partial",
  "note": "False for names that end with white space (C101_false). C101_files_partial: true for all other names without line ends."
 },
 "C102": {
  "status": "partial",
  "note": "If the display dies, write waits for ever (C102_refuted, C102_dead). Otherwise it holds: C102_projects, C102_terminates, C102_no_deadlock, C102_shown."
 },
 "C103": {
  "status": "partial",
  "note": "False for seven shipped layouts (C103_false; C103_no_digits for four of them). C103_shipped_partial and C103_kept_partial say when it holds."
 },
 "C104": {
  "status": "partial",
  "note": "False for OEM_3 and OEM_5 (C104_false); proved for all other keys."
 },
 "C105": {
  "status": "partial",
  "note": "False for the layers with two modifiers (C105_false); proved for those with at most one."
 },
 "C106": {
  "status": "partial",
  "note": "False on macOS and X11 (C106_false); proved for Windows and for all but six modifiers elsewhere."
 },
 "C107": {
  "status": "partial",
  "note": "The order of the runs of both hands is false (C107_false); everything else is proved."
 },
 "C110": {
  "status": "partial",
  "note": "False: the pins contain \";\" and are not quoted. C110_unquoted: with two pins or more the first command is lulua-optimize with the first pin only, without layout, model and input; C110_rule: the five commands of the rule as it is. C110_single_partial: with one pin the rule is one command with all options. Of sh only the separation at ; and blanks is modelled."
 },
 "C111": {
  "status": "partial",
  "note": "The property is false: ElementTree escapes only markup and white space, so the file for macOS of ar-lulua contains U+0008 and is not well-formed (C111_false). Proved: what is written is read back if and only if all values are texts of XML characters (C111_roundtrip, C111_wellFormed, C111_partial), and then has the maps (C111_maps, C111_ask)."
 },
 "C112": {
  "status": "partial",
  "note": "The property is false: wchar_t has 16 bits on Windows, so U+1D11E becomes U+D11E, and U+F000 to U+F002 are marks (C112_false). Proved: the text always reads as C and has the numbers of the tables of C68 cut off after 16 bits (C112_read, C112_driver), so all other characters are typed as they are (C112_entry_partial), among them all of ar-lulua (C112_shipped)."
 },
 "C113": {
  "status": "partial",
  "note": "The property is false for buttons narrower than 0.91: the box around the name of a control character is 80 wide whatever the button is (C113_false). Proved for all wider ones (C113_apart_partial), among them those of the shipped keyboard (C113_shipped)."
 },
 "C115": {
  "status": "partial",
  "note": "The property is false: of the eight ligatures of lam and alef only three are replaced (C115_false), and with ar-lulua the others are left out of the statistics (C115_skipped). Proved for texts without them and without letters of other languages (C115_equivalent_partial)."
 },
 "C116": {
  "status": "partial",
  "note": "The property is false: the report counts three single quotes on ar-osman, but there are only an apostrophe and a grave accent (C116_false). Everything else it says about places and numbers is proved (C116_letters, C116_missing, C116_modifiers, C116_counts_partial)."
 },
 "C117": {
  "status": "partial",
  "note": "The property is false: the exit status of lulua-write is lost in the pipelines of gen.sh, so after a failure the files exist but count only what was written before, possibly nothing (C117_false, C117_counts_false). Proved without failure (C117_counts_partial, C117_returns), and in general that nothing is counted twice or invented (C117_at_most) and that the totals of the report agree with all.pickle (C117_totals)."
 },
 "C119": {
  "status": "partial",
  "note": "Nothing is escaped, so a name with < or an address with a quotation mark is taken as markup (C119_link_false; C119_link_partial for the others, including all shipped corpora). The page refers to INSTALL.txt, which the archive does not have, and two ids occur twice (C119_references_false)."
 },
 "C120": {
  "status": "partial",
  "note": "Nothing is made again after a layout or the program has changed (C120_stale_false; C120_rebuilt and C120_page for the corpora and the page). If a corpus has no files, find is called without a path and searches the current directory (C120_no_files_false)."
 },
 "C118": {
  "status": "partial",
  "note": "The command of README.rst reads a corpus of text with the filters file and text, so that its lines are taken as names of files (C118_readme_false)."
 },
 "C121": {
  "status": "partial",
  "note": "With fewer than three or more than twelve layouts there is KeyError, since the palette has no such number of colors (C121_false); proved for three to twelve different layouts (C121_works_partial)."
 },
 "C122": {
  "status": "partial",
  "note": "If lulua-write fails the figures are those of some of the texts (C122_some, C117_false); and with corpora of all letters and spaces there is no page, since the right thumb is not used on ar-phonetic (C122_page_false). Proved if no lulua-write fails (C122_whole_partial), with the exact condition for the page (C122_page, C122_page_needs)."
 },
 "C124": {
  "status": "partial",
  "note": "False for sums: three equal counts are printed as 33.3 % each (C124_sum_false), bars of fingers may be 100.001 % wide (C124_bars_false), seven keys 100.03 % (C124_ask_false); columns of the table of words are not aligned (C124_columns_false). Proved: what each figure is (C124_figure), order, lines, columns of the other tables, sums up to half a digit per entry (C124_sum, C124_table, C124_ask), hands add up to exactly 100 (C124_table), rows of shipped layouts fit (C124_ask_shipped)."
 },
 "C125": {
  "status": "partial",
  "note": "False for letterfreq, triadfreq and triadeffortdata, which ignore -k (C125_false). C125_names and C125_partial say for which keyboards they are right; C125_same covers the other commands, C125_workers the workers of write, which load ibmpc105 too but keep the names."
 },
 "C126": {
  "status": "partial",
  "note": "False for heat maps with the style sheet for printing (C126_paper_false): circles and labels are both black. C126_fingers, C126_caps, C126_heat and C126_labels say how everything looks with either style sheet, C126_legible_partial which colours differ."
 },
 "C127": {
  "status": "partial",
  "note": "False without a command (C127_no_command_false: exception of lulua-analyze and lulua-import) and for the help of triadfreq (C127_help_false: exception). C127_render, C127_svg, C127_analyze, C127_triadfreq, C127_corpusstats, C127_write, C127_optimize, C127_report and C127_files say what each program gets, C127_build that the build file uses them rightly, C127_help_partial that all other help works."
 },
 "C129": {
  "status": "partial",
  "note": "False if a name contains the end of a line (C129_false: the rest is a command). C129_xmodmap_partial and C129_keyman_partial are for all other names, C129_shipped_partial for the shipped layouts. C129_klavaro_partial is for texts of at most one character, C129_klavaro_text for all."
 },
 "C130": {
  "status": "partial",
  "note": "False for xmodmap (C130_false: ten shipped layouts fail and leave a file that clears the modifiers), Keyman, macOS and winkbd (C130_left says what is left, C130_winkbd_false that winkbd may succeed without a file). C130_partial is for the rest."
 },
 "C131": {
  "status": "partial",
  "note": "False: statistics without counts are written whenever there is a text (C131_false). C131_nothing_partial says that merging them changes nothing; C131_worker, C131_failures and C131_results what else is as expected."
 },
 "C132": {
  "status": "partial",
  "note": "False without -l (C132_false: TypeError instead of a message) and if the output is called like the layout (C132_again_false: the output is read as layout the next time). C132_program_partial and C132_again_partial are for all other command lines; C132_unknown, C132_shipped_keyman and C132_shipped_xmodmap say more."
 },
 "C133": {
  "status": "partial",
  "note": "False with -j 0 (C133_false: input is read, nothing is written, no error; C133_false_counts: the statistics made of it are not those of the input). C133_counts_partial is for all other numbers of workers and shipped layouts if no filter fails; C133_ends, C133_benchmark and C133_unknown say more. What happens after write has returned (waiting for the threads of the queues) is not modelled."
 },
 "C134": {
  "status": "partial",
  "note": "False without -l (C134_false: TypeError after the statistics have been read). C134_program_partial is for all other command lines; C134_printed, C134_pins, C134_fine_partial (statistics with backspaces and the empty layout raise exceptions, C95_false) and C134_unreadable say more."
 },
 "C135": {
  "status": "partial",
  "note": "False without -l (C135_false, C135_false_triads: TypeError) and for -k with the commands of plot.py (C135_keyboard_ignored, see also C125_false); statistics in several parts are cut to the first (C135_parts_false). C135_figures_partial is for all other command lines; C135_heatmap, C135_combine, C135_unreadable, C135_nothing and C135_pipeline_partial (shipped layouts, filters that do not fail, at least one worker) say more."
 },
 "C136": {
  "status": "partial",
  "note": "False for files in UTF-8 (C136_false) and for using the result (C136_unusable, see C69). C136_import_partial and C136_read are for files in UTF-16 with a byte order mark; C136_refused for all others."
 },
 "C137": {
  "status": "partial",
  "note": "False if an option is given several times (C137_false, C137_lost_false) or missing (C137_missing_false). C137_renders_partial and C137_page_partial are for each option given once; C137_unreadable for all."
 },
 "C138": {
  "status": "partial",
  "note": "False for other versions of the format (C138_false). C138_complete_partial and C138_broken_partial are for version 0.10; C138_prefix holds for all."
 },
 "C57": {
  "status": "partial",
  "note": "False for things in the working directory that cannot be opened or decoded (C57_false). C57_order is the exact order, C57_keyError and C57_iterate hold; C57_package_partial is for files that are missing or rejected by the reader of the parser, C57_only_package for onlyRes."
 },
 "C139": {
  "status": "partial",
  "note": "False for statistics in several parts (C139_false, C139_first_part). C139_whole_partial and C139_pipeline_partial are for combined statistics (the latter for shipped layouts, filters that do not fail, at least one worker), C139_report_partial for each option of lulua-report given once; C139_described, C139_missing and C139_zero (counts of zero) hold for all."
 },
 "C140": {
  "status": "partial",
  "note": "False for fingers added to two hands (C140_false). C140_back_partial is for fingers added once; C140_index, C140_hand, C140_writer and C140_hand_text hold as stated. That every finger can be shown is false (C140_text_false); C140_text_exactly says which can."
 },
 "C141": {
  "status": "partial",
  "note": "False for len: a button that is also a modifier counts twice (C141_len_false); C141_len_partial says exactly when len is the number of buttons. The rest is proved for all."
 },
 "C142": {
  "status": "partial",
  "note": "False for inputs of at least twice as many lines as workers (C142_false, C142_interrupt). C142_reported_partial is for shorter inputs, C142_exactly says there are no others; C142_not_silent and C142_terminates hold for all. Supposes that all workers fail with the same exception."
 },
 "C143": {
  "status": "partial",
  "note": "False after an exception (C143_false) and without workers (C143_no_workers). C143_partial is for at least one worker and lines of which twice the number of workers fit into the pipe; C143_returned is for normal returns. What the interpreter waits for is taken from the documentation of multiprocessing, in the definition of CanLeave."
 },
 "C144": {
  "status": "partial",
  "note": "That nothing is lost is false (C144_false, C144_nothing_written). C144_reported_partial is for fewer failing items than workers; C144_reported, C144_not_silent and C144_terminates hold as stated."
 },
 "C145": {
  "status": "partial",
  "note": "False for programs that write while they read (C145_false; C145_exactly says for which texts) or exit early (C145_exits). C145_partial is for programs that read all of their input first, C145_fits_partial for texts or results that fit into a pipe; C145_result and C145_finite hold for all. C145_filter connects the processes with the filter of Model/Filters.lean."
 }
}