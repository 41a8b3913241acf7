# Formal model of lulua: design

`/repo` (PromyLOPh/lulua, python) is modelled in Lean 4 under `lean/Verif`.
The code is read as text; nothing of it is run.

The property theorems are the ones named in `MANIFEST.json`; `properties.jsonl`
says in prose what each property is.

## Layout of the project

| Directory | Contents |
|---|---|
| `Verif/Py` | python runtime: exceptions as values, dicts, frozensets |
| `Verif/Model` | one or two files per python module, function by function, citing file and lines |
| `Verif/Data` | the shipped keyboard, layouts, finger map, effort models and tables as Lean data (generated by `tools/gen_data.py` from `/repo/lulua`) |
| `Verif/Spec` | small independent specifications the property theorems are stated with |
| `Verif/Proofs` | helper lemmas |
| `Verif/Props` | property theorems, named after the property (`C01_…`), each with an `example` showing that its hypotheses are met by a non-trivial case |
| `seeded/LOG.jsonl` | wrong programs the theorems were tried against, see below |
| `tools` | `props.py` writes `properties.jsonl`, `manifest.py` writes `MANIFEST.json`, `design.py` the list of axioms below, `gen_data.py` the files in `Verif/Data` |

## Modelling conventions

* Exceptions are values: `Py α = Except PyErr α`. Generators are lists of what
  they yield plus the way they end.
* `Button` is its interned number (`Button.i`), which is what `__eq__` and
  `__hash__` look at. Names are reached through the intern table.
* `frozenset` of buttons is a strictly sorted list. Python iterates a set in hash
  order. Where the order could matter it is a parameter, or that results do not
  depend on it is a property of its own (C35).
* `dict` is an association list in insertion order. That it has no duplicate keys
  is a separate predicate, which is proved to be kept. That a dictionary with
  combinations as keys, which compares stored hashes first, is one is C141.
* Text is `List Char` (lone surrogates, which python strings allow, are excluded).
* Floats are rational numbers (exact arithmetic), or real numbers where a
  logarithm is taken. Float rounding is *not* modelled, so wherever a property
  speaks about a float it speaks about the exact value of the formula.
* Integers are unbounded. Python's refusal to convert more than 4300 digits is
  modelled for pins and mutations (`Model/IntLimit.lean`), but not for other
  options. `Decimal` is modelled with its precision of 28 digits and its
  rounding, without NaN, infinity and the limits of the exponent.
* Unicode tables (`unicodedata`), white space, `fnmatch`, `pygtrie`, `brotli`,
  `html5lib`, YAML, pickle, jinja, bokeh, svgwrite and the operating system are
  not modelled; they appear as parameters or through the part of their contract
  that is used (stated at the definition). A value of the YAML files that is
  neither a text nor a list of texts is `.other`; `.other 0` stands for `None`.
  Looking up an undefined name in a jinja template is `.otherError`.
* Random choices, schedules, file contents and the times at which a process is
  interrupted or killed are universally quantified inputs.
* The error branches are part of the model: a lookup that fails is the exception
  python raises. Theorems that say what a result looks like have a companion that
  says when there is a result, or are stated for both outcomes.

## Trusted base

* Lean's kernel, and the axioms `propext`, `Classical.choice`, `Quot.sound`; the
  list at the end says which theorem depends on which. There is no `sorry`,
  `native_decide`, `bv_decide` or axiom of our own.
* That the definitions in `Verif/Model` say what the python code says. Every
  definition cites the lines it models and names what it leaves out. As evidence,
  `Verif/Conformance` repeats the project's own tests (`lulua/test_*.py`) on the
  model: the stroke path table of `test_carpalx.py`, the typing and choice tests of
  `test_writer.py`, and those of all other test files, evaluated by the kernel. Left
  out are `test_atomic` (needs the Unicode database), `process (1)` of
  `test_stats.py` (arguments of other types do not exist in the model),
  and the layouts other than `ar-alramly` in
  `test_layout_text_identity` (C04 covers all layouts). Brotli and html5lib are
  replaced by what they return.
* That the definitions in `Verif/Spec` say what the properties say.
* `tools/gen_data.py` for the transcription of the YAML files and of the tables in
  `writer.py`, `carpalx.py`, `winkbd.py` and `render.py`, and for the composed
  forms (NFC) of the texts of the shipped layouts, which it takes from python's
  `unicodedata`. Theorems about shipped data (C12, C34, C36, C71, C84–C87,
  C94–C96, C103–C109, C111–C139) rest on it.

## What is modelled

| File | Modelled | Not modelled |
|---|---|---|
| `keyboard.py` | everything | `__repr__` |
| `layout.py` | `Hand`, `Finger`, `ButtonCombination`, `KeyboardLayout`, `GenericLayout`, `fromKlc`, what `importKlc` returns, decoding of its file (`Model/ImportMain.lean`) | `__repr__` of layouts and combinations; the bytes of pickles (`Model/Combination.lean` has the state, the hash and loading of combinations) |
| `writer.py` | everything | `__repr__` |
| `stats.py` | all four statistics with `process`, `update` and `__eq__`; `updateDictOp` also with aliasing, on a heap; `makeCombined`, `combine`, `keyHeatmap`, `layoutstats`, `latinImeDict`, `corpusStats`, `pretty`; the lines `pretty` prints (`Model/Printed.lean`; names of buttons, `repr` of characters and the last number as parameters; numbers are exact before they are rounded, not `float`) | pickle; YAML output; the time stamp of the dictionary |
| `carpalx.py` | everything | float rounding |
| `optimize.py` | `Annealer`, `mapButton`, `LayoutOptimizer`, `parsePin`, `parseMutation`, `optimize` from the loaded statistics to the layout printed | progress bar, logging |
| `text.py` | `iterchar`, `Select`, `HTMLSerializer`, `BrotliFile`, `filterTar`, `filterHtml`, what `filterEpub` does with a document, `filterMediawikiMarkdown` with its pipes (`Model/Pandoc.lean`), `getText`, `filterTEI2`, `filterOpenSubtitles`, the end of `filterMediawikiMarkdown`, `filterJson` on strings, `filterLines`, `extractMediawiki` on the parsed document and on the events of a parser (`Model/ExtractMain.lean`), `mapChars`, `apply`, `writeWorker`, `statusWorker`, the processes and queues of `write`; all filters on anything another filter can yield (`Model/Filters.lean`; parsers, decompressor, pandoc and file system are parameters) | the parsers themselves; JSON values that are not strings (what typing them gives is a parameter; not what further filters do with them); read errors of plain files |
| `util.py` | everything | package resources (a function from names to texts instead) |
| `report.py` | `approx`, `fraction`, `numspace`, `arabnum`, the totals, `render` with the tables, variables, links and anchors of `index.html` (`Model/Page.lean`), from the command line on (`Model/ReportMain.lean`); number formats (`Model/Printed.lean`) | the remaining text of the page, jinja itself |
| `plot.py` | the numbers `letterfreq`, `triadfreq`, `triadEffortData` put into the plot; lines, colors, buttons and axes of `triadEffortPlot` (`Model/EffortPlot.lean`) | drawing |
| `render.py` | positions and labels of `Renderer`, `renderSvg`'s selection, its shapes (`Model/Shapes.lean`), elements, classes and style (`Model/Svg.lean`), all exporters (xmodmap, Keyman, ASK, Windows, macOS, Klavaro) as the entries they write, and the text of the files (`Model/Output.lean`); `ElementTree`'s serializer for elements without text (`Model/Xml.lean`) | extent of text, zip files |
| command lines | every program of `setup.py` and its arguments (`Model/Argparse.lean`, after `argparse` of Python 3.11; compared with the standard library on 20000 random command lines) | the text of messages and help; `-` for standard input |
| `winkbd.py` | all of the C text (`Model/WinKbdText.lean`, `Model/WinKbdTables.lean`, `Model/WinKbdFile.lean`) | what compiler and linker make of it beyond `Spec/CFile.lean` |
| `gen.sh` | the command of the rule `opt`; the rules `write-…` and `combine` (`Model/Pipeline.lean` and `Model/Whole.lean`: which results reach which file, and that a pipeline succeeds if its last command does; `Model/Filters.lean`: the filters of each); the whole build file and that of the driver (`Model/Ninja.lean`: statements, rules, variables, commands) | what the commands do otherwise (`find`, `cat`, `sort`, `jq`, compilers, pickle); time stamps and scheduling of ninja |

## Findings

Expectations that the code does not meet. Each is proved with a concrete witness
(or in general) by the theorem named; a `_partial` theorem says what holds instead.

| Property | What is wrong | Theorem |
|---|---|---|
| C08 | the comment in `writer.py` that the left hand is preferred for the first press is wrong, the first combination of the list is taken | `C08_left_not_preferred` |
| C14 | serializing changes the button, deserializing the description; deserializing twice gives different buttons | `C14_serialize_changes_button`, `C14_deserialize_consumes_kind`, `C14_second_deserialize_differs` |
| C20 | a run of one finger is booked on the finger that ends it; combining drops the finger runs | `C20_attribution_refuted`, `C20_update_drops` |
| C23 | merging nested dictionaries shares the inner ones, so a later merge changes the source | `C23_shared_refuted` |
| C27 | `write ()` waits for ever if as many items fail as there are workers and there is more input | `C27_false` |
| C36 | rating a text with backspaces raises `KeyError` with both models | `C36_false` |
| C42 | the energy printed by the optimizer is that of the last state, not of the best, which is the one printed | `C42_false` |
| C46 | a CR LF can remain after CR LF have been replaced | `C46_refuted` |
| C50 | reading a truncated brotli file never returns | `C50_truncated_hangs` |
| C52 | if a selected element contains a selected one, the rest of the outer one is lost | `C52_nested_loses_rest`, `C52_complete_iff` |
| C56 | the claim that no control or invisible characters are displayed | `C56_invisible_refuted` |
| C58 | numbers from 10²⁷ on are an error; numbers with more than 28 digits are rounded twice | `C58_huge_fails`, `C58_long_refuted` |
| C69 | no imported KLC layout can be used on the shipped keyboard (`Er_altgr` does not exist) | `C69_false` |
| C70 | comments beginning with `;` are read as text | `C70_false` |
| C73 | `write ()` does not end if a worker is killed | `C73_false` |
| C74 | with `-j 0` `write ()` succeeds without having processed anything | `C74_false`, `C74_always` |
| C77 | buttons of the fifth layer make rendering fail | `C77_fails` |
| C78 | the tables of prefixed scancodes of the Windows driver are not terminated | `C78_false` |
| C80 | letters that stand for themselves in a KLC file are read as hexadecimal numbers | `C80_false` |
| C81 | without a section `LIGATURE` the following sections are read as part of the layout | `C81_false` |
| C84 | eight of the shipped layouts cannot be written for macOS | `C84_false` |
| C85 | the Klavaro file of five shipped layouts has not one character per button | `C85_false` |
| C86 | the keys of the bottom row have no attributes in ASK layouts | `C86_false` |
| C87 | `layoutstats` divides by zero if a text has no alef | `C87_no_alef_fails` |
| C90 | the number of characters of a corpus is the number of combinations pressed | `C90_characters_refuted` |
| C91 | the report cannot be made if a finger was never used | `C91_refuted` |
| C92 | equal layouts may press different buttons | `C92_refuted` |
| C94 | the optimizer rates every combination with the first modifier of its layer, not with the one used | `C94_false` |
| C95 | optimizing for a text with backspaces raises `KeyError`, optimizing the empty layout `IndexError` | `C95_false` |
| C100 | a dump of another version of the MediaWiki export format gives no texts, without an error | `C100_other_version` |
| C101 | a file whose name ends with a blank is not found, another one may be opened | `C101_false` |
| C102 | `write ()` waits for ever if the process that shows progress dies while there is more input | `C102_refuted` |
| C103 | importing replaces digits and percent signs by characters that seven of the shipped layouts do not have; four of them never count a digit | `C103_false`, `C103_no_digits` |
| C104 | `OEM_3` of a KLC file is imported as the button of the digit one, `OEM_5` as a button that does not exist | `C104_false` |
| C105 | layers of an imported KLC file with two modifiers cannot be reached with every shift key | `C105_false` |
| C106 | caps lock and left shift have the same code on macOS, the right windows and control keys on X11 | `C106_false` |
| C107 | `pretty` does not print the runs of both hands in the order of their length | `C107_false` |
| C110 | the rule `opt` of `gen.sh` gives `0;1;2;0,B*;3,*` to `sh` without quotes: the optimizer runs with pin `0` only, without layout and input, and `1`, `2`, `0,B*`, `3,*` are run as commands | `C110_unquoted`, `C110_rule` |
| C111 | `ElementTree` writes U+0008 (`Br_bs` of `ar-lulua`) as it is: the file for macOS of the project's own layout is not well-formed XML | `C111_false` |
| C112 | `vkToWchar` writes characters above U+FFFF as one number, which does not fit `wchar_t` of Windows: U+1D11E is typed as U+D11E. U+F000 is typed as nothing | `C112_false` |
| C113 | The box around the name of a control character has a fixed size: on a button half as wide as usual it covers part of the button beside it | `C113_false` |
| C115 | `charMap` has three of the eight ligatures of lam and alef: ﻵ and the four forms for the end of a word are left out of the statistics of `ar-lulua`, though it has all letters they consist of | `C115_false`, `C115_skipped` |
| C116 | The report says that `ar-osman` has three single quotes; it has one apostrophe and a grave accent, and not the character shown | `C116_false` |
| C117 | `lulua-write` is not the last command of the pipelines in `gen.sh`, so its exit status is lost: one line that cannot be read (a missing or damaged file) makes the statistics of the corpus incomplete or empty, and the build continues with them | `C117_false`, `C117_counts_false` |
| C118 | an XML document that is not valid is logged and left out; a corpus of nothing else gives empty statistics without an error | `C118_invalid_lost` |
| C118 | `README.rst` reads `corpus.txt` with the filters `file text`: each line is taken as the name of a file, which is an exception; the filter would be `lines` | `C118_readme_false` |
| C119 | names and addresses of the corpora are put into the page without escaping | `C119_link_false` |
| C119 | the page tells users of Windows to follow `INSTALL.txt`, the archive has `README.txt`; the ids `ar-qtaish` and `ar-ergoarabic` occur twice | `C119_references_false` |
| C120 | no statement of the build file depends on the layout or on the program, so after a change of either nothing is made again | `C120_stale_false` |
| C120 | for a corpus without files the rule calls `find` without a path, which reads the current directory instead | `C120_no_files_false` |
| C120 | a directory in `corpus` that is not one of the eight known makes the whole report impossible: its statistics have no rule | `C120_complete` |
| C120 | the rule `opt` passes the pins `0;1;2;0,B*;3,*` without quotes, so the shell ends the command at the first `;`, without layout, model and input; no statement uses the rule | `C120_opt_false` |
| C121 | the plot of efforts needs three to twelve layouts: there are no palettes of other sizes. gen.sh has exactly twelve, so one more layout breaks the report | `C121_false` |
| C122 | `ar-phonetic` has a space for the right thumb only with shift, so that thumb is used only with AltGr: corpora without such characters (quotation marks, for instance) have no page, since the template divides an undefined value | `C122_page_false` |
| C123 | a character above U+FFFF is written to the driver without any error, as a number that does not fit a `wchar_t` of 16 bits | `C123_false` (see C112) |
| C124 | printed percentages need not add up: three equal counts give 99.9 %; the bars of five fingers can be 100.001 % wide and seven keys of a row for AnySoftKeyboard 7 · 14.29 % = 100.03 % (none of the shipped layouts has seven); the format `:2.5f` of shares of words (`stats.py:297`) does not align them | `C124_sum_false`, `C124_bars_false`, `C124_ask_false`, `C124_columns_false` |
| C125 | `letterfreq`, `triadfreq` and `triadeffortdata` ignore `-k` (`plot.py:61,137,186`): with a keyboard whose file lists buttons in another order they present the frequencies of other letters | `C125_false` |
| C126 | the style sheet for printing has an empty rule for the heat map (`render-svg-print.css`): its circles are black and, for the most used button, opaque, so the black labels on it cannot be read; the classes `hand-left` and `hand-right` are in no rule | `C126_paper_false`, `C126_classes` |
| C127 | `lulua-analyze` without a command, and `lulua-import` with only a file, end with an exception instead of the usage, because `func` is missing (`stats.py:446`, `layout.py:362`); `lulua-analyze triadfreq -h` raises, because argparse formats help with `%` and the text for `--cutoff` has a bare percent sign (`stats.py:422`) | `C127_no_command_false`, `C127_help_false` |
| C129 | names of layouts are written into comments without looking for line ends, so the rest of such a name is a command for xmodmap (`render.py:312`) | `C129_false` |
| C130 | most commands of `lulua-render` open the output file before they look at the layout (`render.py:308,376,480,554`): if they fail the old file is gone; of ten shipped layouts an xmodmap file is left that clears Lock and all modifiers and sets nothing; `winkbd` returns without a file and without an error for other layouts (`render.py:474-476`) | `C130_false`, `C130_left`, `C130_winkbd_false` |
| C131 | `lulua-write --benchmark` (“no stats”) writes a pickle of statistics without any count for each worker that got a text (`text.py:371-374`); `lulua-analyze layoutstats` fails for it | `C131_false`, `C131_analysis` |
| C132 | `lulua-render` without `-l` raises `TypeError` from `open (None)` (`render.py:596`, `util.py:53`); since files are looked for before the package, an output called like the layout replaces the layout for all commands run later in the same directory | `C132_false`, `C132_again_false` |
| C133 | `lulua-write -j 0` starts no worker, reads standard input to its end, writes nothing and returns normally (`text.py:415-463`); `lulua-analyze combine` then makes a file without counts of it | `C133_false`, `C133_false_counts` |
| C134 | `lulua-optimize` without `-l` reads the statistics and then raises `TypeError` from `open (None)` (`optimize.py:271,289`, `util.py:53`) | `C134_false` |
| C135 | `lulua-analyze pretty`, `keyheatmap`, `layoutstats`, `letterfreq`, `triadfreq` and `triadeffortdata` without `-l` read the statistics and then raise `TypeError` from `open (None)` (`stats.py:258,307,327,411`, `plot.py:62,138,187`, `util.py:53`) | `C135_false`, `C135_false_triads` |
| C135 | All commands of `lulua-analyze` but `combine` use the first part of what `lulua-write` with several processes writes and ignore the rest without a message (a single `pickle.load`, `stats.py:255,304,324`, `plot.py:58,134,183`) | `C135_parts_false` |
| C136 | `lulua-import` cannot read KLC files in UTF-8 or without a byte order mark: `UnicodeError` (`layout.py:347`) | `C136_false`, `C136_refused` |
| C137 | `lulua-report -c a -c b` silently ignores `a`, and likewise for `-l`; without one of them it ends with a `TypeError` (`report.py:65-66,112,117`) | `C137_false`, `C137_lost_false`, `C137_missing_false` |
| C138 | `lulua-extract-mediawiki` writes nothing of a dump of another version of the export format, and succeeds (`text.py:474`) | `C138_false` |
| C139 | `lulua-analyze corpusstats` and `latinime` use the first part of statistics in several parts and ignore the rest without a message (`stats.py:386,398`) | `C139_false`, `C139_first_part` |
| C140 | A finger added to a second hand stays in the list of the first (`layout.py:73-75`) | `C140_false` |
| C140 | `repr` of a finger without a hand raises `AttributeError` (`layout.py:84-85`) | `C140_text_false` |
| C41 | For layouts with ambiguous modifiers `lulua-optimize` prints the texts of the last layer with these modifiers for all of them and loses the others; for a layer without modifiers it raises `IndexError` after optimizing (`optimize.py:372`) | `C41_ambiguous_lost`, `C41_unreachable_fails` |
| C141 | `len` of a combination with a button that is also a modifier is larger than the number of buttons to be pressed (`layout.py:97-98`) | `C141_len_false` |
| C142 | If the workers cannot load `ibmpc105` (a local file of that name shadows it) and the input has at least twice as many lines as there are workers, `lulua-write` may wait for ever instead of raising their exception (`text.py:436-441,448`) | `C142_false`, `C142_interrupt` |
| C143 | After an exception of an item, or with `-j 0`, the process does not leave if the lines in the input queue are larger than its pipe, as nobody reads them and `cancel_join_thread` is not called (`text.py:437,448-451`) | `C143_false`, `C143_no_workers` |
| C144 | If standard input cannot be decoded, no statistics of the lines before are written (`text.py:435-443`) | `C144_false`, `C144_nothing_written` |
| C145 | `filterMediawikiMarkdown` writes all of the text before it reads anything, so it may wait for ever if the program writes before it has read everything (`text.py:259-261`) | `C145_false` |
| C57 | A directory, or a file that cannot be decoded, in the working directory with the name of a layout or keyboard ends the programs although the packaged resource exists (`util.py:51-64`) | `C57_false` |


## Wrong programs

The theorems are tested against wrong programs: in a copy of the project outside
`/verif` one definition of `Verif/Model` is edited, everything that depends on it
is built, and what fails is recorded in `seeded/LOG.jsonl`. `failed` are the lemmas
Lean reports; `properties_depending_on_failed` the property theorems that rest on
them. That a proof fails does not say that the statement is false, so kills that
show up in intermediate lemmas only were looked at; edits that do not change what
a function computes are noted as such. If nothing failed a theorem was added or
strengthened (`tightened`) and the edit tried again.

Of the edits prepared for `Model/Argparse.lean` only the first 19 were tried. Three
that change it were not noticed and nothing was tightened for them: ambiguous
abbreviations that are accepted, `--` that is dropped, and counts of words in
`sumThrees` (M-Argparse-08, -12 and -17).

## Plan per property

| Property | Modelled as | Proved by |
|---|---|---|
| C01 C02 C05 C09 | `Writer.type` as a loop over (buffer, unread rest, last combination) with fuel; outcome records events and the way the generator ends | induction over the loop; the trie is specified as longest stored key that is a prefix |
| C03 C04 | `KeyboardLayout.__init__` as the nested loop that fills the trie | invariant of the loop relating the trie to the layers |
| C06 C07 C08 | `chooseCombination` with the packed score; finger map is a parameter | arithmetic of the packing, `min` keeps the first minimum |
| C10 C11 | the two intern tables and the counter | invariant over all creation histories |
| C12–C14 | buttons, rows, descriptions as records; serialize/deserialize also return the mutated argument | structural |
| C15 C16 | generic layouts, by-name layers | structural |
| C17–C21 | the `process` functions as state machines over events | fold invariants against declarative specifications on the event list |
| C22 C23 | nested dictionaries as a tree type; for aliasing a heap model with references | induction on depth; concrete heap witness |
| C24 C25 | `update` of each statistic, `combine` | commutative monoid of counts |
| C26 C27 | labelled transition system: main process, bounded queues, n workers | inductive invariant, progress, decreasing measure; concrete deadlock trace |
| C28 | the accumulation loops of `layoutstats` | sums |
| C29–C31 | stroke path functions | case analysis, against the class definitions as predicates |
| C32–C36 | `Carpalx` with cache, absolute effort and weight sum | invariants; bounds; finite check of shipped data lifted to all texts |
| C37–C43 | optimizer state, swap, incremental update, annealer with arbitrary random choices | invariants over runs |
| C44 | `parsePin` on character lists | split/join round trip, with and without a limit on the number of digits |
| C45–C48 | text functions | induction on text |
| C49 C50 | `BrotliFile.read` over an abstract decompressor | invariant; divergence proved for every fuel |
| C51 | `filterTar` over byte lists | against an independent tar encoder |
| C52–C54 | token streams and XML trees | induction on trees; `C54_any` counts how often the nested searches of the TEI.2 filter reach an element, for any document |
| C55–C59 | util and report functions | induction, arithmetic |
| C60–C62 | plot loops over rationals | loop invariants |
| C63–C65 | geometry, xmodmap rows, heat | induction on rows |
| C66–C68 | winkbd tables | loop invariants |
| C69 C70 | the KLC importer | structural |
| C71 | generated data | `decide +kernel` on the finite data, lifted with the general theorems |
| C72–C74 | the transition system of C26 with interrupts, killed workers and no workers | invariants; concrete executions |
| C75 | `displayText` | structural |
| C76 | `limit_denominator` as the continued fraction loop | invariant of the loop; best approximation |
| C77 | labels of `Renderer` | against what the layout types |
| C78 C79 | winkbd tables, with a specification of how the driver uses them | loop invariants |
| C80–C82 | the KLC importer against a specification of files as records | induction on lines |
| C83–C86 | the exporters as lists of entries | structural; finite check of shipped data |
| C87 C90 C91 | `layoutstats`, `corpusStats`, the table of the template | sums; against counts of the text |
| C88 | `latinImeDict` with real logarithm | monotonicity |
| C89 | `keyHeatmap` | structural |
| C92 C93 | `KeyboardLayout.__eq__`, `GenericLayout.buttons` | structural |
| C94–C96 | optimizer on measured triads | totality of every step; positions of the triads of shipped layouts checked on the files |
| C97 | effort formula | relation written down from the description of the model, shown equivalent to the computation step by step |
| C98, C99 | `--mutate`, `--triad-limit` | composition of transpositions; stable insertion sort |
| C100 C101 | writer and scanner for JSON strings on characters; trees; lines of standard input | relation between strings and the texts they stand for; induction |
| C102 | the transition system of C26 with the status queue and its process | projection, invariants, decreasing measure |
| C103 | `mapChars` and typing on shipped layouts | finite table checked on the files, lifted with C01 and C02 |
| C104–C106 | the tables of the KLC importer against the scancodes of `winkbd.py` and the keyboard file | finite tables |
| C107 | `pretty` against a specification of tables with shares | permutation of sorted lists, sums; C03 and C36 for shipped layouts |
| C108 | `==` of generic layouts against values per name | C15, C16 (`Translates`) in both directions; shipped layouts by evaluation |
| C109 | what pins mean for the printed layout; the pins of `gen.sh` | C38, C41 carried through the whole run; `fnmatch` by contract, met by `globMatch` |
| C110 | the rule `opt` of `gen.sh` | false; a small model of how `sh` separates commands |
| C111 | XML of the exporters | a reader for the part of XML the files use (elements, attributes in double quotes, references), written from the recommendation; round trip for all documents; false for one of the four layouts that can be written for macOS |
| C112 | C text of the character tables | a reader for comments, words and definitions of arrays; every line leaves the reader between tokens, so the lines can be looked at one by one; false above U+FFFF |
| C113 | shapes of the picture | bounding boxes; a shape is on the cap or the shadow of one that is; margins of C63 keep buttons apart; false for narrow buttons |
| C114 | C text of the whole driver | a reader of C for macros and static definitions; each part of the text is closed (ends between tokens), so parts are read one by one; values of words by the macros; then the tables of C66, C67, C68 |
| C115 | what is replaced on import | table of decompositions from Unicode as specification; false for five ligatures |
| C116 | what the report says about the layouts | sentences of the report as a list of claims; `typed_producer` gives the entry of the layout file each letter is typed with |
| C117 | statistics of all corpora | C24, C25 and C26 put together over all runs; each text by C17–C21; what is in the pool is a part of the input in every state |
| C118 | filters of the corpora | kinds of what goes from one filter to the next, kept by every filter; the texts by C51–C54, C100, C101; then C117 |
| C119 | page of the report | characterisation of the loops and look-ups; numbers read back from the text; C58, C59, C76, C90, C91 |
| C120 | build file of `gen.sh` | the outputs are listed up to permutation for all listings; fixed parts with `decide +kernel`; cycles excluded because everything made has a derivation and one rule |
| C121 | plot of efforts | induction over the curves for `addLines`; points within the axes from C61; names of the shipped layouts with `decide +kernel` |
| C122 | figures of the report | tables of counts are permutations of what is counted, and so is everything computed from them; C117, then C62, C87–C91, C119, C121; the examples type a text on all twelve layouts with `decide +kernel` |
| C123 | source file of the driver | a reader for the part of C the file is in (declarations of structures, initializers, `sizeof`, designators, one function); constant texts are read with `decide +kernel` in pieces, tables by the lemmas of C112 and C114, then one lemma per type saying which values fit |
| C124 | figures printed | `Spec/Printed.lean` says what rounding to decimals is (`Rounded`) and reads a decimal; one lemma that `fixedText` prints the rounded number; rounding is unique, monotone, symmetric (`rounded_complement`, which is why both hands add up) and off by half a digit at most; then C107, C91, C119 and C111 give the numbers that are printed |
| C125 | keyboards of processes | numbers of buttons are positions in the list of distinct names of the file (`keyboard_numbered`); lookups and `specialize` are then the same for a longer list |
| C126 | style of pictures | a reader of style sheets and the cascade (`Spec/Css.lean`); which elements there can be is finite (`svgPicture_paths`), their looks are evaluated once per style sheet; font data is between quotes and skipped by induction |
| C127 | command lines | `parse_known_args` of Python 3.11 for the kinds of arguments used here (`Model/Argparse.lean`): classification of words, abbreviations, matching of positionals, subcommands, conversion of values; lists of options by induction over the loop; the build file by its words |
| C128 | ways to write options | the loop of the parser is local: what it does up to an option does not depend on what the option and the words behind it are (`Proofs/ArgLocal.lean`), so two ways to write an option that lead to the same action may be exchanged anywhere; words nobody knows never leave the list of leftovers |
| C129 | files for xmodmap and Keyman | whole text of the files (`Model/Output.lean`); readers that split lines and words (`Spec/Output.lean`) |
| C130 | what is left of a file | writing one piece after the other into an open file, with the exception in between |
| C131 | benchmark mode | worker that counts texts (`Model/Benchmark.lean`), the pool is that of C26 |
| C132 | `lulua-render` as a whole | command line (C127), loaders (C57), formats (C129, C130) and disk put together (`Model/RenderMain.lean`) |
| C133 | `lulua-write` as a whole | command line (C127), loaders (C57), filters (C118), processes (C26) and statistics (C117) put together (`Model/WriteMain.lean`); the statistics of a text are made with the keyboard the worker loads, which is that of the layout for `ibmpc105` |
| C134 | `lulua-optimize` as a whole | command line (C127), loaders (C57), optimizer (C37–C42, C95, C96, C109) put together (`Model/OptimizeMain.lean`); the text printed is a YAML document of the layout printed; negative numbers of steps and triads count as 0 |
| C135 | `lulua-analyze` as a whole | command line (C127), loaders (C57), the commands that load a keyboard put together (`Model/AnalyzeMain.lean`), with `lulua-write` (C133) in front; a pickle on standard input is the statistics or an exception; `latinime` and `corpusstats`, which load nothing, are left to C139 and `triadeffortplot` to C121 |
| C136 | `lulua-import` as a whole | command line (C127), decoding of UTF-16 (`Model/ImportMain.lean`, after `encodings/utf_16.py`; compared with the standard library on sixteen files), ends of lines, `fromKlc` (C80–C82), against the definition of UTF-16 (`Spec/Utf16.lean`) |
| C137 | `lulua-report` as a whole | command line (C127), files as parameters, page (C119) |
| C138 | `lulua-extract-mediawiki` as a whole | events of `iterparse` with a stack of open elements, shown to agree with the trees of C100; observed with the standard library that events before an error are delivered |
| C139 | `lulua-analyze corpusstats` and `latinime` as a whole | command line (C127), statistics of `lulua-write` (C133, C135), C88 and C90 put together with `lulua-report` (C137) in `Model/CorpusMain.lean`; what YAML makes of the metadata, and that it reads back what it wrote, are parameters |
| C140 | Fingers and hands | objects that refer to each other are numbers (`Model/Hands.lean`); induction on the history |
| C141 | Combinations as keys of dictionaries, stored hashes, pickling | objects with a stored hash, loads by other processes and dictionaries that compare hashes first in `Model/Combination.lean`; justifies taking dictionaries for association lists compared with `==`; the hash function and the order of iteration are parameters of the process |
| C142 | Workers that fail before they take an item | another start of the pool of C26 (`Model/Startup.lean`); invariant on steps, explicit executions for the deadlock |
| C143 | Leaving the interpreter | a condition on the last state of the pool of C26 (`Model/Exit.lean`), from the documentation of `multiprocessing`; the size of entries and of the pipe are parameters |
| C144 | Input that breaks off | the pool of C26 with an exception in place of the end of the input (`Model/ReadError.lean`); an exception of an item stays visible |
| C145 | A filter that is another process | both processes and two bounded pipes (`C145_exactly`: which texts can block a program that copies) in `Model/Pandoc.lean`, the program is any state machine; what it does without pipes is the specification; that pandoc reads first is not proved |

## Axioms per theorem

<!-- axioms -->
668 property theorems (namespace `Lulua.Props`), grouped by the axioms Lean reports for them.

* **no axiom** (11): `C115_false`, `C145_exits`, `C20_update_drops`, `C23_shared_refuted`, `C30_position`, `C31_correct`, `C31_symmetric`, `C45_digits`, `C48_empty`, `C48_split_filters`, `C74_false`

* **`propext`** (26): `C02_skip_without_finger`, `C03_ambiguous_modifiers`, `C08_left_not_preferred`, `C105_false`, `C115_decomposed`, `C116_false`, `C118_fit`, `C119_references_false`, `C11_order_matters`, `C129_klavaro_text`, `C12_keys`, `C140_text_false`, `C140_writer`, `C141_len_iter`, `C144_false`, `C145_result`, `C18_ignored`, `C20_attribution_refuted`, `C22_merge_exceptions`, `C24_nothing`, `C41_unreachable_fails`, `C45_append`, `C48_order`, `C48_split_items`, `C54_strip`, `C66_unprefixed`

* **`Quot.sound`, `propext`** (85): `C01_no_text_no_events`, `C01_typing_lossless`, `C01_typing_prefix`, `C02_match_is_longest`, `C04_lookup_exact`, `C04_lookup_order`, `C05_empty_text_asserts`, `C05_no_exception`, `C05_terminates`, `C05_unreachable_layer_raises`, `C09_bufferLen_is_longest`, `C101_ends`, `C101_files_partial`, `C101_lines`, `C102_projects`, `C103_left_out`, `C103_never`, `C105_columns`, `C105_partial`, `C108_shipped`, `C109_patterns`, `C115_equivalent_partial`, `C115_exactly`, `C116_counts_partial`, `C117_counts_false`, `C118_choice`, `C119_references`, `C11_name_by_creation_order`, `C126_hits`, `C12_find`, `C12_find_every_button`, `C12_len`, `C131_nothing_partial`, `C133_false_counts`, `C140_false`, `C145_finite`, `C145_fits_partial`, `C145_partial`, `C15_description_exact`, `C15_description_roundtrip`, `C15_layout_roundtrip`, `C16_specialize_correct`, `C16_specialize_succeeds_iff`, `C17_total`, `C18_typed_texts`, `C19_typed_texts`, `C21_undelimited_lost`, `C22_counts`, `C22_merge_pointwise`, `C23_flat_partial`, `C23_nested_partial`, `C24_grouping`, `C24_order`, `C24_processed_ok`, `C24_sums`, `C25_one_text`, `C25_texts`, `C25_workers`, `C38_layer`, `C38_pattern`, `C41_bijective`, `C44_unlimited`, `C45_complete`, `C45_idempotent`, `C45_local`, `C46_clean_partial`, `C46_pieces_partial`, `C46_refuted`, `C47_iterchar`, `C50_truncated_hangs`, `C55_prefix`, `C55_rest`, `C59_arabnum`, `C59_numspace`, `C67_entries`, `C67_layers`, `C78_false`, `C78_partial`, `C80_partial`, `C84_maps`, `C84_partial`, `C87_typed_texts`, `C88_words_are_letters`, `C90_report_total`, `C93_specialize_keeps`

* **`Classical.choice`, `Quot.sound`, `propext`** (546): `C02_skip_only_untypeable`, `C03_combination_types_match`, `C06_choice_is_best`, `C06_typed_is_best`, `C07_shift_opposite_hand`, `C08_no_previous_takes_first`, `C08_space_other_hand`, `C09_bounded_lookahead`, `C100_other_version`, `C100_reads`, `C100_roundtrip`, `C100_texts`, `C100_writes`, `C101_false`, `C102_dead`, `C102_no_deadlock`, `C102_refuted`, `C102_shown`, `C102_terminates`, `C103_false`, `C103_kept_partial`, `C103_no_digits`, `C103_shipped_partial`, `C104_false`, `C104_partial`, `C106_false`, `C106_partial`, `C106_windows`, `C107_effort`, `C107_false`, `C107_shipped`, `C107_tables`, `C107_works`, `C108_eq_iff`, `C108_roundtrip`, `C108_specialize_iff`, `C108_specialize_together`, `C109_optpins`, `C109_printed`, `C109_shipped`, `C10_equal_iff_same_name`, `C110_rule`, `C110_single_partial`, `C110_unquoted`, `C111_ask`, `C111_false`, `C111_maps`, `C111_partial`, `C111_roundtrip`, `C111_shipped`, `C111_wellFormed`, `C112_driver`, `C112_entry_partial`, `C112_false`, `C112_names`, `C112_read`, `C112_shipped`, `C112_works`, `C113_apart_partial`, `C113_caps`, `C113_cell`, `C113_false`, `C113_heat`, `C113_labels`, `C113_picture`, `C113_quarters`, `C113_shipped`, `C114_chars`, `C114_driver`, `C114_layers`, `C114_names`, `C114_reads`, `C114_scancodes`, `C114_shipped`, `C114_works`, `C115_skipped`, `C116_letters`, `C116_missing`, `C116_modifiers`, `C117_at_most`, `C117_counts_partial`, `C117_false`, `C117_only_filters_fail`, `C117_returns`, `C117_shipped_usable`, `C117_totals`, `C118_damaged`, `C118_errors`, `C118_invalid_lost`, `C118_misfits`, `C118_readme_false`, `C118_report`, `C118_texts`, `C118_xml_line`, `C119_corpora`, `C119_layouts`, `C119_letter_names`, `C119_letters`, `C119_link_false`, `C119_link_partial`, `C119_renders_iff`, `C119_shipped`, `C11_later_buttons_keep_names`, `C11_pickled_buttons`, `C120_all`, `C120_all_lines`, `C120_archive`, `C120_commands`, `C120_complete`, `C120_corpus_lines`, `C120_driver`, `C120_driver_files`, `C120_driver_lines`, `C120_files`, `C120_layout_lines`, `C120_listed_lines`, `C120_no_cycle`, `C120_no_files_false`, `C120_once_lines`, `C120_one_rule`, `C120_opt_false`, `C120_own`, `C120_own_one`, `C120_page`, `C120_page_lines`, `C120_reads`, `C120_rebuilt`, `C120_report_files`, `C120_shipped`, `C120_stale_false`, `C120_write`, `C121_buttons`, `C121_false`, `C121_in_view`, `C121_lines`, `C121_shipped`, `C121_works_partial`, `C122_curve`, `C122_fingers`, `C122_heat`, `C122_layoutstats`, `C122_layoutstats_iff`, `C122_letters`, `C122_page`, `C122_page_demo`, `C122_page_false`, `C122_page_needs`, `C122_plot`, `C122_shipped`, `C122_some`, `C122_whole_partial`, `C122_words`, `C123_compiles`, `C123_entry`, `C123_false`, `C123_layout`, `C123_offsets`, `C123_program`, `C123_shipped`, `C123_sizes`, `C123_works`, `C124_ask`, `C124_ask_false`, `C124_ask_files`, `C124_ask_shipped`, `C124_bars_false`, `C124_columns`, `C124_columns_false`, `C124_figure`, `C124_hamza`, `C124_lines`, `C124_order`, `C124_sorted`, `C124_sum`, `C124_sum_false`, `C124_table`, `C125_false`, `C125_names`, `C125_partial`, `C125_same`, `C125_workers`, `C126_caps`, `C126_cascade`, `C126_classes`, `C126_fingers`, `C126_fonts`, `C126_heat`, `C126_labels`, `C126_legible_partial`, `C126_paper_false`, `C126_selectors`, `C126_shapes`, `C127_analyze`, `C127_analyze_unknown`, `C127_build`, `C127_corpusstats`, `C127_files`, `C127_help_false`, `C127_help_partial`, `C127_no_command_false`, `C127_no_corpora`, `C127_optimize`, `C127_render`, `C127_render_unknown`, `C127_report`, `C127_svg`, `C127_triadfreq`, `C127_write`, `C128_bad_value`, `C128_forms`, `C128_forms_before`, `C128_forms_joined`, `C128_forms_negative`, `C128_forms_within`, `C128_missing`, `C128_missing_value`, `C128_tidy`, `C128_unexpected`, `C128_unknown`, `C128_unknown_before`, `C129_false`, `C129_keyman_partial`, `C129_klavaro_partial`, `C129_shipped_partial`, `C129_xmodmap_partial`, `C12_getRow`, `C12_getRow_unique`, `C12_shipped_rows`, `C130_false`, `C130_left`, `C130_partial`, `C130_reported`, `C130_winkbd_false`, `C131_analysis`, `C131_failures`, `C131_false`, `C131_results`, `C131_worker`, `C132_again_false`, `C132_again_partial`, `C132_false`, `C132_one_file`, `C132_program_partial`, `C132_shipped_keyman`, `C132_shipped_xmodmap`, `C132_stopped`, `C132_unknown`, `C133_benchmark`, `C133_counts_partial`, `C133_ends`, `C133_false`, `C133_unknown`, `C134_false`, `C134_fine_partial`, `C134_pins`, `C134_printed`, `C134_program_partial`, `C134_unreadable`, `C135_combine`, `C135_false`, `C135_false_triads`, `C135_figures_partial`, `C135_heatmap`, `C135_keyboard_ignored`, `C135_nothing`, `C135_parts_false`, `C135_pipeline_partial`, `C135_unreadable`, `C136_false`, `C136_import_partial`, `C136_read`, `C136_refused`, `C136_unusable`, `C137_false`, `C137_first_error`, `C137_lost_false`, `C137_missing_false`, `C137_page_partial`, `C137_renders_partial`, `C137_unreadable`, `C138_broken_partial`, `C138_complete_partial`, `C138_false`, `C138_missing`, `C138_prefix`, `C139_described`, `C139_false`, `C139_first_part`, `C139_missing`, `C139_pipeline_partial`, `C139_report_partial`, `C139_whole_partial`, `C139_zero`, `C13_description_roundtrip`, `C13_deserialized_is_constructed`, `C13_keyboard_roundtrip`, `C140_back_partial`, `C140_finger_text`, `C140_hand`, `C140_hand_text`, `C140_index`, `C140_text_exactly`, `C141_equal`, `C141_first_key`, `C141_hash`, `C141_iter`, `C141_keys`, `C141_len_false`, `C141_len_partial`, `C141_loaded`, `C141_lookup`, `C141_names`, `C141_stored_hash`, `C142_cause`, `C142_exactly`, `C142_false`, `C142_interrupt`, `C142_not_silent`, `C142_reported_partial`, `C142_terminates`, `C143_false`, `C143_no_workers`, `C143_partial`, `C143_returned`, `C144_not_silent`, `C144_nothing_written`, `C144_reported`, `C144_reported_partial`, `C144_terminates`, `C145_exactly`, `C145_false`, `C145_filter`, `C14_deserialize_consumes_kind`, `C14_no_side_effect_partial`, `C14_second_deserialize_differs`, `C14_serialize_changes_button`, `C17_counts`, `C17_text_length`, `C18_triads`, `C19_hand_runs`, `C20_finger_runs_partial`, `C21_typed_texts`, `C21_words`, `C22_merge_raises_iff`, `C24_continue`, `C25_failure`, `C26_exactly_once`, `C26_no_deadlock`, `C26_statistics`, `C26_terminates`, `C27_done_partial`, `C27_false`, `C27_raised_partial`, `C27_reported_partial`, `C28_raises_iff`, `C28_totals`, `C29_correct`, `C29_total`, `C29_translation`, `C30_correct`, `C30_mirror`, `C30_total`, `C32_cache`, `C33_mean`, `C33_order`, `C33_undo`, `C34_monotone`, `C34_nonneg`, `C34_range`, `C34_shipped`, `C35_order`, `C36_false`, `C36_rateable_partial`, `C37_permutes`, `C37_randomize`, `C37_result`, `C38_pinned_button`, `C38_pinned_layer`, `C38_randomize`, `C39_incremental`, `C39_unique`, `C40_best`, `C40_energy`, `C40_largest`, `C40_step`, `C41_ambiguous_lost`, `C41_emitted`, `C41_usable`, `C42_checks_pass_partial`, `C42_false`, `C42_never_lower_partial`, `C43_admissible`, `C43_almost_surely`, `C43_first_admissible`, `C43_fraction`, `C43_never_returns`, `C43_no_buttons`, `C44_documented_rejected`, `C44_limit`, `C44_limit_mutation`, `C44_mutation_roundtrip`, `C44_roundtrip`, `C46_only_cr_partial`, `C46_remains_iff`, `C49_plain`, `C49_reads`, `C50_available_partial`, `C51_contents`, `C51_other_format`, `C51_truncated`, `C52_any`, `C52_complete_iff`, `C52_functions`, `C52_nested_loses_rest`, `C52_selection`, `C52_selects`, `C53_document`, `C53_selected`, `C53_stream`, `C54_any`, `C54_nested_duplicates`, `C54_subtitles`, `C54_tei2`, `C55_end`, `C55_not_more`, `C56_combining`, `C56_format`, `C56_invisible_refuted`, `C56_none`, `C56_nonempty`, `C56_replaced`, `C56_unchanged`, `C57_false`, `C57_iterate`, `C57_keyError`, `C57_only_package`, `C57_order`, `C57_package_partial`, `C58_accurate_partial`, `C58_huge_fails`, `C58_long_partial`, `C58_long_refuted`, `C59_reversible`, `C60_cutoff`, `C60_everything`, `C60_heaviest`, `C60_nothing`, `C60_works`, `C61_empty`, `C61_few`, `C61_monotone`, `C61_points`, `C62_counts`, `C62_sums`, `C62_works`, `C63_disjoint`, `C63_margins`, `C63_positions`, `C63_size`, `C63_works`, `C64_lines`, `C64_shipped`, `C64_works`, `C65_heat`, `C65_range`, `C65_works`, `C66_names`, `C66_prefixed`, `C68_tables`, `C68_works`, `C69_false`, `C69_partial`, `C70_false`, `C70_partial`, `C71_typing`, `C71_wellformed`, `C72_no_silent_loss`, `C73_false`, `C73_interrupted_partial`, `C74_always`, `C74_partial`, `C75_idempotent`, `C76_exact`, `C76_limit`, `C76_nearest`, `C77_caps`, `C77_fails`, `C77_labels`, `C77_modifiers`, `C79_shipped`, `C79_types`, `C80_false`, `C81_false`, `C81_partial`, `C82_cells`, `C82_works`, `C83_consistent`, `C83_rules`, `C83_shipped`, `C83_works`, `C84_false`, `C85_false`, `C85_partial`, `C85_works`, `C86_false`, `C86_partial`, `C86_works`, `C87_duplicate_modifiers`, `C87_hamza_figures`, `C87_no_alef_fails`, `C87_raises_iff`, `C87_shipped`, `C88_line_injective`, `C88_lines`, `C88_negative`, `C88_range`, `C88_unique`, `C89_drawn`, `C89_heatmap`, `C89_works_iff`, `C90_characters_partial`, `C90_characters_refuted`, `C90_words`, `C91_figures`, `C91_needs_all_fingers`, `C91_refuted`, `C91_table`, `C92_eq_iff`, `C92_refuted`, `C92_same_presses_partial`, `C92_same_texts`, `C93_enumerates`, `C94_false`, `C94_initial_partial`, `C95_false`, `C95_no_exception`, `C95_shipped_partial`, `C96_same_texts`, `C96_shipped`, `C97_formula`, `C97_unique`, `C98_mutations`, `C98_printed`, `C98_single`, `C99_most_frequent`, `C99_ties`
<!-- /axioms -->
