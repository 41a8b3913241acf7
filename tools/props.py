#!/usr/bin/env python3
"""Writes /verif/properties.jsonl from the table below (one tuple per property)."""
import json, os
P = []
def p(id, title, statement, quantifier, why, *anchors):
    P.append(dict(id=id, title=title, statement=statement, quantifier=quantifier,
                  why_tests_cant=why, anchors=list(anchors)))

# ---------------------------------------------------------------- typing
p('C01', 'Typing a text loses and invents nothing',
  'For a layout that has at least one non-empty text, consuming Writer.type(StringIO(text)) to the end and concatenating, in order, the match of every typed event and the character of every SkipEvent gives back exactly text. (A layout without any text reads nothing and yields no event at all, whatever the text.)',
  'every layout, every text, every previous writer state (last pressed combination)',
  'texts and layouts are unbounded; the reading buffer interacts with match lengths in ways a handful of strings cannot cover',
  'lulua/writer.py: Writer.type', 'lulua/layout.py: KeyboardLayout.__init__, __call__')
p('C02', 'Every match is the longest one in the whole remaining text',
  'At every point of typing, the event produced is the longest text of the layout that is a prefix of the complete remaining input, although the writer only looks at a small buffer; a character is skipped only if no text of the layout is a prefix of the remaining input (given that all buttons have an assigned finger).',
  'every layout, text and position in the text',
  'needs every text length relative to every buffer length and every overlap of layout texts',
  'lulua/writer.py: Writer.type', 'lulua/layout.py: KeyboardLayout.bufferLen, __call__')
p('C03', 'The chosen buttons really produce the matched text',
  'For every typed event (match, combination) of Writer.type, layout.getText(combination) == match, provided no modifier set is used by two different layers. Without that proviso the property is false.',
  'every layout with unambiguous modifiers, every text, every event',
  'must hold for every layout a user writes, not just the shipped ones',
  'lulua/layout.py: KeyboardLayout.__init__, getText, modifierToLayer', 'lulua/writer.py: Writer.type')
p('C04', 'Looking up a text returns exactly the combinations that produce it',
  'layout(buf) returns the longest layout text that is a prefix of buf together with exactly those combinations (modifier set of layer i, button) such that layer i has that modifier set and maps that button to that text; it raises KeyError iff no layout text is a prefix of buf.',
  'every layout, every buffer string, every combination',
  'soundness and completeness are statements about all buttons, layers and strings',
  'lulua/layout.py: KeyboardLayout.__init__, __call__')
p('C05', 'Typing terminates and crashes only for malformed layouts',
  'Writer.type yields at most len(text) events and then stops. It never raises if every layer has at least one modifier entry and no text is empty. A layer text reachable only through a layer without modifiers makes it raise ValueError, an empty layer text makes it fail its assertion.',
  'every layout and text',
  'termination and absence of exceptions over all inputs',
  'lulua/writer.py: Writer.type, chooseCombination')
p('C06', 'The combination chosen is optimal in the documented order',
  'chooseCombination returns a member of the given list that needs the fewest buttons; among those the most balanced one between the hands; among those the one most balanced against the previously used hand; among those the first one given. (Stated for combinations of fewer than 256 buttons.) While typing, each press is chosen so with respect to the press before it, also if characters were skipped in between, or to the one before the text.',
  'every non-empty list of combinations, every finger assignment, every previous combination',
  'packed integer scores are compared; only a proof shows that packing preserves the lexicographic order for every size',
  'lulua/writer.py: Writer.chooseCombination')
p('C07', 'Shift is taken from the hand opposite to the key',
  'If a key can be combined with a modifier on the left or one on the right, the modifier on the hand opposite to the key is chosen, whatever was typed before and in whichever order the alternatives are listed.',
  'every key, pair of modifiers on different hands, previous combination and order of alternatives',
  'depends on unbounded typing history',
  'lulua/writer.py: Writer.chooseCombination')
p('C08', 'The space bar is hit by the thumb of the previously unused hand',
  'If a text is available on a single left button and on a single right button, the button chosen is on the hand not used by the previous press: opposite to the previous key if it had no modifier, opposite to the (one-hand) modifier if it had one. The code also announces to prefer the left side when nothing was pressed before; that is false, the alternative listed first is chosen.',
  'every pair of single buttons on different hands, every previous one-handed press',
  'quantifies over histories and layouts',
  'lulua/writer.py: Writer.chooseCombination')
p('C09', 'Typing works online with bounded look-ahead',
  'The event produced at offset n of the text depends only on the first n+bufferLen characters, where bufferLen is the length of the longest layout text: two texts that agree on those characters give the same events up to and including that one.',
  'every layout, every pair of texts, every event',
  'relates all pairs of inputs',
  'lulua/writer.py: Writer.type')
# ---------------------------------------------------------------- buttons, keyboards, layouts
p('C10', 'Buttons are equal exactly if their names are equal',
  'After any history of Button creations, two created buttons are equal iff they were created with the same name, button.name is the name it was created with, and equal buttons have equal hashes.',
  'every sequence of button creations',
  'the identity is a hidden global table; only an invariant over all histories settles it',
  'lulua/keyboard.py: Button.__init__, __eq__, name')
p('C11', 'Pickled buttons keep their name in another process',
  'A button pickled in one process and loaded in another one has the same name there, provided the loading process has created at least the same buttons in the same order first. If the second process created buttons in another order, the loaded button has a different name (the id is what is pickled).',
  'every pair of creation histories',
  'ranges over pairs of process histories',
  'lulua/keyboard.py: Button.__init__, name', 'lulua/stats.py: unpickleAll, combine')
p('C12', 'Finding buttons on a keyboard',
  'keyboard[name] returns the first button in row order with that name and raises KeyError iff there is none; len(keyboard) is the number of buttons iterated by keys(); getRow(button) is the index of a row that contains the button (the only one if buttons are not repeated) and raises KeyError iff no row has it.',
  'every keyboard and name',
  'all keyboards',
  'lulua/keyboard.py: PhysicalKeyboard.__getitem__, __len__, keys, getRow')
p('C13', 'Keyboards survive serialization',
  'deserialize(serialize(k)) has the same name, description and the same buttons (name, kind, width, marker, scancodes, span) as k for every keyboard, and serialize(deserialize(d)) == d for every description d that spells out width and scancode and does not spell out a false isMarked.',
  'every keyboard and every keyboard description',
  'round trip over all keyboards',
  'lulua/keyboard.py: Button.serialize, deserialize, MultiRowButton.serialize, PhysicalKeyboard.serialize, deserialize')
p('C14', 'Serializing or deserializing a keyboard has no side effect on its argument',
  'A user expects serialize() to leave the keyboard as it was and deserialize(data) to leave data as it was. Both are false: serialize() turns the windows scancodes of the keyboard from tuples into lists, deserialize removes the kind of every button from data, so that deserializing the same data again yields plain buttons.',
  'every keyboard / description',
  'aliasing effects are only visible on second use',
  'lulua/keyboard.py: Button.serialize, Button.deserialize')
p('C15', 'Generic layouts survive serialization',
  'GenericLayout.deserialize(l.serialize()) equals l (same layers, same modifier sets, same texts) for every layout; serialize(deserialize(d)) describes the same layout as d.',
  'every generic layout and layout description',
  'round trip over all layouts; modifier lists are turned into sets',
  'lulua/layout.py: GenericLayout.serialize, deserialize')
p('C16', 'Specializing a layout to a keyboard keeps every text in place',
  'specialize(keyboard) succeeds iff all button names used as keys or modifiers exist on the keyboard (KeyError otherwise), and then layer i of the result maps the button called n to text t iff layer i of the generic layout maps n to t; the modifier sets are translated name by name.',
  'every generic layout and keyboard',
  'all layouts and keyboards',
  'lulua/layout.py: GenericLayout.specialize')
# ---------------------------------------------------------------- statistics
p('C17', 'Simple statistics count exactly what was typed',
  'After processing the events of a text, the count of a combination is the number of times it was typed, the count of a button is the number of typed combinations containing it, the count of an unknown character is the number of times it was skipped; hence the sum of combination counts plus the sum of unknown counts is the number of events, and the sum over combinations of count times text length plus the unknown count is the length of the text.',
  'every event sequence, every text',
  'conservation law over all histories',
  'lulua/stats.py: SimpleStats.process')
p('C18', 'Triad statistics count all windows of three presses',
  'After any sequence of events, the count of a triad (a,b,c) is the number of positions at which a, b, c are typed one after the other with no skipped character in between, whitespace buttons (both spaces, return, tab) being left out as if they had not been typed.',
  'every event sequence',
  'all histories; sliding window with resets',
  'lulua/stats.py: TriadStats.process')
p('C19', 'Hand run lengths are the completed same-hand runs',
  'After any sequence of events, the number recorded for hand h and length n is the number of maximal runs of exactly n consecutive presses with hand h that were ended by a press with the other hand; runs cut off by a skipped character or by the end of the text are not counted.',
  'every event sequence',
  'all histories',
  'lulua/stats.py: RunlenStats.process')
p('C20', 'Finger run lengths are attributed to the finger that made the run',
  'A user expects the same for fingers, per (hand, finger), and expects combining statistics to combine them too. Both are false: a completed run is booked on the finger that follows it, and update() drops the finger distribution. What does hold: each completed finger run is counted exactly once with its length, on the following finger.',
  'every event sequence',
  'all histories',
  'lulua/stats.py: RunlenStats.process, update')
p('C21', 'Word statistics count delimited words',
  'After typing, the count of w is the number of maximal letter/diacritic runs equal to w, within stretches free of skipped characters, that are followed by a non-letter character in the same stretch. The last word of a text without a trailing delimiter, and words touching a skipped character, are therefore not counted as a whole (the part after a skipped character is).',
  'every event sequence',
  'all texts',
  'lulua/stats.py: WordStats.process')
p('C22', 'Merging dictionaries adds pointwise, at every depth',
  'updateDictOp(a, b, op) leaves in a the union of the keys; values only in one are kept, values in both are combined with op (recursively for nested dicts), for dicts of matching shape; it raises AssertionError only if the shapes clash or a list is met twice.',
  'every pair of nested dictionaries of arbitrary depth, every op',
  'unbounded nesting',
  'lulua/stats.py: updateDictOp')
p('C23', 'Merging does not entangle its arguments',
  'A user expects that merging b and then c into a leaves b unchanged. False if b contains a nested dict under a key a does not have: the nested dict is shared and later merges into a change b. True for flat dicts, and for the run length statistics, whose outer keys are always present.',
  'every sequence of merges',
  'aliasing shows only after a second merge',
  'lulua/stats.py: updateDictOp, RunlenStats.update')
p('C24', 'Combining statistics is independent of order and grouping',
  'Combining result files gives the same counts for every permutation of the files and for every way of combining some of them first; combining with nothing gives empty statistics. Merging in the middle of a text does not disturb what is in progress: it makes no difference whether it happens before or after the rest of the text is processed.',
  'every list of result files, every permutation, every grouping tree',
  'all permutations and groupings',
  'lulua/stats.py: combine, SimpleStats.update, TriadStats.update, WordStats.update, RunlenStats.update')
p('C25', 'The number of workers and the schedule do not influence the result',
  'For every number of jobs and every way the items are distributed over the workers, combining the statistics written by lulua-write yields the same counts as processing all items one after the other with a single worker.',
  'every item list, every number of workers, every assignment and processing order',
  'schedules cannot be enumerated',
  'lulua/text.py: writeWorker, write', 'lulua/stats.py: makeCombined, combine')
p('C26', 'The worker pool processes every input line exactly once and terminates',
  'In every schedule in which no item fails, write() never deadlocks, every step makes progress, and when it returns each line of standard input has been processed by exactly one worker exactly once and every worker has delivered exactly one result.',
  'every schedule (interleaving), every number of workers >= 1, every input',
  'interleavings are unbounded',
  'lulua/text.py: write, writeWorker')
p('C27', 'A failing item is reported and never silently dropped',
  'If write() returns normally then no item failed. A user also expects that a failing item always leads to an error exit; this is false: if the failing workers leave nobody to empty the full input queue, write() blocks forever.',
  'every schedule and failure pattern',
  'the deadlock needs a particular interleaving',
  'lulua/text.py: write, writeWorker')
p('C28', 'Hand and finger totals add up',
  'In the layout statistics the presses per hand sum to the total number of presses, the presses of the fingers of a hand sum to the presses of that hand, and the asymmetry lies between -1 and 1 and is positive iff the left hand is used more.',
  'every button count table with at least one press whose buttons all have a finger',
  'all count tables',
  'lulua/stats.py: layoutstats')
# ---------------------------------------------------------------- carpalx
p('C29', 'Row stroke path classification is total and correct',
  'For every three rows exactly one of the eight row classes of the carpalx model applies and that class is returned; the internal assertion never fires.',
  'all triples of (unbounded) row numbers',
  'case distinction over all integers',
  'lulua/carpalx.py: Carpalx._strokePathRow')
p('C30', 'Finger stroke path classification is total, correct and mirror symmetric',
  'For every three (hand, finger) pairs and buttons the class returned is the one defined by the carpalx finger classes; mirroring all hands does not change it; the internal assertion never fires.',
  'all triples of fingers and buttons',
  'symmetry is about all inputs',
  'lulua/carpalx.py: Carpalx._strokePathFinger')
p('C31', 'Hand stroke path classification',
  'The hand class is 1 iff the hands alternate (a-b-a), 2 iff all three are the same and 0 otherwise, and does not change when hands are mirrored or the triad is reversed.',
  'all triples of hands',
  'finite, but part of the effort model the other properties build on',
  'lulua/carpalx.py: Carpalx._strokePathHand')
p('C32', 'The effort cache is transparent',
  'After any sequence of add, remove, reset and copy operations on any number of instances that share a cache, the efforts reported are those an instance without cache would report.',
  'every operation history, every tree of copies',
  'stale cache entries only show in particular histories',
  'lulua/carpalx.py: Carpalx._triadEffort, addTriad, removeTriad, copy, reset')
p('C33', 'Effort is the weighted mean of the triad efforts',
  'After any sequence of additions and removals the effort is sum(weight*effort)/sum(weight) over the net weights (0 if the net weight is 0); it does not depend on the order of operations and removing what was added restores the previous value. (Exact arithmetic.)',
  'every operation sequence and permutation of it',
  'all histories',
  'lulua/carpalx.py: Carpalx.addTriad, removeTriad, effort')
p('C34', 'Efforts are non-negative and averages stay in range',
  'With non-negative model parameters every triad effort is >= 0; the effort of a set of triads with positive weights lies between the smallest and the largest triad effort; increasing the base effort of a button never lowers any triad effort.',
  'every model with non-negative parameters (in particular both shipped ones), every triad',
  'all parameters and triads',
  'lulua/carpalx.py: Carpalx._triadEffort, _baseEffort, effort, models')
p('C35', 'Efforts do not depend on set iteration order',
  'The effort of a triad is the same for every order in which the (hash-ordered) button sets of its combinations are iterated.',
  'every triad, every enumeration order of every set',
  'iteration order differs between interpreters and runs',
  'lulua/carpalx.py: Carpalx._baseEffort, _triadEffort', 'lulua/layout.py: ButtonCombination.__iter__')
p('C36', 'Every triad collected from a text can be rated',
  'A user expects that the effort of all triads collected while typing a text can be computed. False: the backspace button is neither ignored by the triad statistics nor has it a base effort, so a text containing a backspace character makes the effort computation raise KeyError. True for every shipped layout on the shipped keyboard and every text without backspace, with both shipped models.',
  'every shipped layout and every text',
  'all texts',
  'lulua/stats.py: TriadStats', 'lulua/carpalx.py: Carpalx._triadEffort, models', 'lulua/data/layouts', 'lulua/data/keyboards/ibmpc105.yaml')
# ---------------------------------------------------------------- optimizer
p('C37', 'The optimizer only permutes buttons',
  'After any number of mutations, accepted, rejected or undone, with any random choices, the button map is a bijection from its initial set of positions onto the same set.',
  'every initial bijection, every random choice sequence, every number of steps',
  'unbounded random runs',
  'lulua/optimize.py: LayoutOptimizer.mutate, Annealer.run')
p('C38', 'Pins are respected',
  'A pinned position keeps what it holds: its entry in the button map never changes. With a pinned layer every text of that layer stays on that layer and no text of another layer enters it (if it starts so).',
  'every pin set, random choice sequence and number of steps',
  'unbounded random runs',
  'lulua/optimize.py: LayoutOptimizer._acceptMutation, mutate')
p('C39', 'The incrementally updated energy is the real one',
  'After any sequence of mutations, the effort kept by the optimizer equals the effort computed from scratch by rating all triads under the current button map, and every mutation returns the difference. (Exact arithmetic.)',
  'every triad list, button map and mutation sequence',
  'the update touches only affected triads; all histories must agree with recomputation',
  'lulua/optimize.py: LayoutOptimizer.mutate, _resetEnergy, stateToTriad, mapButton', 'lulua/carpalx.py: Carpalx')
p('C40', 'The annealer returns the best state seen, with its energy',
  'run() returns the state with the lowest energy among the initial and all accepted states together with its energy relative to the start; the relative energy is <= 0 and equals the real energy difference between the returned and the initial state.',
  'every mutation function, acceptance schedule and number of steps',
  'unbounded random runs',
  'lulua/optimize.py: Annealer.run')
p('C41', 'The emitted layout is a rearrangement of the input layout',
  'The layout written by lulua-optimize has the modifiers of the input layout and contains the text of every (layer, button) of the input layout exactly once, at the position the button map sends it to; no two texts collide and none is lost. With ambiguous modifiers texts are lost even if nothing is moved, and a first layer without modifiers raises IndexError.',
  'every layout with unambiguous modifiers and at least one modifier entry in each layer, every keyboard that has its buttons, every bijective button map',
  'all layouts and permutations; the assertion in the code guarding this compares a button to names and can never fire',
  'lulua/optimize.py: optimize')
p('C42', 'The reported final energy belongs to the emitted layout',
  'A user expects the energy printed with the result to be the effort of the layout printed. False: it is the effort of the last state visited, not of the best one which is emitted. It is never lower than the effort of the emitted layout.',
  'every run',
  'only shows in runs whose last accepted step was uphill',
  'lulua/optimize.py: optimize, LayoutOptimizer.energy')
p('C43', 'Mutation terminates exactly when some swap is admissible',
  'mutate() returns after finitely many draws iff an admissible pair is eventually drawn; if every swap is inadmissible (a single button, everything pinned) it never returns, whatever is drawn.',
  'every button map, pin set and random sequence',
  'non-termination cannot be observed by a test',
  'lulua/optimize.py: LayoutOptimizer.mutate, _acceptMutation')
p('C44', 'Pin arguments parse to what was meant',
  'Every list of pins (layer number, optional button pattern without separators) written as layer[,pattern] joined by ; parses back to exactly that set of pins, provided that no number has more digits than int() allows, and is rejected with ValueError otherwise. The syntax given in the documentation (layer;button) is rejected with ValueError.',
  'every pin list',
  'round trip over all pin lists',
  'lulua/optimize.py: parsePin')
# ---------------------------------------------------------------- text handling
p('C45', 'Character mapping is local, complete and idempotent',
  'mapChars(text, charMap) replaces every listed character by its replacement and keeps all others, commutes with concatenation, leaves no listed character in its output and applying it twice is the same as applying it once.',
  'every text',
  'all texts',
  'lulua/text.py: mapChars, charMap')
p('C46', 'Line endings are normalized',
  'A user expects no CR LF pair to remain before typing. False for CR CR LF, whose replacement contains a new CR LF. True for every text without CR CR LF; in any case no character other than CR before LF is removed.',
  'every text',
  'all texts',
  'lulua/text.py: writeWorker')
p('C47', 'Character iteration is independent of batching',
  'iterchar yields exactly the characters of the file in order, whatever the batch size.',
  'every content and every positive batch size',
  'the batch size is 1 MiB, tests use shorter strings',
  'lulua/text.py: iterchar')
p('C48', 'Filter pipelines compose in order',
  'apply(fs, items) applies the filters from left to right to every item and flattens, preserving item order; splitting the pipeline or the items at any point gives the same result.',
  'every list of filters and items',
  'all pipelines',
  'lulua/text.py: apply')
p('C49', 'Reading a compressed file yields consecutive slices of its content',
  'For any sequence of read(n) / read() calls on an intact brotli stream and any chunk size, the results concatenated are a prefix of the decompressed content, every read(n) returns exactly n bytes unless the content ends before, and read() returns all that is left.',
  'every content, chunking and read sequence',
  'all read patterns and decompressor chunk behaviours',
  'lulua/text.py: BrotliFile.read')
p('C50', 'Reading a truncated compressed file terminates',
  'A user expects an error or end of file. False: if the stream ends before the decompressor is finished, read() (or a read asking for more than is available) loops forever.',
  'every truncated stream',
  'non-termination cannot be observed by a test',
  'lulua/text.py: BrotliFile.read')
p('C51', 'Reading a tar archive yields the file contents in order',
  'For every list of files smaller than 8 GiB, filterTar applied to their GNU tar encoding (with or without trailing zero blocks) yields exactly the contents of the non-empty files in order.',
  'every list of file contents and header fields',
  'block alignment and octal sizes over all lengths',
  'lulua/text.py: filterTar')
p('C52', 'HTML selection returns whole selected elements without scripts',
  'For the token stream of any HTML tree in which selected elements are not nested in each other, the selection yields exactly the tokens of the selected elements, from start tag to matching end tag, without script and style elements. In any document the end of a selected element ends the selection, so of selected elements inside selected ones the rest of the outer element after the inner one is lost; the selected elements are complete if and only if none contains another.',
  'every document tree',
  'nesting depth is unbounded',
  'lulua/text.py: Select')
p('C53', 'HTML serialization keeps exactly the text',
  'The serialized text of a token stream is the concatenation of its character data in order, with one space for each whitespace token and a blank line after each p and div element; tags, comments and doctype contribute nothing.',
  'every token stream',
  'all documents',
  'lulua/text.py: HTMLSerializer.serialize')
p('C54', 'Corpus sentences are extracted once and in document order',
  'The TEI.2 filter outputs the direct text of every sentence inside a paragraph inside a body inside a text, in document order, one per line, with an empty line after each paragraph, if these elements are not nested within themselves; in any document a sentence is written exactly as often as text, body and p can be found in this order among the elements around it, so nested elements duplicate sentences; the OpenSubtitles filter outputs the stripped direct text of every sentence in document order, one per line.',
  'every XML document',
  'all trees',
  'lulua/text.py: filterTEI2, filterOpenSubtitles, getText')
# ---------------------------------------------------------------- util / report / plot
p('C55', 'limit yields a prefix and does not over-consume',
  'limit(l, n) yields the first min(n, len) items of l in order and never draws more than n items from the underlying iterator.',
  'every iterable and n',
  'all iterables',
  'lulua/util.py: limit')
p('C56', 'displayText output is visible',
  'displayText keeps None, puts a dotted circle in front of text consisting of combining characters only, replaces tab, newline, space, backspace and narrow no-break space, abbreviates named format characters in brackets and returns everything else unchanged; its result for a text is never empty.',
  'every text, every Unicode database',
  'all strings',
  'lulua/util.py: displayText')
p('C57', 'Named resources are searched in a fixed order',
  'Loading by name uses the file of that name in the working directory if it exists and is readable as text, else the packaged resource name.yaml, else the packaged resource name; KeyError is raised iff none of them can be used; iterating loads only packaged *.yaml files that do not start with a dot. The order holds, and a file that is missing or rejected by the reader of the YAML parser is skipped. False for anything else of that name that is not readable as text, like a directory or a file that cannot be decoded: loading ends with the exception although the packaged resource exists.',
  'every file system content and name',
  'all environments',
  'lulua/util.py: YamlLoader')
p('C58', 'Approximate numbers are readable and accurate',
  'For every number >= 0, approx returns a mantissa with one decimal that is smaller than 1000 unless the largest unit is used, and mantissa times unit differs from the number by at most 0.05 units.',
  'every non-negative number',
  'rounding edge cases at every magnitude',
  'lulua/report.py: approx')
p('C59', 'Number localization is reversible',
  'arabnum keeps the length of its input, leaves no western digit, comma or dot in it, keeps all other characters and can be undone on texts without Arabic-Indic digits; numspace replaces exactly the spaces.',
  'every text',
  'all strings',
  'lulua/report.py: arabnum, numspace')
p('C60', 'The triad cutoff selects the shortest heavy prefix',
  'The triads selected by the cutoff are the heaviest ones: a prefix of the list sorted by falling weight, whose total weight reaches the cutoff (or is everything) and no shorter prefix does.',
  'every weight table and cutoff',
  'all tables',
  'lulua/plot.py: triadfreq')
p('C61', 'The cumulative effort curve is monotone and ends at (1, 1)',
  'For every non-empty triad table with positive weights and positive effort, the plotted x and y values rise monotonically, lie in (0, 1] resp. [0, 1] and end at 1, and binning does not change the end point.',
  'every triad table',
  'all tables',
  'lulua/plot.py: triadEffortData')
p('C62', 'Letter frequencies sum to one and accumulate correctly',
  'The letter frequencies are sorted ascending and sum to 1, each letter has the summed count of all combinations producing it, and the cumulative value at a letter is the sum of its own and all more frequent letters’ frequencies.',
  'every combination count table and layout',
  'all tables',
  'lulua/plot.py: letterfreq')
# ---------------------------------------------------------------- rendering
p('C63', 'Rendered buttons do not overlap and stay in the picture',
  'The rectangles computed for the buttons of a keyboard are pairwise disjoint and inside the picture size reported, for non-negative widths and margins; rendering fails its assertion iff a button occurs twice.',
  'every keyboard and geometry settings',
  'all keyboards',
  'lulua/render.py: Renderer._calcDimensions')
p('C64', 'Every xmodmap line has the eight symbols of its key in X11 level order',
  'In the xmodmap output every non-modifier button gets exactly eight symbols, the text of layers 1, 2, 3, 5, 4, none, 6, 7 in this order, NoSymbol where the layer or text is missing; of several buttons sharing a keycode only the last one is used; a text of several characters makes the rendering fail.',
  'every layout and keyboard',
  'all layouts',
  'lulua/render.py: renderXmodmap, unique')
p('C65', 'Heat values are normalized',
  'With a heat map that has a positive maximum, the opacity of every button is its count divided by the largest count, hence between 0 and 1, 1 for the most used button and ordered like the counts.',
  'every heat map',
  'all tables',
  'lulua/render.py: renderSvg')
p('C66', 'The Windows scancode tables contain every mapping',
  'The generated unprefixed table has exactly 128 entries with the mapped virtual key at every index (or the null key); the E0 and E1 tables list exactly the prefixed mappings, sorted by scancode.',
  'every scancode map',
  'all maps',
  'lulua/winkbd.py: scancodeToVkTables')
p('C67', 'The Windows modifier table maps bit fields to layers consistently',
  'Entry i of the modifier table is the layer whose modifier keys are exactly those with their bit set in i, or disabled; every layer whose bit field fits has its entry, and different entries never share an enabled layer.',
  'every index and every layer number',
  'an exact characterisation in both directions',
  'lulua/winkbd.py: charModifiers, vkToBits')
p('C68', 'The Windows character tables contain every key once',
  'Every (key, flags, texts) entry of the character map occurs exactly once, in the table for its number of layers, in the original order, preceded only by tables of fewer layers; generation fails iff some text is not exactly one character.',
  'every character map',
  'all maps',
  'lulua/winkbd.py: vkToWchar')
p('C69', 'A KLC import can be used as a layout',
  'A user expects an imported layout to be usable on the default keyboard. False for every input file: the imported modifiers name a button that does not exist on it, so specializing always raises KeyError.',
  'every KLC file',
  'a universal negative',
  'lulua/layout.py: fromKlc, importKlc, specialize', 'lulua/data/keyboards/ibmpc105.yaml')
p('C70', 'KLC comments are ignored',
  'A user expects the text after // or ; to be ignored. False: ; comments are only stripped on lines that also contain //. True for // comments.',
  'every line',
  'all lines',
  'lulua/layout.py: fromKlc')
p('C71', 'Shipped layouts are well formed',
  'On the shipped keyboard every shipped layout specializes, has no empty text, has at least one modifier entry per layer, unambiguous modifiers and a finger for every button, so all of the above holds for every text typed on them.',
  'every shipped layout and every text',
  'combines finite data with a statement about all texts',
  'lulua/data/layouts', 'lulua/data/keyboards/ibmpc105.yaml', 'lulua/writer.py: defaultFingermap')
# ---------------------------------------------------------------- more about the worker pool
p('C72', 'A normal return never hides lost input',
  'If write() returns normally although reading may have been interrupted and workers may have been killed at any time, then every worker delivered its result and exactly a beginning of the input has been processed, each line once.',
  'every schedule, interrupt time and killed worker',
  'killed processes at every point of every schedule cannot be tested',
  'lulua/text.py: writeWorker, write')
p('C73', 'write() ends even if it is interrupted or a worker is killed',
  'A user expects the command to end if a worker is killed (out of memory). False: with no failing item it then never returns or raises, on any schedule. True for interrupts while reading, if fewer items fail than there are workers.',
  'every schedule, interrupt time and killed worker',
  'an execution that never ends cannot be observed',
  'lulua/text.py: writeWorker, write')
p('C74', 'A normal return covers the input for every number of workers',
  'A user expects that after a normal return the whole input has been processed, whatever is given for --jobs. False: with -j 0 every execution returns normally without processing anything. True for at least one worker.',
  'every number of workers, input and schedule',
  'all schedules and inputs',
  'lulua/text.py: write')
# ---------------------------------------------------------------- more about reports
p('C75', 'Displaying twice changes nothing',
  'displayText applied to its own result returns it unchanged, as long as the inverted names consist of plain characters.',
  'every Unicode database with plain names and every text',
  'all texts and all versions of the Unicode database',
  'lulua/util.py: displayText')
p('C76', 'Fractions in the report are the closest ones',
  'fraction (limit_denominator of the standard library) writes a number as the fraction that is closest to it among all with a denominator up to the limit, and exactly if its own denominator is within the limit.',
  'every rational number and every limit',
  'optimality among all fractions for all numbers',
  'lulua/report.py: fraction')
# ---------------------------------------------------------------- more about rendering
p('C77', 'The picture shows what the layout types',
  'The picture contains every button of the keyboard once, in order, at its place. A button that is no modifier has exactly one label per layer among the first four that has a text for it, saying what displayText makes of that text; it counts as unused exactly if no layer has a text for it. A modifier shows the arrow of the layer it leads to. A modifier of the first or of the fifth or a later layer makes rendering fail.',
  'every layout, keyboard, finger map, heatmap and Unicode database',
  'all layouts and keyboards',
  'lulua/render.py: Renderer.render, Renderer._drawLabel')
p('C78', 'The tables of the Windows driver are terminated',
  'A user expects every table that the driver hands over as a plain pointer to end with a row of zeros. False: the tables of prefixed scancodes have no such row, for any scancode map. True for the tables of key names, modifiers and characters.',
  'every scancode map, name map and character map',
  'all maps',
  'lulua/winkbd.py: scancodeToVkTables, scancodeToName, vkToBits, vkToWchar')
p('C79', 'The Windows driver types what the layout says',
  'If no two buttons in use share a virtual key, pressing a button selects a row of the character tables that says for every layer what the layout has for that button (a line break as carriage return, WCHAR_NONE for nothing). For ar-lulua this holds for every button in use, and holding the modifiers of a layer selects that layer in the driver.',
  'every layout, keyboard and scancode map meeting the condition; every button and layer of ar-lulua',
  'composition of four tables for all layouts',
  'lulua/render.py: renderWinKbd', 'lulua/winkbd.py: makeDriverSources, scancodeToVkTables, vkToWchar, charModifiers')
p('C80', 'Characters of a KLC file are imported as themselves',
  'KLC files give ASCII letters and digits literally and other characters as four hexadecimal digits. A user expects both to be imported. False: a literal hexadecimal digit is imported as one of the sixteen first control characters, any other literal letter makes the import fail. True for four hexadecimal digits.',
  'every character',
  'all characters and all lines containing them',
  'lulua/layout.py: fromKlc')
p('C81', 'Only the layout section of a KLC file is imported',
  'A user expects the other sections to be ignored. False: without a section LIGATURE the sections behind are read as part of the layout, and ordinary key names make the import fail. True for everything in front of the section and behind LIGATURE.',
  'every file',
  'all files',
  'lulua/layout.py: fromKlc')
p('C82', 'The KLC import says what the file says',
  'The import works exactly if every line of the layout section can be imported: it has less than three words, or all its codes are numbers of code points or stand for nothing and its key is the decimal point or a known one with at most six layers. Then layer i of a button is exactly what the last line in the section with a code point for them says, decomposed, and there are six layers and nothing else.',
  'every file, white space definition, digit table and decomposition',
  'all files',
  'lulua/layout.py: fromKlc')
p('C83', 'Keyman rules follow the layout',
  'For every layout and keyboard whose buttons are distinct, if renderKeyman completes it writes, for each layer and each of the layer\'s modifiers, exactly one rule per entry of the layer, in the order of the layer: the codes of the modifier buttons in any order, then the code of the key, and the text as U+ and at least four hexadecimal digits per character. It logs an error for a modifier if and only if one of its buttons has the code CAPS or a code that begins with K_. For layouts without empty layers it completes if and only if all buttons used have a text as Keyman code and all values are texts. If buttons of a layer with the same code have the same text and modifiers of different layers have different sets of codes, no two rules for the same input type different texts. All shipped layouts satisfy this and can be written, whatever the iteration order of sets.',
  'all layouts, keyboards with distinct buttons, iteration orders of sets; all shipped layouts',
  'There are no tests of the exporter; any fixed layout exercises one combination of modifiers, codes and texts only.',
  'lulua/render.py:368-401')
p('C84', 'macOS keyboard layouts follow the layout',
  'If renderKeylayout completes, the keyMap of each layer has exactly one key per entry of the layer, in order, with the button\'s macOS code and the text. It completes if and only if the name is a text, all buttons used have a macOS code and all values are texts. A user expects it to work for all shipped layouts; it does so for ar-khorshid, ar-lulua, ar-osman and ar-qtaish only.',
  'all layouts and keyboards with distinct buttons; all shipped layouts',
  'There are no tests of the exporter; a test with ar-lulua passes.',
  'lulua/render.py:514-556')
p('C85', 'Klavaro files have one character per button',
  'A Klavaro file is to have, for the first two layers, a line per row of the keyboard that has letter buttons and in it one character per letter button: the composed text of the button, or a space. If renderKlavaro completes this holds if and only if all composed texts of the letter buttons in the first two layers have at most one character, which is not a newline. It completes if and only if there are at least two layers and all values of letter buttons are texts or None. The expectation fails for the shipped layouts ar-idlebi, ar-khorshid, ar-linux, ar-osman and null, and holds for all others.',
  'all layouts, keyboards with letter buttons, composition functions; all shipped layouts with all composition functions that agree with Unicode on their texts',
  'Whether lines have the right length depends on all texts of a layout and the composition function; one layout says nothing about others.',
  'lulua/render.py:558-585')
p('C86', 'AnySoftKeyboard layouts follow the keyboard',
  'If renderAsk completes, its rows are in order the rows of the keyboard, without the last one and without rows that have no letter button that is not a modifier. Each has one key per such button, in order, which shows and enters the composed text of the first layer, offers those of the others and hints at those of the second and third; the widths add up to 100 percent, and exactly the topmost row is marked as top. It completes if and only if there is a layer and all values of these buttons are texts or None. A user also expects the bottom row to have keys for return, space and backspace; the three keys have no attributes at all.',
  'all layouts, keyboards with distinct buttons, composition functions',
  'There are no tests of the exporter; the number of rows, keys and layers is unbounded.',
  'lulua/render.py:403-468')
p('C87', 'Hamza figures are shares of what was typed',
  'For every layout without ambiguous modifiers and every typed text, if layoutstats gives figures then hamzaImpact times the number of all presses is the number of letters with hamza typed as one, hamzaOnAlef is the share of the forms with hamza in all forms of alef typed, and both are between 0 and 1. There are no figures if and only if nothing begins one of the five letters on the layout or no form of alef was typed; so a text without alef always fails. With every shipped layout but null there are figures if and only if a form of alef was typed.',
  'all layouts and texts; all shipped layouts',
  'Counts depend on the whole text and on all producers of a letter in all layers.',
  'lulua/stats.py:340-359')
p('C88', 'LatinIME dictionaries have all words with the right frequency',
  'The dictionary lists every word once, more frequent ones first, with the unique f for which 1.15^(f-255) is nearest to the share of the word on the logarithmic scale. f never exceeds 255 and does not fall with the share; it is not negative as long as a word is at least every 3e15th and is negative if it is every 4e15th or rarer. A line determines word and f, because words consist of letters.',
  'all word counts',
  'Rounding a logarithm can go wrong at any of infinitely many ratios.',
  'lulua/stats.py:371-394')
p('C89', 'Heat maps have the presses of every button',
  'For every sequence of typed events, if keyHeatmap completes it lists exactly the buttons that were pressed under their names with how often they were, rarest first, and the total of all presses; it completes if and only if no button is called total or buttons. After any press the map can be drawn, and the heat of a button is its share of the presses of the most used one.',
  'all event sequences and namings of buttons',
  'All sequences of events; unbounded counts.',
  'lulua/stats.py:303-316', 'lulua/render.py: Renderer')
p('C90', 'Corpus sizes are numbers of characters and words',
  'The report says how many characters and words a corpus has. The number of characters is that of combinations pressed, so it is wrong when a button types several characters or a character cannot be typed: it is never larger than the number of characters if the text was finished, and equal to it if and only if every character was typed on its own. The number of words is that of delimited words. The report adds up all corpora and fails if and only if one has no figures.',
  'all texts, layouts and lists of corpora',
  'A test with a layout that has one character per button passes.',
  'lulua/stats.py:396-402', 'lulua/report.py:121-123')
p('C91', 'The table of fingers adds up',
  'If the table of hands and fingers in the report can be made, the percentages of both hands add up to 100, those of the fingers to that of their hand, the widths in a hand to 100, and each is the share of presses by that hand or finger. A user expects the table for every text; it can be made if and only if each of the ten fingers pressed a button.',
  'all texts, layouts and finger assignments',
  'The failure needs a text which leaves a finger unused.',
  'lulua/data/report/index.html:404-426', 'lulua/report.py:133')
p('C92', 'Equal layouts type alike',
  'Two keyboard layouts are equal if and only if they have the same modifiers and entries layer by layer; names, keyboards and the order of entries do not matter. Equal layouts split every text into the same parts and skip the same characters, if all buttons have fingers, all layers modifiers and no text is empty. A user expects the same presses too; that fails if a layer has a text on two buttons, because the order of entries decides between equally good ones, and holds for all texts otherwise.',
  'all pairs of layouts and all texts',
  'Needs all texts and all orders of entries.',
  'lulua/layout.py:158-159', 'lulua/layout.py:129-146')
p('C93', 'Enumerating a layout is complete',
  'buttons () yields every entry once for every layer that has it, and len () is the number of entries it yields. Specializing a layout keeps the number of entries and the values of every layer, in order.',
  'all layouts and keyboards',
  'All layouts.',
  'lulua/layout.py:199-205', 'lulua/layout.py:222-233')
p('C94', 'The optimizer starts from the effort measured',
  'A user expects that the energy the optimizer assigns to a layout it has not changed yet is the effort measured for the same triads. This holds if every combination of the triads is a letter key with the first modifier of its layer. It fails otherwise, because a moved combination always gets the first modifier: three question marks typed on ar-lulua with the right shift key are rated with the left one.',
  'all layouts, effort models and weighted triads',
  'Only shows with layers that have several modifiers and texts that use another than the first.',
  'lulua/optimize.py:102-110', 'lulua/optimize.py:225-234')
p('C95', 'Statistics of a layout can be used to optimize it',
  'If all letter keys and modifiers can be rated and every combination of the statistics is a letter key with a modifier of a layer, optimizing never raises an exception, for any pins, limits, mutations of such keys, random draws and numbers of steps. In particular for the triads of any text typed on any shipped layout and both effort models, unless the text has a backspace, which makes the optimizer raise KeyError, or the layout is the empty one, which makes it raise IndexError.',
  'all texts, shipped layouts, models, command line arguments and random draws',
  'All texts and all sequences of random draws.',
  'lulua/optimize.py:269-383', 'lulua/stats.py:144-192')
p('C96', 'An optimized layout types the same texts',
  'The layout the optimizer prints can be loaded and splits every text into the same parts as the original layout, leaving out the same characters; so does every layout printed for a shipped one.',
  'all layouts with unambiguous modifiers, at least one modifier entry in each layer, no empty text and buttons on the keyboard that all have a finger; all bijective button maps and all texts; all shipped layouts and all runs',
  'All texts and all runs of the optimizer.',
  'lulua/optimize.py:357-377', 'lulua/writer.py:189-210')
p('C97', 'The effort of a triad is the documented formula',
  'The effort computed for a triad is k_b b + k_p p + k_s s, where b and p combine reach efforts and penalties of its combinations as k_1 x_1 (1 + k_2 x_2 (1 + k_3 x_3)), keys pressed together cost k_S for each after the first, a penalty is w_0 plus the weighted penalties of hand, row and finger, and s is the least weighted sum of the stroke path classes over paths that take one key of each combination; it is computed if and only if everything the formula mentions is there.',
  'all parameters, keyboards and triads',
  'All parameters, including zero weights, and combinations of any number of keys.',
  'lulua/carpalx.py:236-241', 'lulua/carpalx.py:370-423')
p('C98', '--mutate exchanges the positions named',
  'Every text goes where exchanging the pairs of positions named by --mutate sends it, last pair first; one pair exchanges two positions and leaves everything else; only letter keys that are not modifiers can be named; without optimization steps the layout printed is the input with these exchanges.',
  'all layouts with unambiguous modifiers (for what is printed also with at least one modifier entry in each layer and modifiers on the keyboard), keyboards and lists of mutations',
  'Any number of overlapping exchanges.',
  'lulua/optimize.py:262-267', 'lulua/optimize.py:319-324')
p('C99', '--triad-limit keeps the most frequent triads',
  'The triads kept are as many as asked for (all without limit), sorted by frequency; none dropped is more frequent than one kept, and among equally frequent ones those that come first are kept.',
  'all statistics and limits',
  'All orders and ties.',
  'lulua/optimize.py:296-299')
p('C100', 'Extracted wikitext survives the way to the filter',
  'extractMediawiki writes one line per text element of the dump, wherever it is; the filter json, given the lines, yields exactly the texts of these elements in order, with line ends, quotes, backslashes and control characters intact. The filter reads every JSON string as the text it stands for, however it is escaped. A dump of another version of the export format gives nothing, without an error.',
  'all documents and texts, all ways to write a JSON string',
  'All characters and all escapes, including surrogate pairs.',
  'lulua/text.py:208-209', 'lulua/text.py:465-477')
p('C101', 'The files named on standard input are opened',
  'A user expects that each line of standard input names a file that is opened, in order. This holds for names that contain no line ends and do not end with white space; a file whose name ends with a blank is not found, another one may be opened instead. With the filter lines each line is one text, including its end.',
  'all names of files',
  'All names, including ones that end with white space.',
  'lulua/text.py:204-213', 'lulua/text.py:185', 'lulua/text.py:436')
p('C102', 'The progress display does not disturb the run',
  'A user expects that the progress display neither changes nor blocks a run, and that it ends with the number of texts. With the third bounded queue and the process that reads it, every execution is one of the pool without them; every execution ends; if fewer items fail than there are workers and no process is killed, write returns or raises the exception of a failing item; when it returns, the number shown and the numbers that came too late add up to the number of texts. But if the process that shows progress dies, write waits for ever as soon as more items are left than its queue has room for.',
  'all numbers of workers, inputs, failing items and schedules',
  'All interleavings of the processes.',
  'lulua/text.py:369-370', 'lulua/text.py:379-388', 'lulua/text.py:415-417', 'lulua/text.py:456-463')
p('C103', 'Importing keeps what the layout can type',
  'A user expects that a text consisting of characters the layout has is typed completely when it is imported. This fails for seven of the shipped layouts: importing replaces digits and the percent sign by their Arabic forms, which these layouts do not have, so the characters are left out; with four of the layouts no digit is ever counted. It holds for all texts without these characters, and for every layout that has all replacements. No character that is replaced is ever counted.',
  'all texts, layouts and shipped layouts',
  'All texts.',
  'lulua/text.py:292-321', 'lulua/text.py:350-362', 'lulua/data/layouts')
p('C104', 'Keys of a KLC file are imported as the buttons at their place',
  'A user expects that each key of a KLC file is imported as the button that is at its place on the keyboard, and different keys as different buttons. This holds for all keys but OEM_3, which is imported as the button of the digit one, so that one of the two texts is lost, and OEM_5, which goes to a button that does not exist. For the buttons at their places nothing is ever imported.',
  'all keys of the table, all KLC files',
  'The texts lost are those of whatever file is imported.',
  'lulua/layout.py:247-303', 'lulua/layout.py:325-332', 'lulua/winkbd.py:36-233', 'lulua/data/keyboards/ibmpc105.yaml')
p('C105', 'Layers of an imported KLC file can be reached with either modifier',
  'Each layer of an imported file is selected by modifiers of the kinds of its column. A user expects that the left and the right key can both be used. This holds for the layers with one modifier, but not for those with shift and control or shift and AltGr.',
  'all imported files',
  'All files.',
  'lulua/layout.py:334-341', 'lulua/layout.py:346-350')
p('C106', 'Scancodes tell the buttons of the keyboard apart',
  'On Windows different buttons have different scancodes, except for the halves of the space bar. A user expects the same for the other systems. But caps lock and the left shift key share a code on macOS, the right windows key and the right control key one on X11; only the other buttons have codes of their own.',
  'all pairs of buttons of the shipped keyboard',
  'A test has to look at all pairs.',
  'lulua/data/keyboards/ibmpc105.yaml')
p('C107', 'The tables of pretty are right',
  'Every table has each entry of the statistic with its share of the total; the shares of a table add up to a hundred; buttons, combinations, unknown characters, triads and words are in the order of their counts. Combinations are numbered backwards to one, so that none is more frequent than one with a smaller number, and have the text the layout displays for them. The runs of both hands are added. The effort is the mean weighted with the counts. Everything can be printed exactly if each combination has a text and each triad can be rated, which holds for all texts without backspaces typed with a shipped layout. A user expects that all runs are in the order of their length, but those of both hands are not.',
  'all statistics, layouts and texts',
  'All statistics.',
  'lulua/stats.py:254-301')
p('C108', 'Equal generic layouts are interchangeable',
  'Two generic layouts are == exactly if they have the same modifier sets and the same value for every name in every layer, whatever the order of entries and members and whatever their names. If both can be adapted to a keyboard they are equal exactly if the adapted layouts are; if they are equal, both or none can be adapted. A layout read back after serializing is equal to it. No two shipped layouts are equal.',
  'all generic layouts, keyboards, intern tables and orders of sets',
  'The tests compare the shipped layouts with each other only; neither specialization nor other orders are covered.',
  'lulua/layout.py:196-197', 'lulua/layout.py:207-233', 'lulua/test_layout.py:51-57')

p('C109', 'Pins hold for the layout the optimizer prints',
  'Without --mutate, a button whose name matches the pattern of a pin has in the printed layout, in the layer of the pin, exactly what it has in the input; a layer pinned as a whole has exactly the texts it had. Patterns mean: * any text, ? one character. With the pins gen.sh names (0;1;2;0,B*;3,*) the number row of the first layer and all of the fourth layer of every shipped layout stay as they are and the texts of the first three layers stay on their layers.',
  'all layouts with unambiguous modifiers on the keyboard and at least one modifier entry in each layer, keyboards, names, pins, patterns without sets of characters, models, statistics, steps and random draws',
  'the optimizer is random; a test sees a few runs of a few exchanges, and printing goes through four tables of names and positions',
  'lulua/optimize.py:319-360', 'lulua/optimize.py:117-160', 'gen.sh:22-25')
p('C110', 'The rule of gen.sh that optimizes passes all its options',
  'The command of the rule "opt" is a single command for the shell that gets the pins, the layout, the model and the input.',
  'all values of the variables of the rule',
  'no target uses the rule and nothing tests gen.sh',
  'gen.sh:22-35')

p('C111', 'The XML files for macOS and AnySoftKeyboard are well-formed and say what the layout says',
  'A program reading the written XML file gets a document back whose key maps (macOS: selected by the combination of modifiers) or rows (AnySoftKeyboard) have the codes and texts of the layout.',
  'all names, layouts and keyboards the exporter accepts, all texts including characters that have to be escaped',
  'no test covers the exporters; the macOS file of ar-lulua contains U+0008, which no XML 1.0 document may contain, and only a reader would complain',
  'lulua/render.py:514-556', 'lulua/render.py:403-468')

p('C112', 'The C tables of the Windows driver hold the characters of the layout',
  'The tables vkToWchar writes are C definitions; a driver compiled from them types for every virtual key and layer the character of the layout, and nothing where the layout has none.',
  'all lists of virtual keys with one to eight texts each, all characters including quotes, backslashes, comment marks and line ends, all sets of printable characters',
  'compiling the file needs a Windows tool chain; characters outside the first plane are cut off silently by the compiler, and a character like */ within the comment beside a number would only show up when it is used',
  'lulua/winkbd.py:607-656', 'lulua/winkbd.py:29-33', 'lulua/render.py:470-512')

p('C113', 'Nothing in the picture covers another button',
  'What is drawn for a button (cap, marker, circle, boxes around control characters, anchors of labels, all shadows) stays on its cap or as far right and below of it as shadows are cast, inside the picture, and apart from what is drawn for other buttons; labels of different layers stay in different quarters; shadows lie behind what casts them.',
  'all settings with shadows not wider than margins and buttons at least 164 high, all keyboards with buttons wide enough for the boxes, all layouts, all heat maps',
  'the project has no test of the picture at all; comparing pictures shows a difference but not an overlap, and a narrow button with a control character is in no keyboard file',
  'lulua/render.py:60-119', 'lulua/render.py:157-252')

p('C114', 'The C source of the Windows driver says what the layout says',
  'The text makeDriverSources writes (macros of the enumerations and all tables) is C with every macro defined before it is used and never differently; read as a program it has for every scancode the number of its virtual key with its flags, for every scancode the name of the key, for every set of held modifiers the layer they select, and for every virtual key and layer the character meant, cut off after 16 bits. For ar-lulua, pressing any button in use under any modifiers of a layer types what the layout has there.',
  'all maps of scancodes with one virtual key each, all maps of characters with one to eight texts, all scancodes, all sets of held buttons, whatever characters are printable and whatever order sets are iterated in',
  'the project has no test for the driver, and compiling it needs a Windows tool chain; a missing comma, brace or macro, or two rows swapped, shows in no Python test',
  'lulua/winkbd.py:417-455', 'lulua/winkbd.py:535-605', 'lulua/winkbd.py:801-822', 'lulua/render.py:470-512')

p('C115', 'Importing a text respects the equivalences of Unicode',
  'A character is replaced exactly if it is a Latin digit or one of four marks, by its Arabic form, or has a decomposition, by the whole of it; so a text and its decomposition are counted alike.',
  'all texts',
  'a test has to guess which of the many presentation forms of Arabic is missing from the table',
  'lulua/text.py:292-321')

p('C116', 'The report describes the shipped layouts as they are',
  'Whatever text is typed with a layout, every letter the report says something about is typed on the layer, in the row and with the hand and finger it says; characters it calls missing are left out each time; what it counts is there as often as it says.',
  'all texts, typing states and shipped layouts the report describes',
  'the sentences are prose in a template that no test reads, and whether a letter is ever typed elsewhere depends on the text and on which of several combinations is chosen',
  'lulua/data/report/index.html:291-346', 'lulua/data/report/index.html:521-525', 'lulua/data/report/index.html:545-553', 'lulua/data/report/index.html:577-584', 'lulua/data/report/index.html:638-640', 'lulua/data/report/index.html:679-690', 'lulua/data/report/index.html:718-723', 'lulua/data/report/index.html:756-758', 'lulua/data/report/index.html:787-790', 'lulua/data/report/index.html:870-872')

p('C117', 'The statistics of the report are those of the whole corpus',
  'If the build of the report succeeds, all.pickle counts every press, skipped character, hand run, triad and word of typing every text of every corpus, each text on its own and exactly once; the totals of the report are those of all.pickle.',
  'all layouts texts can be typed with (all shipped ones), corpora, filters, numbers of workers, schedules and failing lines',
  'needs a failure or a schedule at the right moment in one of many processes, and a comparison of gigabytes of text with the result',
  'gen.sh:55-88', 'gen.sh:219', 'gen.sh:256-265', 'lulua/text.py:332-463', 'lulua/stats.py:233-252', 'lulua/stats.py:396-407', 'lulua/report.py:121-123')

p('C118', 'The filters of every corpus extract its texts',
  'The filters gen.sh uses for a corpus exist and fit together; for every intact line (compressed archive of pages or XML documents, ebook, text file, JSON string, plain line) exactly the texts in it are typed, in order and without an error, so that with intact corpora all.pickle counts each of them once. Filters that fit together fail only because of the data; from filters that do not, no text is ever typed.',
  'all sequences of filters, lines, files, archives, documents, behaviours of the parsers and of the decompressor, numbers of workers and schedules',
  'needs archives, documents and failures of every kind for every one of infinitely many sequences of filters',
  'lulua/text.py:112-290', 'lulua/text.py:319-352', 'lulua/text.py:401-412', 'gen.sh:55-88', 'gen.sh:188-219')

p('C119', 'The page of the report shows every corpus and every layout',
  'The page can be made exactly if the metadata of all corpora are complete, the sums are below 10^27 and there are statistics with presses of every finger for each of the twelve layouts of gen.sh. It then has a row for every corpus in both languages, in the same alphabetical order, whose link, number of texts and figures (with an error of half a digit) are those of the corpus, a last row with the sums, and the table of each layout from its last file. Every variable, file and place it refers to exists.',
  'all metadata files and statistics, including incomplete ones; all functions for lower case',
  'whether an undefined value of a template is an error depends on which of infinitely many combinations of metadata and statistics are given',
  'lulua/report.py:63-137', 'lulua/data/report/index.html:158-217', 'lulua/data/report/index.html:381-392', 'lulua/data/report/index.html:404-431', 'gen.sh:5')

p('C120', 'The build file of gen.sh makes every file of the report from the corpora, once and in order',
  'Whatever files the corpora have, in the build file written by gen.sh no file is made by two statements and nothing waits for itself; everything can be made if the sources are there and exactly then; every command has values for all its variables, reads its inputs, which are made before, and writes its outputs; the command line for each file is the one listed; what is called for a layout is made from files of that layout only; the statistics of each corpus are made with its filters and combined into those of the layout; the files of the report and of the archive for Windows are those the page refers to; and what depends on a changed source is made again.',
  'all listings of the directories with corpora and driver files, all sets of sources',
  'the graph depends on the listings of directories; order and cycles are properties of all of them',
  'gen.sh:1-280', 'lulua/data/winkbd/build.ninja:1-32', 'lulua/data/winkbd/install.bat:1-5')

p('C121', 'The plot of efforts has a line for every layout and buttons that show what they say',
  'From the curves of three to twelve different layouts the plot of efforts can be made; it has exactly one line for each curve, with its points, the name of the layout and a color of its own; at first all lines are seen with all their points, the first button shows the same, and the others exactly the layouts they name, all of which are among the layouts of gen.sh; with the twelve shipped layouts it always works. Any other number of layouts is a KeyError.',
  'all lists of curves, all palettes like those of bokeh, all numbers of triads for the shipped layouts',
  'the buttons depend on the names of all layouts, the range of the axes on all points of all curves',
  'lulua/plot.py:172-222', 'lulua/plot.py:224-292', 'gen.sh:5-5')

p('C122', 'The figures of the report are those of typing every text of every corpus',
  'If no lulua-write fails, every figure made from the statistics of all corpora is that of typing each of their texts once: presses, hands, fingers and asymmetry of a layout, the figures about hamza, the heat map, the letters, the words of the dictionary and the numbers of words and characters on the page. The figures of a layout exist exactly if it can type the letters with hamza and some form of alef is typed; the curve of efforts exactly if all triads typed can be rated. With the twelve shipped layouts the heat maps always exist, the plot of efforts if there is no backspace, and the page exactly if some form of alef is typed and every finger is used on every layout.',
  'all corpora, filters, numbers of workers, schedules of the workers, texts and shipped layouts',
  'the corpora are too large to check a figure by hand, and each figure passes through workers, two rounds of merging and several commands',
  'gen.sh:55-112', 'gen.sh:219-278', 'lulua/stats.py:240-260', 'lulua/stats.py:303-380', 'lulua/plot.py:49-222', 'lulua/report.py:105-137')

p('C123', 'The source file of the Windows driver is C whose values fit their types',
  'The file renderWinKbd writes is read as C: all types are declared before they are used, no name is declared twice, every table has the values its type asks for, numbers fit their fields, pointers point to what they are declared to, and every table is used. This holds, whatever the size of a pointer, exactly if every key has one to eight texts, attributes of one byte and characters of 16 bits. The entry point hands out a table that refers to all others, and sizes and counts in it are those of the tables. With 32 and 64 bits the fields of all structures are where the header of Windows has them. The file for ar-lulua is accepted.',
  'all scancode tables with one virtual key per scancode, all keys with texts, all sizes of pointers, all shipped layouts a driver is built of',
  'no test compiles the file, and a compiler only says whether one layout works',
  'lulua/winkbd.py:658-822', 'lulua/render.py:470-512')

p('C124', 'Figures printed are the exact ones, rounded, and still add up',
  'Every number pretty, the page and the files for AnySoftKeyboard contain with a fixed number of decimals reads as the closest number that has so many, ties to even, so that the order of numbers is kept. Each line pretty prints reads as the entry, its count and its share, percentages are in the order of the lines, and lines of a table are of the same length. Percentages of a table add up to a hundred; so do those of both hands, and the widths of the fingers of a hand; the keys of a row fit on the screen.',
  'all rational numbers and numbers of decimals, all statistics, all layouts and keyboards, all shipped layouts',
  'how roundings add up depends on all of the numbers; no test reads what is printed',
  'lulua/stats.py:261-301', 'lulua/data/report/index.html:375-425', 'lulua/render.py:422-434')

p('C125', 'Statistics are read with the keyboard they were made with',
  'A user who has statistics made with a keyboard of their own (-k) expects all commands to understand them when given the same -k. Statistics contain numbers of buttons only. A process calls them the same if and only if the file of its keyboard begins with the same names, and in that case the layout types the same texts with them; so do pretty, keyheatmap, layoutstats and optimize. The plots always load ibmpc105, whatever is given for -k, and present other letters.',
  'all keyboard files, layouts and statistics',
  'tests only know one keyboard and one process',
  'lulua/plot.py:61', 'lulua/plot.py:137', 'lulua/plot.py:186', 'lulua/text.py:334', 'lulua/keyboard.py:36-47', 'lulua/stats.py:409-413')

p('C126', 'Pictures look as meant with either style sheet',
  'A user who looks at a picture of a layout expects every part of it to be styled: behind every button the colour of the finger that presses it, buttons without text paler, labels in a colour that differs from buttons, their shadows and the heat map, the first layer larger than the others, in fonts that are part of the file. This holds for the style sheet for screens and for all pictures. In the one for printing, heat has no colour: circles are black, like the labels on them.',
  'all layouts, keyboards, heat maps and font files; both style sheets',
  'tests do not look at pictures; whether a rule applies depends on classes in code and in two style sheets',
  'lulua/render.py:60-119', 'lulua/render.py:157-252', 'lulua/render.py:273-301', 'lulua/data/render-svg.css', 'lulua/data/render-svg-print.css')

p('C127', 'The programs understand their command lines',
  'A user who starts one of the programs expects it to get what they wrote: options in any order, short or long, with the value as next word or after an equals sign, the last one counting if repeated, defaults otherwise; a command or filter nobody knows, a missing file or a missing corpus to be refused with the usage; and help with -h. The build file relies on it: each of its commands is accepted as soon as the files it reads are there. Two expectations fail: without a command lulua-analyze and lulua-import end in an exception, and so does the help of triadfreq, because of a percent sign in a help text.',
  'all lists of options in all forms, all words, files, processors and Unicode databases with the usual digits; all files the build file may find with tidy names',
  'tests call functions, not programs; combinations of options are unbounded',
  'lulua/layout.py:352-362', 'lulua/optimize.py:269-282', 'lulua/render.py:594-631', 'lulua/report.py:63-68', 'lulua/stats.py:409-446', 'lulua/text.py:390-403', 'lulua/text.py:467-470', 'setup.py:46-54', 'gen.sh')

p('C128', 'However an option is written it means the same, and what is no option is refused',
  'Users write options in many ways: -l x, -lx, -l=x, --layout x, --layout=x, --lay=x, -vj4 for -v -j4, negative numbers as values. Each of them means the same wherever it stands, whatever is written before and behind it, also among the options of a command. An option nobody knows, one without its value or with a value that is none, an argument where none belongs and an argument left out are refused, instead of being ignored.',
  'all programs of lulua and every parser of the same kind, all command lines before and behind, all values, all ways to write an option, all Unicode databases with the usual digits',
  'the number of command lines is unbounded, and one option may change the meaning of the words around it',
  'lulua/layout.py:352-362', 'lulua/optimize.py:269-282', 'lulua/render.py:594-631', 'lulua/report.py:63-68', 'lulua/stats.py:409-446', 'lulua/text.py:390-403', 'lulua/text.py:467-470')

p('C129', 'The files for xmodmap, Keyman and Klavaro are read as meant',
  'A user expects that xmodmap and Keyman read from the files what the layout says: the words of every line, without comments, are the fixed commands and for every button its keycode and its symbols; the rules are those of the layout, in its order. This holds, for all shipped layouts that can be written too, unless a name contains the end of a line: what follows is a command then. The file for Klavaro has the lines of the first layer and then of the second, with one character for each button, if no text of them is longer.',
  'all layouts, keyboards, names without line ends, times, orders of sets and ways to print codes as one word; all shipped layouts',
  'tests do not read the files, and layouts are arbitrary',
  'lulua/render.py:302-366', 'lulua/render.py:368-401')
p('C130', 'A rendering that fails does not destroy the file',
  'A user who renders a layout into a file that exists expects to keep it if the command fails, and to get a file if it succeeds. The commands for AnySoftKeyboard and Klavaro do so, and all if the layout cannot be loaded. False for the others: they open the file first. Ten of the twelve shipped layouts fail for xmodmap, and what is left is a file that clears all modifiers; for macOS the declaration is left if a value is no text; winkbd succeeds without writing a file for all layouts but ar-lulua.',
  'all layouts, keyboards, paths and contents of the disk; all shipped layouts',
  'no test renders into an existing file or lets rendering fail',
  'lulua/render.py:302-585')

p('C131', 'Benchmarking a filter makes no statistics',
  'The help of lulua-write says of --benchmark that the filter is run without statistics. A user expects that nothing is written then, and that the filter fails for the same input. The latter holds: a worker fails for exactly the same items with the same exception, and returns a result exactly if it does otherwise. The former is false: whenever there is a text, each execution writes statistics, once for each worker that got one. They have no count, so merging them changes nothing, but they cannot be analyzed on their own.',
  'all items, filters, layouts every text can be typed with, numbers of workers and schedules',
  'the option is not tested, and workers and schedules are arbitrary',
  'lulua/text.py:332-377', 'lulua/text.py:445-453')

p('C132', 'lulua-render does what its command line says',
  'A user expects that lulua-render with any options in any order reads the keyboard and layout named last, writes the file of the format named and changes nothing else, and that doing it again gives the same. This holds if a layout is named and the output is called neither like it nor like the keyboard; unknown names raise KeyError and change nothing. False otherwise: without -l every format ends with a TypeError, and an output called like the layout is read as the layout from then on. For all shipped layouts a file for Keyman is written, and for ten of them one for xmodmap that only clears modifiers.',
  'all command lines of options and a format, contents of disk and package, YAML parsers, layouts and times; all shipped layouts',
  'no test runs the program, and disk and command line are arbitrary',
  'lulua/render.py:302-630', 'lulua/util.py:38-66')

p('C133', 'lulua-write counts its whole input',
  'A user expects that lulua-write with any options in any order, a layout and filters reads standard input to its end and writes the statistics of typing every text the filters make of it, however many workers there are and however they are scheduled, or complains. This holds for shipped layouts if there is a worker and no filter fails; with --benchmark what is written has no counts, and unknown names raise KeyError before anything is read. False otherwise: with -j 0 all input is read, nothing is written and nobody complains.',
  'all command lines of options, layout and filters, contents of disk and package, inputs, filter libraries and schedules; all shipped layouts',
  'no test runs the program, and schedules, input and command line are arbitrary',
  'lulua/text.py:323-463', 'lulua/util.py:38-66')

p('C134', 'lulua-optimize does what its command line says and prints a layout other programs can use',
  'A user expects that lulua-optimize with any options in any order optimizes the layout named last as the options say, and that the layout printed can be put into a file and used by the other programs, types the same texts and needs no more effort. This holds if a layout is named: for shipped layouts whatever is printed is found under the name of its file, types every text like the original and needs at most the effort of the layout started with unless that is randomized, keeps the pins of gen.sh, and statistics of a text without backspaces raise no exception. False otherwise: without -l the program reads the statistics and ends with a TypeError.',
  'all command lines of options, contents of disk and package, statistics and random choices; all shipped layouts and texts',
  'no test runs the program, and command line, statistics and random choices are arbitrary',
  'lulua/optimize.py:269-383', 'lulua/util.py:38-66')

p('C135', 'lulua-analyze shows the figures of the statistics for the layout and keyboard named',
  'A user expects that lulua-analyze with any options in any order writes the figures of its command for the statistics on standard input and the layout and keyboard named last, and that lulua-write | lulua-analyze combine | lulua-analyze gives the figures of all texts. This holds if a layout is named, and for pretty, keyheatmap and layoutstats also for the keyboard; the heat map is the same for all layouts, combine needs no layout, and for shipped layouts the pipeline has the statistics of all texts and nothing else, figures exactly if an alef is typed and a curve with the name of the layout. False otherwise: without -l the commands end with a TypeError, letterfreq, triadfreq and triadeffortdata ignore -k, and all commands but combine use the first part of statistics in several parts and ignore the rest without a message.',
  'all command lines of options and commands, contents of disk and package and of standard input; all shipped layouts, inputs and schedules of the processes',
  'no test runs the program, and options, statistics and schedules are arbitrary',
  'lulua/stats.py:239-369', 'lulua/stats.py:409-446', 'lulua/plot.py:48-62', 'lulua/plot.py:122-138', 'lulua/plot.py:172-187')

p('C136', 'lulua-import reads the lines of a KLC file as they were written',
  'A user expects that lulua-import FILE klc imports the lines of a KLC file however it was saved, and that the other programs can use what it prints. For files in UTF-16 with a byte order mark this holds for the lines: in either byte order, with any characters and any of the three ends of lines they are imported as written; exactly these files and empty ones can be read. False otherwise: every file in UTF-8 that is not empty, like one without the mark, ends the program with a UnicodeError, and whatever is printed cannot be used with the keyboard ibmpc105 as it is.',
  'all contents of files, all texts, names of files and command lines',
  'no test imports a file; texts, byte orders and wrong bytes are arbitrary',
  'lulua/layout.py:346-362')

p('C137', 'lulua-report shows all files it is given',
  'A user expects that the page lulua-report prints is about all files named after -c and -l. If each of the two options is given once this holds: with the options in either order and form there is a page exactly if all files named can be read and have what is needed, and it has a row for every document of every file, their sums, and for each layout the figures of the last file about it. False otherwise: of an option given several times all but the last are ignored without a word, and without -c or -l the program ends with a TypeError instead of a message.',
  'all command lines of good options, all names and contents of files',
  'no test runs lulua-report; options, files and their contents are arbitrary',
  'lulua/report.py:63-137')

p('C138', 'lulua-extract-mediawiki writes the texts of a dump, also of one that breaks off',
  'A user expects that lulua-extract-mediawiki writes the text of every article of a dump so that lulua-write with the filter json reads it back, and that a dump that breaks off is reported and gives no halves of articles. For version 0.10 of the format this holds: the texts of exactly the elements that are complete are written, each whole, in the order of their ends, the error is the end of the program, and what is written of the beginning of a dump is the beginning of what is written of all of it. False for other versions: nothing is written and there is no error.',
  'all documents, all places where they break off, all names of files',
  'no test reads a dump; documents and places are arbitrary',
  'lulua/text.py:465-477')

p('C139', 'Sizes of corpora and dictionaries are those of the texts given to lulua-write',
  'A user expects that lulua-analyze corpusstats adds to the description of a corpus how many presses and words the texts given to lulua-write have, in place of numbers it had, that lulua-analyze latinime lists each of their words once with the number for its share, and that lulua-report shows the sums. This holds if the statistics were combined: a description is written exactly if there are statistics and the metadata is one mapping, a missing file is a wrong command line. False for statistics in several parts: only the first one counts.',
  'all options, metadata, shipped layouts, inputs without failing filters, numbers of workers and schedules of the processes',
  'no test runs the programs, and texts, options and schedules are arbitrary',
  'lulua/stats.py:371-404', 'lulua/stats.py:409-446', 'lulua/report.py:111-123')

p('C140', 'Fingers belong to their hands',
  'After any creation of fingers and hands and any addition of fingers, hand[k] is the first finger with number k added to the hand and raises StopIteration iff there is none, and the hand of a finger is the one it was added to last. A user expects that hand[k].hand is hand: this holds if no finger is added twice, in particular for the two hands of a Writer, which have five different fingers each; it is false for a finger added to a second hand. Hands can always be shown (repr), fingers exactly if they were added to a hand: for others repr raises AttributeError.',
  'all histories of operations, hands and fingers',
  'the test looks at one finger',
  'lulua/layout.py:57-85', 'lulua/writer.py:130-140')

p('C141', 'Combinations are keys of dictionaries across processes',
  'Combinations are equal exactly if their modifiers and their buttons are, equal ones have equal hashes however often and through whatever processes they were pickled, and a dictionary gives for a combination the value last assigned to its two sets and has no two equal keys. A loaded combination has the names it was pickled with if the loading process made the same buttons in the same order. A user expects len to be the number of buttons to be pressed. False: a button that is also a modifier is counted twice. True exactly if there is none.',
  'all hash functions respecting equality, processes, orders of iteration, chains of pickling and sequences of assignments',
  'tests use one process and a few combinations; hashes and orders of iteration differ between processes',
  'lulua/layout.py:89-118', 'lulua/keyboard.py:36-47', 'lulua/stats.py:232-237')

p('C142', 'lulua-write reports that its workers cannot start',
  'A user expects that lulua-write raises the exception of its workers if none of them can load its keyboard (they load ibmpc105 whatever is given with -k). It never returns normally, writes nothing and raises no other exception, and every execution is finite. False for inputs of at least twice as many lines as workers: there is an execution after which it waits for ever, also if it is interrupted while reading. True exactly for shorter inputs.',
  'all numbers of workers above zero, inputs and schedules, with and without interrupts',
  'no test runs write() with processes; the deadlock needs the workers to be slower than the input queue fills',
  'lulua/text.py:332-335', 'lulua/text.py:375-377', 'lulua/text.py:415-453')

p('C143', 'The process of lulua-write leaves after write() has returned or raised',
  'A user expects that the command ends once write() has returned or raised an exception. The interpreter waits until what was put into the input queue and not read fits into its pipe. After a normal return with at least one worker the queue is empty. False after an exception: lines waiting in the queue may be larger than the pipe. False with -j 0: the whole input is in the queue. True if twice the number of workers lines fit into the pipe.',
  'all numbers of workers, inputs, sizes of lines and of the pipe, schedules, interrupts and killed workers',
  'it depends on the sizes of lines and on the schedule, and no test runs write() with processes',
  'lulua/text.py:415-453')

p('C144', 'lulua-write reports input it cannot read and keeps what it has read',
  'If standard input cannot be read to its end (UnicodeDecodeError), write() never returns normally and ends with this exception or that of a failing item, if fewer items fail than there are workers; every execution is finite. A user expects that statistics of the lines before are written. False: none are, whatever has been processed.',
  'all inputs, numbers of workers above zero, failing items and schedules',
  'no test runs write() with processes; it depends on the schedule what has been processed by then',
  'lulua/text.py:435-453')

p('C145', 'The filter that runs another program ends and yields what the program writes',
  'A text that filterMediawikiMarkdown yields is all that the program writes for the text given to it, and the program has exited with zero; if it yields nothing, the program has exited with something else. If the program comes to an end for the text, every execution is finite. A user expects that the filter then always ends with a text or without. True for programs that read all of their input first (what pandoc does is not proved), however small the pipes are. If the text fits into the first pipe or the result into the second, the filter ends whatever the order of reading and writing. False for other programs: for a text longer than the pipes the two may wait for each other for ever, and if the program exits early, writing raises an exception.',
  'all programs (as state machines), texts, sizes of the pipes and schedules of the two processes',
  'no test runs the filter; deadlocks depend on the sizes of texts and pipes and on the other program',
  'lulua/text.py:253-269')

with open(os.path.join(os.path.dirname(__file__), '..', 'properties.jsonl'), 'w') as fd:
    for x in P:
        fd.write(json.dumps(x, ensure_ascii=False) + '\n')
print(len(P))
