import Verif.Model.Filters
import Verif.Model.OptArgs

/-!
# Model of the command lines of the programs

The parsers the programs build (`layout.py:352-362`, `optimize.py:269-282`, `render.py:594-631`, `report.py:63-68`,
`stats.py:409-446`, `text.py:390-403,467-470`), and of the library `argparse` (as of Python 3.11) what they use of it: options with one,
any number of or no arguments, abbreviated and written together with others or with their argument, `--`, positional arguments,
commands with parsers of their own, types, choices and help. Messages are left out.
-/

namespace Lulua

/-- Why there is no result: a complaint (exit code 2), help was printed (exit code 0), or an exception. -/
inductive ArgStop where
  | usage | help | raised
  deriving DecidableEq, Repr

/-- Values of arguments. -/
inductive ArgVal where
  | none
  | flag (b : Bool)
  | text (t : Text)
  | int (i : Int)
  | num (q : Rat)
  /-- an open file -/
  | file (t : Text)
  /-- what a YAML file says -/
  | yaml (t : Text)
  /-- an open file of the package -/
  | resource (n : String)
  | texts (ts : List Text)
  | pins (ps : List (Int × Option Text))
  | mutations (ms : List ((Int × Text) × (Int × Text)))
  /-- a function of the program -/
  | func (n : String)
  deriving DecidableEq

/-- What the result depends on besides the arguments: the Unicode database, `float ()`, the files which can be opened, the files
which are YAML (`usage` if the file is missing or no text, `raised` if it is not YAML) and the number of processors. -/
structure ArgWorld where
  uni : UniNum
  float : Text → Option Rat
  opens : Text → Bool
  yaml : Text → Except ArgStop Unit
  cpus : Nat

/-- What an argument does (`action=`). -/
inductive ArgKind where
  | store | storeTrue | append | help | command
  deriving DecidableEq

/-- An argument of a parser. Without flags it is positional. `many` is `nargs='+'`; no argument has both this and a type. -/
structure ArgAction where
  flags : List Text := []
  dest : String
  kind : ArgKind := .store
  many : Bool := false
  type : ArgWorld → Text → Except ArgStop ArgVal := fun _ t => .ok (.text t)
  choices : Option (List Text) := none
  default : ArgVal := .none
  help : Text := []

/-- A parser: its arguments, `set_defaults` and the help of its commands. -/
structure ArgParser where
  actions : List ArgAction
  defaults : Dict String ArgVal := []
  helps : List Text := []

/-! ### Words -/

/-- What `_parse_known_args` calls `A`, `O` and `-`; an option comes with its argument in the same word, and whether there is a `=`
in front of it. `none` is an option this parser does not know. -/
inductive ArgTok where
  | arg
  | opt (o : Option (ArgAction × Text × Option (Bool × Text)))
  | dashes

/-- The three letters. -/
inductive ArgShape where
  | arg | opt | dashes
  deriving DecidableEq

def ArgTok.shape : ArgTok → ArgShape
  | .arg => .arg
  | .opt _ => .opt
  | .dashes => .dashes

/-- `_option_string_actions`. -/
def optionFlags (acts : List ArgAction) : List (Text × ArgAction) := acts.flatMap fun a => a.flags.map (·, a)

/-- `self._option_string_actions.get (…)`. -/
def findFlag (acts : List ArgAction) (f : Text) : Option ArgAction := ((optionFlags acts).find? (·.1 = f)).map (·.2)

/-- `_get_option_tuples`: an abbreviated long option, or a short one with its argument right behind it. -/
def optionTuples (acts : List ArgAction) (t : Text) : List (ArgAction × Text × Option (Bool × Text)) :=
  match t with
  | '-' :: '-' :: _ =>
    let x := splitFirst '=' t
    (optionFlags acts).filterMap fun f => if x.1.isPrefixOf f.1 then some (f.2, f.1, x.2.map (true, ·)) else none
  | _ => (optionFlags acts).filterMap fun f =>
    if f.1 = t.take 2 then some (f.2, f.1, some (false, t.drop 2))
    else if t.isPrefixOf f.1 then some (f.2, f.1, none) else none

/-- `^-\d+$|^-\d*\.\d+$`. -/
def negativeNumber (u : UniNum) (t : Text) : Bool :=
  match t with
  | '-' :: r =>
    let digits := fun s : Text => s.all fun c => (u.digit c).isSome
    (!r.isEmpty && digits r) ||
      match r.dropWhile fun c => (u.digit c).isSome with
      | '.' :: s => !s.isEmpty && digits s
      | _ => false
  | _ => false

/-- `_parse_optional`: is the word an option. No program has options that look like numbers. -/
def classify (u : UniNum) (acts : List ArgAction) (t : Text) : Except ArgStop ArgTok :=
  if t.head? ≠ some '-' then .ok .arg
  else match findFlag acts t with
    | some a => .ok (.opt (some (a, t, none)))
    | none =>
      if t.length = 1 then .ok .arg
      else
        let x := splitFirst '=' t
        match (x.2.bind fun e => (findFlag acts x.1).map fun a => (a, x.1, some (true, e))) with
        | some o => .ok (.opt (some o))
        | none =>
          match optionTuples acts t with
          | [o] => .ok (.opt (some o))
          | _ :: _ :: _ => .error .usage
          | [] => if negativeNumber u t || t.contains ' ' then .ok .arg else .ok (.opt none)

/-- The words with their letters; behind `--` everything is an argument. -/
def tokens (u : UniNum) (acts : List ArgAction) : List Text → Except ArgStop (List (Text × ArgTok))
  | [] => .ok []
  | t :: ts =>
    if t = ['-', '-'] then .ok ((t, .dashes) :: ts.map (·, .arg))
    else do
      let k ← classify u acts t
      let r ← tokens u acts ts
      .ok ((t, k) :: r)

/-! ### Regular expressions -/

/-- One letter, or any number of letters. -/
inductive ArgItem where
  | one (p : ArgShape → Bool)
  | star (p : ArgShape → Bool)

/-- A greedy star, followed by what `k` matches. -/
def matchStar (p : ArgShape → Bool) (k : List ArgShape → Option (List Nat)) : List ArgShape → Option (List Nat)
  | [] => (k []).map (0 :: ·)
  | s :: ss =>
    match (if p s then matchStar p k ss else none) with
    | some (n :: ns) => some ((n + 1) :: ns)
    | _ => (k (s :: ss)).map (0 :: ·)

/-- `re.match`, with the lengths of the parts. -/
def matchItems : List ArgItem → List ArgShape → Option (List Nat)
  | [], _ => some []
  | .one _ :: _, [] => none
  | .one p :: r, s :: ss => if p s then (matchItems r ss).map (1 :: ·) else none
  | .star p :: r, ss => matchStar p (matchItems r) ss

/-- `_get_nargs_pattern` of a positional argument: `-*A-*`, `-*A[A-]*` and `-*A[-AO]*`. -/
def argItems (a : ArgAction) : List ArgItem :=
  [.star (· = .dashes), .one (· = .arg),
    .star fun s => if a.kind = .command then true else if a.many then s ≠ .opt else s = .dashes]

/-- Sums of three in a row. -/
def sumThrees : List Nat → List Nat
  | a :: b :: c :: r => (a + b + c) :: sumThrees r
  | _ => []

/-- `_match_arguments_partial`: as many of the first `n` arguments as possible, with the number of words of each. -/
def matchPartial (acts : List ArgAction) (ss : List ArgShape) : Nat → List Nat
  | 0 => []
  | n + 1 =>
    match matchItems ((acts.take (n + 1)).flatMap argItems) ss with
    | some ns => sumThrees ns
    | none => matchPartial acts ss n

/-- `_match_argument` of an option: the number of words it takes. -/
def optionCount (a : ArgAction) (ss : List ArgShape) : Except ArgStop Nat :=
  if a.kind = .storeTrue ∨ a.kind = .help then .ok 0
  else if ss.head? ≠ some .arg then .error .usage
  else .ok (if a.many then (ss.takeWhile (· = .arg)).length else 1)

/-! ### Help -/

/-- Does `text % dict` work, as for the help of an argument. `used` tells that the dictionary has been shown already. No help has
a key, width or precision. -/
def helpFormats (used : Bool) : Text → Bool
  | [] => true
  | '%' :: r => helpSpec used r
  | _ :: r => helpFormats used r
where
  /-- Flags and conversion. -/
  helpSpec (used : Bool) : Text → Bool
    | [] => false
    | c :: r =>
      if c ∈ ['#', '0', '-', ' ', '+'] then helpSpec used r
      else if c = '%' then helpFormats used r
      else if c ∈ ['s', 'r', 'a'] then !used && helpFormats true r
      else false

/-! ### Actions -/

/-- State of `_parse_known_args`. -/
structure ArgState where
  ns : Dict String ArgVal
  extras : List Text := []
  seen : List String := []
  todo : List ArgAction

/-- `_get_value` and `_check_value`. -/
def argValue (w : ArgWorld) (a : ArgAction) (t : Text) : Except ArgStop ArgVal :=
  match a.choices with
  | none => a.type w t
  | some cs => if t ∈ cs then a.type w t else .error .usage

/-- `take_action`. `sub` runs the parser of a command, `helps` are the help texts of this parser. -/
def takeAction (w : ArgWorld) (helps : List Text) (sub : Text → List Text → Except ArgStop (Dict String ArgVal × List Text))
    (st : ArgState) (a : ArgAction) (args : List Text) : Except ArgStop ArgState :=
  let st := { st with seen := a.dest :: st.seen }
  match a.kind with
  | .help => if helps.all (helpFormats false) then .error .help else .error .raised
  | .storeTrue => .ok { st with ns := st.ns.set a.dest (.flag true) }
  | .command =>
    match args with
    | [] => .error .raised
    | n :: r => do
      let (ns, ex) ← sub n r
      .ok { st with ns := ns.foldl (fun d x => Dict.set d x.1 x.2) st.ns, extras := st.extras ++ ex }
  | k =>
    let args := args.erase ['-', '-']
    if a.many then
      match a.choices with
      | none => .ok { st with ns := st.ns.set a.dest (.texts args) }
      | some cs => if args.all (· ∈ cs) then .ok { st with ns := st.ns.set a.dest (.texts args) } else .error .usage
    else
      match args with
      | [t] => do
        let v ← argValue w a t
        match k, st.ns.get? a.dest, v with
        | .append, some (.mutations old), .mutations new => .ok { st with ns := st.ns.set a.dest (.mutations (old ++ new)) }
        | _, _, _ => .ok { st with ns := st.ns.set a.dest v }
      | ts => .ok { st with ns := st.ns.set a.dest (.texts ts) }

section
variable (w : ArgWorld) (acts : List ArgAction) (helps : List Text)
  (sub : Text → List Text → Except ArgStop (Dict String ArgVal × List Text))

/-- `consume_positionals`: the state and the words left. -/
def consumePositionals (st : ArgState) (ts : List (Text × ArgTok)) : Except ArgStop (ArgState × List (Text × ArgTok)) := do
  let counts := matchPartial st.todo (ts.map (·.2.shape)) st.todo.length
  let (st', ts') ← (st.todo.zip counts).foldlM (fun x y => do
    let s ← takeAction w helps sub x.1 y.1 ((x.2.take y.2).map (·.1))
    .ok (s, x.2.drop y.2)) (st, ts)
  .ok ({ st' with todo := st.todo.drop counts.length }, ts')

/-- The options of a word and the words behind they take, the words left and what nobody knows: `action_tuples` of
`consume_optional`. The last argument is what follows the option in the same word. -/
def optionActions (a : ArgAction) (flag : Text) (ts : List (Text × ArgTok)) : Option (Bool × Text) →
    Except ArgStop (List (ArgAction × List Text) × List (Text × ArgTok) × List Text)
  | none => do
    let n ← optionCount a (ts.map (·.2.shape))
    .ok ([(a, (ts.take n).map (·.1))], ts.drop n, [])
  | some e => joined a flag e.1 false e.2
where
  /-- Options without argument written together; the last may have one. `sep`: there was a `=` before the text; `inner`: a `=` at its
  beginning does not belong to it. -/
  joined (a : ArgAction) (flag : Text) (sep inner : Bool) : Text →
      Except ArgStop (List (ArgAction × List Text) × List (Text × ArgTok) × List Text)
    | [] => do
      let n ← optionCount a [.arg]
      if n = 1 then .ok ([(a, [[]])], ts, []) else .error .usage
    | c :: e =>
      if inner = true ∧ c = '=' then joined a flag true false e
      else do
        let n ← optionCount a [.arg]
        if n = 1 then .ok ([(a, [c :: e])], ts, [])
        else if (flag.drop 1).head? = some '-' ∨ sep = true ∨ c = '-' then .error .usage
        else match findFlag acts ['-', c] with
          | none => .ok ([(a, [])], ts, ['-' :: c :: e])
          | some b =>
            if e = [] then do
              let n ← optionCount b (ts.map (·.2.shape))
              .ok ([(a, []), (b, (ts.take n).map (·.1))], ts.drop n, [])
            else do
              let (l, r) ← joined b ['-', c] false true e
              .ok ((a, []) :: l, r)

/-- `consume_optional` at the first word. -/
def consumeOptional (st : ArgState) (t : Text) (o : Option (ArgAction × Text × Option (Bool × Text))) (ts : List (Text × ArgTok)) :
    Except ArgStop (ArgState × List (Text × ArgTok)) :=
  match o with
  | none => .ok ({ st with extras := st.extras ++ [t] }, ts)
  | some (a, flag, e) => do
    let (l, r, x) ← optionActions acts a flag ts e
    let st ← l.foldlM (fun st x => takeAction w helps sub st x.1 x.2) { st with extras := st.extras ++ x }
    .ok (st, r)

/-- The loop of `_parse_known_args`. Each round takes a word at least, so `fuel` is the number of words. -/
def parseLoop : Nat → ArgState → List (Text × ArgTok) → Except ArgStop ArgState
  | 0, _, _ => .error .raised
  | fuel + 1, st, ts =>
    if ts.all fun x => x.2.shape ≠ .opt then do
      let (st, ts) ← consumePositionals w helps sub st ts
      .ok { st with extras := st.extras ++ ts.map (·.1) }
    else
      match ts with
      | (t, .opt o) :: r => do
        let (st, r) ← consumeOptional w acts helps sub st t o r
        parseLoop fuel st r
      | _ => do
        let (st', r) ← consumePositionals w helps sub st ts
        if r.length < ts.length then parseLoop fuel st' r
        else
          parseLoop fuel { st' with extras := st'.extras ++ (ts.takeWhile fun x => x.2.shape ≠ .opt).map (·.1) }
            (ts.dropWhile fun x => x.2.shape ≠ .opt)

end

/-- Arguments that must be given: positional ones, but not commands. -/
def ArgAction.required (a : ArgAction) : Bool := a.flags.isEmpty && a.kind ≠ .command

/-- `parse_known_args`: the attributes and the words nobody knows. -/
def ArgParser.parseKnown (p : ArgParser) (w : ArgWorld)
    (sub : Text → List Text → Except ArgStop (Dict String ArgVal × List Text)) (argv : List Text) :
    Except ArgStop (Dict String ArgVal × List Text) := do
  let ts ← tokens w.uni p.actions argv
  let given := (p.actions.filter fun a => a.kind ≠ .help ∧ a.kind ≠ .command).map fun a => (a.dest, a.default)
  let st ← parseLoop w p.actions (p.actions.map (·.help) ++ p.helps) sub (ts.length + 1)
    { ns := p.defaults.foldl (fun d x => Dict.set d x.1 x.2) given, todo := p.actions.filter (·.flags.isEmpty) } ts
  if p.actions.all fun a => !a.required || decide (a.dest ∈ st.seen) then .ok (st.ns, st.extras) else .error .usage

/-- A program: its parser, those of its commands, and does it call `args.func`. -/
structure ArgProgram where
  parser : ArgParser
  commands : List (Text × ArgParser) := []
  calls : Bool := true

/-- The parser of a command runs. -/
def ArgProgram.sub (p : ArgProgram) (w : ArgWorld) (n : Text) (r : List Text) : Except ArgStop (Dict String ArgVal × List Text) :=
  match Dict.get? p.commands n with
  | none => .error .usage
  | some q => q.parseKnown w (fun _ _ => .error .raised) r

/-- `parser.parse_args ()`, then `args.func (args)`. The result is what the function gets. -/
def ArgProgram.start (p : ArgProgram) (w : ArgWorld) (argv : List Text) : Except ArgStop (Dict String ArgVal) := do
  let (ns, ex) ← p.parser.parseKnown w (p.sub w) argv
  if ex ≠ [] then .error .usage
  else if p.calls && (ns.get? "func").isNone then .error .raised
  else .ok ns

/-! ### The programs -/

/-- `-h`, which every parser has. -/
def helpAction : ArgAction :=
  { flags := ["-h".toList, "--help".toList], dest := "help", kind := .help, help := "show this help message and exit".toList }

/-- `-l`. -/
def layoutAction : ArgAction :=
  { flags := ["-l".toList, "--layout".toList], dest := "layout", help := "Keyboard layout name".toList }

/-- `-k`. -/
def keyboardAction : ArgAction :=
  { flags := ["-k".toList, "--keyboard".toList], dest := "keyboard", default := .text "ibmpc105".toList,
    help := "Physical keyboard name".toList }

/-- `add_subparsers ()`. -/
def commandAction (names : List Text) : ArgAction := { dest := "command", kind := .command, choices := some names }

/-- `type=int`. -/
def intType (w : ArgWorld) (t : Text) : Except ArgStop ArgVal :=
  match pyInt w.uni t with
  | .ok i => .ok (.int i)
  | .error _ => .error .usage

/-- `type=float`. -/
def floatType (w : ArgWorld) (t : Text) : Except ArgStop ArgVal :=
  match w.float t with
  | some q => .ok (.num q)
  | none => .error .usage

/-- `argparse.FileType ('r')` and `('rb')`. `-`, standard input, is left out. -/
def fileType (w : ArgWorld) (t : Text) : Except ArgStop ArgVal := if w.opens t then .ok (.file t) else .error .usage

/-- `yamlload` (`render.py:587-592`). -/
def yamlType (w : ArgWorld) (t : Text) : Except ArgStop ArgVal := do
  w.yaml t
  .ok (.yaml t)

/-- A parser that has nothing but a function. -/
def plainCommand (func : String) : ArgParser := { actions := [helpAction], defaults := [("func", .func func)] }

/-- `lulua-import` (`layout.py:352-362`). -/
def importProgram : ArgProgram where
  parser :=
    { actions := [helpAction, { dest := "input", help := "Input file".toList }, commandAction ["klc".toList]],
      helps := ["Import from Microsoft Keyboard Layout creator".toList] }
  commands := [("klc".toList, plainCommand "importKlc")]

/-- `type=parsePin`. -/
def pinType (w : ArgWorld) (t : Text) : Except ArgStop ArgVal :=
  match parsePin w.uni t with
  | .ok ps => .ok (.pins ps)
  | .error _ => .error .usage

/-- `type=parseMutation`. -/
def mutationType (w : ArgWorld) (t : Text) : Except ArgStop ArgVal :=
  match parseMutation w.uni t with
  | .ok m => .ok (.mutations [m])
  | .error _ => .error .usage

/-- `lulua-optimize` (`optimize.py:269-282`). -/
def optimizeProgram : ArgProgram where
  parser :=
    { actions := [helpAction, layoutAction, keyboardAction,
        { flags := ["--triad-limit".toList], dest := "triadLimit", type := intType, default := .int 0,
          help := "Limit number of triads to use".toList },
        { flags := ["-n".toList, "--steps".toList], dest := "steps", type := intType, default := .int 10000,
          help := "Number of iterations".toList },
        { flags := ["-r".toList, "--randomize".toList], dest := "randomize", kind := .storeTrue, default := .flag false,
          help := "Randomize layout before optimizing".toList },
        { flags := ["-p".toList, "--pin".toList], dest := "pin", type := pinType, default := .pins [],
          help := "Pin these layers/buttons".toList },
        { flags := ["-m".toList, "--model".toList], dest := "model", choices := some ["mod01".toList, "salvo".toList],
          default := .text "mod01".toList, help := "Carpalx model".toList },
        { flags := ["-s".toList, "--mutate".toList], dest := "mutate", kind := .append, type := mutationType,
          default := .mutations [], help := "Apply these mutations".toList }] }
  calls := false

/-- The commands of `lulua-render` but `svg`, with their functions (`render.py:613-624`). -/
def renderCommands : List (String × String) :=
  [("xmodmap", "renderXmodmap"), ("keyman", "renderKeyman"), ("ask", "renderAsk"), ("winkbd", "renderWinKbd"),
    ("keylayout", "renderKeylayout"), ("klavaro", "renderKlavaro")]

/-- `lulua-render … svg` (`render.py:600-612`). -/
def svgParser : ArgParser where
  actions := [helpAction,
    { flags := ["-s".toList, "--style".toList], dest := "style", type := fileType, default := .resource "data/render-svg.css",
      help := "Include external stylesheet into SVG".toList },
    { flags := ["--heatmap".toList], dest := "heatmap", type := yamlType, help := "Highlight keys based on heatmap data".toList }]
  defaults := [("func", .func "renderSvg")]

/-- `lulua-render` (`render.py:594-631`). -/
def renderProgram : ArgProgram where
  parser :=
    { actions := [helpAction, layoutAction, keyboardAction, commandAction ("svg".toList :: renderCommands.map (·.1.toList)),
        { dest := "output", help := "Output file".toList }] }
  commands := ("svg".toList, svgParser) :: renderCommands.map fun c => (c.1.toList, plainCommand c.2)

/-- `lulua-report` (`report.py:63-68`). -/
def reportProgram : ArgProgram where
  parser :=
    { actions := [helpAction,
        { flags := ["-c".toList, "--corpus".toList], dest := "corpus", many := true, help := "Corpus metadata files".toList },
        { flags := ["-l".toList, "--layoutstats".toList], dest := "layoutstats", many := true,
          help := "Layout statistics files".toList }] }
  calls := false

/-- The commands of `lulua-analyze` without arguments, with their functions (`stats.py:415-438`). -/
def analyzeCommands : List (String × String) :=
  [("pretty", "pretty"), ("combine", "combine"), ("letterfreq", "letterfreq"), ("triadeffortdata", "triadEffortData"),
    ("triadeffortplot", "triadEffortPlot"), ("keyheatmap", "keyHeatmap"), ("layoutstats", "layoutstats"),
    ("latinime", "latinImeDict")]

/-- `lulua-analyze … triadfreq` (`stats.py:421-426`). -/
def triadfreqParser : ArgParser where
  actions := [helpAction,
    { flags := ["-c".toList, "--cutoff".toList], dest := "cutoff", type := floatType, default := .num (1 / 2),
      help := "Only include the top x% of all triads".toList },
    { flags := ["-r".toList, "--reverse".toList], dest := "reverse", kind := .storeTrue, default := .flag false,
      help := "Reverse sorting order".toList },
    { flags := ["-s".toList, "--sort".toList], dest := "sort",
      choices := some ["weight".toList, "effort".toList, "combined".toList], default := .text "weight".toList,
      help := "Sorter".toList },
    { flags := ["-n".toList, "--limit".toList], dest := "limit", type := intType, default := .int 0, help := "Sorter".toList }]
  defaults := [("func", .func "triadfreq")]

/-- `lulua-analyze … corpusstats` (`stats.py:439-441`). -/
def corpusstatsParser : ArgParser where
  actions := [helpAction, { dest := "metadata", type := fileType }]
  defaults := [("func", .func "corpusStats")]

/-- `lulua-analyze` (`stats.py:409-446`). -/
def analyzeProgram : ArgProgram where
  parser :=
    { actions := [helpAction, layoutAction, keyboardAction,
        commandAction (analyzeCommands.map (·.1.toList) ++ ["triadfreq".toList, "corpusstats".toList])] }
  commands := analyzeCommands.map (fun c => (c.1.toList, plainCommand c.2)) ++
    [("triadfreq".toList, triadfreqParser), ("corpusstats".toList, corpusstatsParser)]

/-- `lulua-write` (`text.py:393-403`). -/
def writeProgram (w : ArgWorld) : ArgProgram where
  parser :=
    { actions := [helpAction,
        { flags := ["--benchmark".toList], dest := "benchmark", kind := .storeTrue, default := .flag false,
          help := "Benchmark filter, no stats".toList },
        { flags := ["-j".toList, "--jobs".toList], dest := "jobs", type := intType, default := .int w.cpus,
          help := "Number of parallel jobs".toList },
        keyboardAction,
        { flags := ["-v".toList, "--verbose".toList], dest := "verbose", kind := .storeTrue, default := .flag false,
          help := "Enable debugging output".toList },
        { dest := "layout", help := "Keyboard layout name".toList },
        { dest := "filter", many := true, choices := some (filterAvail.map (·.1.toList)), help := "Data filter".toList }] }
  calls := false

/-- `lulua-extract-mediawiki` (`text.py:468-470`). -/
def extractProgram : ArgProgram where
  parser := { actions := [helpAction, { dest := "file", help := "bzip2-compressed dump".toList }] }
  calls := false

/-- The programs by name (`setup.py:46-54`). -/
def programs (w : ArgWorld) : Dict Text ArgProgram :=
  [("lulua-analyze".toList, analyzeProgram), ("lulua-render".toList, renderProgram), ("lulua-report".toList, reportProgram),
    ("lulua-import".toList, importProgram), ("lulua-optimize".toList, optimizeProgram), ("lulua-write".toList, writeProgram w),
    ("lulua-extract-mediawiki".toList, extractProgram)]

end Lulua
