import Verif.Model.Report
import Verif.Model.Analyze
import Verif.Model.Xml

/-!
# Model of `render` in `lulua/report.py` and of its template `lulua/data/report/index.html`

What depends on the input: the two tables of corpora, the two figures about hamza and the tables of hands and fingers. A
value missing in a document is undefined in a template: printing it gives nothing, using it is an error. Values are
assumed to have the type the template expects. Lower case is a parameter.
-/

namespace Lulua

/-! ### The corpora -/

/-- A name in both languages. -/
structure BothNames where
  en : Option Text
  ar : Option Text
  deriving DecidableEq

/-- `source` in the metadata. -/
structure CorpusSource where
  name : Option BothNames
  url : Option Text
  deriving DecidableEq

/-- `count` in the metadata. -/
structure CorpusCount where
  num : Option Nat
  kind : Option BothNames
  deriving DecidableEq

/-- A document of a metadata file (`corpus/…/metadata.yaml`), with the figures added by `corpusstats`: characters, words. An
empty `count` is like none. -/
structure CorpusDoc where
  source : Option CorpusSource
  count : Option CorpusCount
  stats : Option (Nat × Nat)
  deriving DecidableEq

/-- Language of a column of the page. -/
inductive PageLang where
  | ar
  | en
  deriving DecidableEq

/-- The name in a language. -/
def BothNames.get (n : BothNames) : PageLang → Option Text
  | .ar => n.ar
  | .en => n.en

/-- Use of a value which may be undefined. -/
def used {α : Type} : Option α → Py α
  | some x => .ok x
  | none => .error .otherError

/-- Printing a value which may be undefined. -/
def printed (x : Option Text) : Text := x.getD []

/-- Order of python's strings: by code points, a prefix first. -/
def textLe : Text → Text → Bool
  | [], _ => true
  | _ :: _, [] => false
  | a :: s, b :: t => if a.toNat < b.toNat then true else if b.toNat < a.toNat then false else textLe s t

/-- `source.name.en` of a document; only the last of the three may be undefined. -/
def sortKey (d : CorpusDoc) : Py (Option Text) := do
  let s ← used d.source
  let n ← used s.name
  .ok n.en

/-- The key of a document which has one. -/
def keyOf (lower : Text → Text) (d : CorpusDoc) : Text := lower (printed ((d.source.bind (·.name)).bind (·.en)))

/-- `corpus|sort(attribute='source.name.en')` (`index.html:159,193`): stable, without regard to case. Of several documents
every one is compared, which fails for an undefined key. -/
def sortCorpora (lower : Text → Text) (docs : List CorpusDoc) : Py (List CorpusDoc) := do
  let keys ← docs.mapM sortKey
  if 2 ≤ docs.length ∧ none ∈ keys then .error .otherError
  else .ok (docs.insertionSort fun a b => textLe (keyOf lower a) (keyOf lower b))

/-- Filling up with blanks on the left. -/
def padLeft (w : Nat) (s : Text) : Text := List.replicate (w - s.length) ' ' ++ s

/-- A comma after every third digit, counted from the end; the argument is reversed. -/
def thousands : List Char → List Char
  | a :: b :: c :: d :: rest => a :: b :: c :: ',' :: thousands (d :: rest)
  | s => s

/-- `'{:7,d}'.format (n)`. -/
def commaFormat (n : Nat) : Text := padLeft 7 (thousands (natText n).reverse).reverse

/-- `'%5.1f'|format (i)` of a number with one decimal. -/
def oneDecimal (i : Dec) : Text :=
  padLeft 5 ((if i.neg then ['-'] else []) ++ natText (i.coeff / 10) ++ '.' :: natText (i.coeff % 10))

/-- A number and its unit, in a cell of the table. Between them is a space. -/
structure Cell where
  num : Text
  unit : Text
  deriving DecidableEq

/-- The digits of the language: `arabnum` or `numspace`. -/
def PageLang.digits : PageLang → Text → Text
  | .ar => arabnum
  | .en => numspace

/-- Argument of `approx`. -/
def PageLang.name : PageLang → String
  | .ar => "ar"
  | .en => "en"

/-- A cell with a figure (`index.html:172-173,179-180,206-207,213-214`). -/
def figureCell (lang : PageLang) (n : Nat) : Py Cell := do
  let i ← approx ⟨false, n, 0⟩ lang.name
  .ok ⟨lang.digits (oneDecimal i.1), i.2.toList⟩

/-- The cell with the number of documents (`index.html:162-168,196-202`). -/
def countCell (lang : PageLang) : Option CorpusCount → Py (Option Cell)
  | none => .ok none
  | some c => do
    let num ← used c.num
    let kind ← used c.kind
    .ok (some ⟨lang.digits (commaFormat num), printed (kind.get lang)⟩)

/-- A row of the table. -/
structure CorpusRow where
  url : Text
  name : Text
  count : Option Cell
  words : Cell
  characters : Cell
  deriving DecidableEq

/-- The row of a document (`index.html:160-175,194-209`). -/
def corpusRow (lang : PageLang) (d : CorpusDoc) : Py CorpusRow := do
  let s ← used d.source
  let n ← used s.name
  let count ← countCell lang d.count
  let stats ← used d.stats
  let words ← figureCell lang stats.2
  let characters ← figureCell lang stats.1
  .ok ⟨printed s.url, printed (n.get lang), count, words, characters⟩

/-- The first cell of a row, as HTML (`index.html:161,195`). Nothing is escaped: `Environment` is made without
`autoescape` (`report.py:70-72`). -/
def linkCell (r : CorpusRow) : Text :=
  "<td><a href=\"".toList ++ r.url ++ "\">".toList ++ r.name ++ "</a></td>".toList

/-- A table of the corpora; the last row has the sums. -/
structure CorpusTable where
  rows : List CorpusRow
  words : Cell
  characters : Cell
  deriving DecidableEq

/-- One of the tables (`index.html:158-183,192-217`). -/
def corpusTable (lower : Text → Text) (lang : PageLang) (docs : List CorpusDoc) (total : Nat × Nat) : Py CorpusTable := do
  let sorted ← sortCorpora lower docs
  let rows ← sorted.mapM (corpusRow lang)
  let words ← figureCell lang total.2
  let characters ← figureCell lang total.1
  .ok ⟨rows, words, characters⟩

/-! ### The page -/

/-- The layouts with a table of hands and fingers (`index.html:431,533,562,593,652,698,732,767,802,855,884,912`). -/
def pageLayouts : List String :=
  ["ar-lulua", "ar-asmo663", "ar-osx", "ar-linux", "ar-alramly", "ar-idlebi", "ar-malas", "ar-khorshid", "ar-osman",
    "ar-qtaish", "ar-ergoarabic", "ar-phonetic"]

/-- A table of hands and fingers, and the asymmetry shown below. -/
structure LayoutTable where
  layout : String
  bars : List HandBar
  asymmetry : Rat

/-- The parts of the page that depend on the input. -/
structure Page where
  ar : CorpusTable
  en : CorpusTable
  /-- In percent (`index.html:382`). -/
  hamzaImpact : Rat
  hamzaOnAlef : Text
  layouts : List LayoutTable

/-- `{{ fingerhandstats(layoutstats[name]) }}`. -/
def layoutTable (stats : Dict String LayoutStats) (name : String) : Py LayoutTable := do
  let s ← used (stats.get? name)
  let bars ← fingerHandStats s.toHandStats
  .ok ⟨name, bars, s.asymmetry⟩

/-- `render` (`report.py:63-137`): metadata files as lists of documents, files of `layoutstats` with the name of their
layout. -/
def renderPage (lower : Text → Text) (corpusFiles : List (List (Option CorpusDoc))) (statsFiles : List (String × LayoutStats)) :
    Py Page := do
  let corpus := corpusFiles.flatMap fun f => f.filterMap id
  let stats : Dict String LayoutStats := statsFiles.foldl (fun d x => d.set x.1 x.2) []
  let total ← corpusTotal (corpus.map (·.stats))
  let ar ← corpusTable lower .ar corpus total
  let en ← corpusTable lower .en corpus total
  let osx ← used (stats.get? "ar-osx")
  let onAlef ← fraction osx.hamzaOnAlef 10
  let layouts ← pageLayouts.mapM (layoutTable stats)
  .ok ⟨ar, en, osx.hamzaImpact * 100, onAlef, layouts⟩

/-! ### Names of letters -/

/-- `letterNames` (`report.py:83-104`). -/
def letterNames : Dict String (Text × Text) :=
  [("Hamzah", ("Hamzah".toList, "ء".toList)), ("Alif", ("ᵓAlif".toList, "ا".toList)),
    ("Alifhamzah", ("ᵓAlif-hamzah".toList, "ا\u0654".toList)), ("Wawhamzah", ("Wa\u0304w-hamzah".toList, "و\u0654".toList)),
    ("Yahamzah", ("Ya\u0304ᵓ-hamzah".toList, "ي\u0654".toList)), ("Ba", ("Baᵓ".toList, "ب".toList)), ("Ta", ("Taᵓ".toList, "ت".toList)),
    ("Tha", ("T\u0331aᵓ".toList, "ث".toList)), ("Ra", ("Raᵓ".toList, "ر".toList)), ("Dal", ("Da\u0304l".toList, "د".toList)),
    ("Dhal", ("D\u0331a\u0304l".toList, "ذ".toList)), ("Qaf", ("Qa\u0304f".toList, "ق".toList)),
    ("Lam", ("La\u0304m".toList, "ل".toList)), ("Lamalif", ("La\u0304m-ᵓalif".toList, "لا".toList)),
    ("Mim", ("Mi\u0304m".toList, "م".toList)), ("Nun", ("Nu\u0304n".toList, "ن".toList)), ("Waw", ("Wa\u0304w".toList, "و".toList)),
    ("Ya", ("Ya\u0304ᵓ".toList, "ي".toList)), ("Tamarbutah", ("Ta\u0304ᵓ marbu\u0304t\u0323ah".toList, "ة".toList)),
    ("Alifmaqsurah", ("ᵓAlif maqs\u0323u\u0304rah".toList, "ى".toList))]

/-- Text of a letter with its shape (`report.py:106`). -/
def letterText (romanized arabic : Text) : Text :=
  romanized ++ " <bdo lang=\"ar\">(".toList ++ arabic ++ ")</bdo>".toList

/-- The loop over the letters (`report.py:105-109`). The names of variables are ASCII. -/
def letterGlobals (lower : Text → Text) (globals : Dict String Text) : Dict String (Text × Text) → Dict String Text
  | [] => globals
  | (k, romanized, arabic) :: rest =>
    let g := globals.set k (letterText romanized arabic)
    let g := g.set k.toLower (lower (letterText romanized arabic))
    let g := g.set (k ++ "_") romanized
    let g := g.set (k.toLower ++ "_") (lower romanized)
    letterGlobals lower g rest

/-- Other names a template can use: the arguments of `stream` (`report.py:127-135`), the macro (`index.html:404`) and
jinja's own globals. -/
def otherGlobals : List String :=
  ["corpus", "corpustotal", "layoutstats", "bokehres", "fingerOrder", "Direction", "fingerhandstats", "range", "dict", "lipsum",
    "cycler", "joiner", "namespace"]

/-! ### Files and places the page refers to -/

/-- Files shown, linked or fetched (`index.html:29,36,50,97,99,106,108,430,…,911,967`, `style.css:23,30`). -/
def pageFiles : List String :=
  ["style.css", "lulua-logo.svg", "ar-lulua.svg", "ar-lulua.pdf", "ar-lulua-w64.zip", "ar-lulua.xmodmap", "lulua_ar.kbd",
    "letterfreq.json", "triadeffort.json", "fonts/IBMPlexSansArabic-Thin.woff2", "fonts/IBMPlexSansArabic-Regular.woff2"] ++
    pageLayouts.map (· ++ "-heat.svg")

/-- The page tells the user of Windows to read this file of the archive (`index.html:99`). -/
def pageInstructions : String := "INSTALL.txt"

/-- `layouts` (`gen.sh:5`). -/
def genLayouts : List String :=
  ["ar-lulua", "ar-asmo663", "ar-linux", "ar-malas", "ar-phonetic", "ar-osman", "ar-khorshid", "ar-osx", "ar-idlebi",
    "ar-alramly", "ar-ergoarabic", "ar-qtaish"]

/-- Targets in the directory of the report (`gen.sh:139-154,180,221,230,236,249,267,276`). -/
def reportFiles : List String :=
  ["letterfreq.json", "style.css", "lulua-logo.svg", "lulua.combined.gz", "fonts/IBMPlexSansArabic-Regular.woff2",
    "fonts/IBMPlexSansArabic-Thin.woff2", "lulua_ar.kbd", "ar-lulua-w64.zip", "ar-lulua.xmodmap", "triadeffort.json", "index.html"] ++
    genLayouts.flatMap fun l => [l ++ ".svg", l ++ "-heat.svg", l ++ ".pdf"]

/-- `w64zipfile` (`gen.sh:173`). -/
def zipFiles : List String := ["System32/kbdarlulua.dll", "SysWOW64/kbdarlulua.dll", "README.txt", "lulua.reg", "install.bat"]

/-- Links within the page, and the names of plots (`index.html:442,484-494,509,…,893,921,…`). -/
def pageAnchors : List String :=
  ["related", "ar-asmo663", "ar-linux", "ar-osx", "ar-malas", "ar-phonetic", "ar-alramly", "ar-idlebi", "ar-khorshid",
    "ar-osman", "ar-qtaish", "ar-ergoarabic", "intellark", "letterfreq-div", "triadeffort-div"]

/-- `id="…"` in the page, in order. -/
def pageIds : List String :=
  ["letterfreq", "letterfreq-div", "ar-lulua-heat", "related", "triadeffort", "triadeffort-div", "ar-asmo663", "ar-osx",
    "ar-linux", "ar-alramly", "ar-idlebi", "ar-malas", "ar-khorshid", "ar-osman", "ar-qtaish", "ar-qtaish", "ar-ergoarabic",
    "ar-ergoarabic", "ar-phonetic", "intellark"]

end Lulua
