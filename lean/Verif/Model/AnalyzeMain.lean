import Verif.Model.Analyze
import Verif.Model.EffortPlot
import Verif.Model.Pretty
import Verif.Model.RenderMain
import Verif.Data.Tables

/-!
# `lulua-analyze` as a whole: from the words of the command line to the figures

The commands that read a keyboard: `pretty`, `letterfreq`, `triadfreq`, `triadeffortdata`, `keyheatmap`, `layoutstats` and `combine`. The
layout `null` of `combine` (`stats.py:240`) is the packaged one.
-/

namespace Lulua

/-- What `lulua-analyze` depends on besides the disk and standard input. -/
structure AnalyzeWorld extends LoadWorld where
  display : UniData
  letterOther : Char → Bool

/-- What a command writes. -/
inductive Analysis
  | pretty (p : Pretty) (effort : Rat)
  | letters (rows : List LetterRow)
  | triads (rows : List (TextTriad × Nat × Rat))
  | curve (c : Curve)
  | heat (total : Nat) (presses : Dict String Nat)
  | figures (layout : Text) (s : LayoutStats)
  | combined (s : AllStats)

/-- What standard input has: pickles, and the exception that ends reading them if it is not the end of the file. -/
structure Pickles where
  read : List AllStats
  error : Option PyErr

/-- `pickle.load (sys.stdin.buffer)`; nothing at all is `EOFError`. -/
def Pickles.first (p : Pickles) : Py AllStats :=
  match p.read, p.error with
  | s :: _, _ => .ok s
  | [], some e => .error e
  | [], none => .error .otherError

/-- `unpickleAll (sys.stdin.buffer)` (`stats.py:232-237`). -/
def Pickles.all (p : Pickles) : Py (List AllStats) :=
  match p.error with
  | some e => .error e
  | none => .ok p.read

/-- `defaultKeyboards['ibmpc105']` and `defaultLayouts[args.layout].specialize (keyboard)` (`plot.py:61-62,137-138,186-187`). -/
def loadPlot (w : LoadWorld) (d : Disk) (ns : Dict String ArgVal) : Py (InternTable × PhysicalKeyboard × KeyboardLayout) :=
  loadNamed w d (ns.set "keyboard" (.text "ibmpc105".toList))

/-- `Carpalx (models['mod01'], writer)` (`stats.py:299`, `plot.py:143,192`). -/
def mod01Env (x : InternTable × PhysicalKeyboard × KeyboardLayout) : CarpalxEnv :=
  ⟨Data.mod01, getHandFinger Data.fingermap x.1, x.1.nameOf, x.2.1.getRow⟩

/-- `k.name` (`stats.py:314-315`) for a button of the table. -/
def tableName (t : InternTable) (b : Button) : String := (t.idToName.get? b).getD ""

/-- `keyHeatmap` (`stats.py:309-316`). A button that is not in the table has no name (`keyboard.py:66-68`). -/
def heatFigures (t : InternTable) (buttons : Dict Button Nat) : Py (Nat × Dict String Nat) := do
  let _ ← buttons.mapM fun e => t.nameOf e.1
  keyHeatmap (tableName t) buttons

/-- `sorter[args.sort]` (`plot.py:124-129,166`). -/
def argSort : Option ArgVal → Py SortBy
  | some (.text t) =>
    if t = "weight".toList then .ok .weight else if t = "effort".toList then .ok .effort
    else if t = "combined".toList then .ok .combined else .error .keyError
  | _ => .error .keyError

/-- `args.cutoff`. -/
def argRat : Option ArgVal → Py Rat
  | some (.num q) => .ok q
  | _ => .error .typeError

/-- `args.limit`. -/
def argInt : Option ArgVal → Py Int
  | some (.int n) => .ok n
  | _ => .error .typeError

/-- `args.func (args)` (`stats.py:446`) for the commands above. -/
def analyze (w : AnalyzeWorld) (d : Disk) (p : Pickles) (ns : Dict String ArgVal) : Py Analysis :=
  match ns.get? "func" with
  | some (.func f) =>
    if f = "combine" then do
      let (t, kb) ← byArg (keyboardLoader w.toLoadWorld d) "data/keyboards" (ns.get? "keyboard")
      let fresh ← AllStats.init t kb
      let ss ← p.all
      .ok (.combined (fresh.combine ss))
    else if f = "pretty" then do
      let s ← p.first
      let x ← loadNamed w.toLoadWorld d ns
      let r ← pretty w.display x.2.2 (mod01Env x) s
      .ok (.pretty r.1 r.2)
    else if f = "keyHeatmap" then do
      let s ← p.first
      let x ← loadNamed w.toLoadWorld d ns
      let r ← heatFigures x.1 s.simple.buttons
      .ok (.heat r.1 r.2)
    else if f = "layoutstats" then do
      let s ← p.first
      let x ← loadNamed w.toLoadWorld d ns
      let r ← layoutstats (getHandFinger Data.fingermap x.1) x.2.2 s.simple
      .ok (.figures (argText ns "layout") r)
    else if f = "letterfreq" then do
      let s ← p.first
      let x ← loadPlot w.toLoadWorld d ns
      let r ← letterfreq x.2.2 w.letterOther s.simple.combinations
      .ok (.letters r)
    else if f = "triadEffortData" then do
      let s ← p.first
      let x ← loadPlot w.toLoadWorld d ns
      let r ← triadEffortCurve x.2.2 (mod01Env x) s.triads.triads
      .ok (.curve r)
    else if f = "triadfreq" then do
      let limit ← argInt (ns.get? "limit")
      let s ← p.first
      let x ← loadPlot w.toLoadWorld d ns
      let cutoff ← argRat (ns.get? "cutoff")
      let sort ← argSort (ns.get? "sort")
      let r ← triadfreq x.2.2 (mod01Env x) s.triads.triads cutoff sort (ns.get? "reverse" = some (.flag true)) limit
      .ok (.triads r)
    else .error .otherError
  | _ => .error .otherError

/-- `main` (`stats.py:409-446`) for the commands above. -/
def analyzeMain (w : AnalyzeWorld) (d : Disk) (p : Pickles) (argv : List Text) : Except ArgStop (Py Analysis) := do
  let ns ← analyzeProgram.start w.args argv
  .ok (analyze w d p ns)

end Lulua
