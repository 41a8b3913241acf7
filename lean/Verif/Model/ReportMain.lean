import Verif.Model.Argparse
import Verif.Model.Page

/-!
# `lulua-report` as a whole: from the words of the command line and the files to the page

What YAML and `pickle` make of a file is a parameter. All files of a kind are read before their values are used.
-/

namespace Lulua

/-- What `lulua-report` depends on: lower case, and what is in the files; there may be none of a name, and reading it may fail. -/
structure ReportWorld where
  args : ArgWorld
  lower : Text → Text
  corpus : Text → Option (Py (List (Option CorpusDoc)))
  stats : Text → Option (Py (String × LayoutStats))

/-- `for x in names: with open (x) …` (`report.py:112-120`). An option not given is `None`, over which there is no loop. -/
def readNamed {α : Type} (file : Text → Option (Py α)) : Option ArgVal → Py (List α)
  | some (.texts ts) => ts.mapM fun t =>
    match file t with
    | none => .error .fileNotFound
    | some r => r
  | _ => .error .typeError

/-- `render` (`report.py:63-137`) after parsing the command line. -/
def reportPage (w : ReportWorld) (ns : Dict String ArgVal) : Py Page := do
  let c ← readNamed w.corpus (ns.get? "corpus")
  let s ← readNamed w.stats (ns.get? "layoutstats")
  renderPage w.lower c s

/-- `render` (`report.py:63-137`). -/
def reportMain (w : ReportWorld) (argv : List Text) : Except ArgStop (Py Page) := do
  let ns ← reportProgram.start w.args argv
  .ok (reportPage w ns)

end Lulua
