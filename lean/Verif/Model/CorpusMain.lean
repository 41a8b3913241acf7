import Verif.Model.AnalyzeMain
import Verif.Model.LatinIme
import Verif.Model.Page

/-!
# `lulua-analyze corpusstats` and `lulua-analyze latinime` as a whole

These two commands load no keyboard. What YAML makes of the metadata is a parameter, and so are the documents on the disk.
-/

namespace Lulua

/-- What the commands depend on: what `yaml.safe_load` makes of a file that could be opened. An empty file is no document; several documents,
or one that is no mapping, are an exception (`meta['stats'] = …` raises it for the latter). -/
structure CorpusWorld where
  args : ArgWorld
  metadata : Text → Py (Option CorpusDoc)

/-- `corpusStats` (`stats.py:396-404`): the document printed. -/
def corpusStats (w : CorpusWorld) (p : Pickles) (ns : Dict String ArgVal) : Py CorpusDoc := do
  let s ← p.first
  match ns.get? "metadata" with
  | some (.file f) => do
    let m ← w.metadata f
    match m with
    | some doc => .ok { doc with stats := some (corpusTotals s) }
    | none => .error .typeError
  | _ => .error .otherError

/-- `latinImeDict` (`stats.py:386-394`): the words and numbers of the lines. A count of zero has no logarithm; the lines before it are left out
of the model then. If all counts are zero, so is the number they are divided by. -/
noncomputable def latinWords (p : Pickles) : Py (List (Text × Int)) := do
  let s ← p.first
  if s.words.words.any (fun e => e.2 = 0) then .error (if s.words.words.all (fun e => e.2 = 0) then .zeroDivision else .valueError)
  else .ok (latinImeDict s.words.words)

/-- `main` (`stats.py:409-446`) for `corpusstats`. -/
def corpusMain (w : CorpusWorld) (p : Pickles) (argv : List Text) : Except ArgStop (Py CorpusDoc) := do
  let ns ← analyzeProgram.start w.args argv
  .ok (if ns.get? "func" = some (.func "corpusStats") then corpusStats w p ns else .error .otherError)

/-- `main` (`stats.py:409-446`) for `latinime`. -/
noncomputable def latinMain (w : ArgWorld) (p : Pickles) (argv : List Text) : Except ArgStop (Py (List (Text × Int))) := do
  let ns ← analyzeProgram.start w argv
  .ok (if ns.get? "func" = some (.func "latinImeDict") then latinWords p else .error .otherError)

end Lulua
