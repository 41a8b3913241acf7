import Verif.Model.Pool
import Verif.Model.Analyze

/-!
# Model of the part of `gen.sh` that makes the statistics of the corpora

Every corpus has a rule `… | lulua-write $layout … | lulua-analyze combine > $out` (`gen.sh:55-85`); the files of all
corpora are put together by the rule `combine` (`gen.sh:87-88,219`). ninja runs the commands with `/bin/sh -c`, for which
a pipeline succeeds if its last command does. Pickles are represented by the statistics inside; that `cat` of several is
read back as several is the loop of `unpickleAll` (`stats.py:233-238`).
-/

namespace Lulua

/-- One corpus: the lines `lulua-write` reads, what its filters extract from a line, the number of workers, and the state
of all processes at the end. -/
structure CorpusRun where
  lines : List Text
  extract : Text → Gen Text
  jobs : Nat
  final : Pool Text

namespace CorpusRun

/-- What `lulua-write` has written when it ends (`text.py:447-453`): the statistics of the workers whose result was taken
from the queue. Workers without a text write nothing. -/
def output (su : Setup) (r : CorpusRun) : Py (List AllStats) := do
  let rs ← r.final.results.mapM (writeWorker su r.extract)
  .ok (rs.filterMap id)

/-- The file made by the rule (`gen.sh:55-85`). `lulua-analyze combine` does not know how `lulua-write` ended. -/
def pickle (su : Setup) (r : CorpusRun) : Py AllStats := do
  let rs ← r.output su
  .ok (AllStats.combine su.fresh rs)

end CorpusRun

/-- `all.pickle` (`gen.sh:87-88,219`). -/
def allPickle (su : Setup) (runs : List CorpusRun) : Py AllStats := do
  let files ← runs.mapM (CorpusRun.pickle su)
  .ok (AllStats.combine su.fresh files)

/-- The sums of the report (`report.py:121-123`) over the metadata of all corpora, which `corpusstats` takes from the
files of the corpora (`gen.sh:99-100,258-265`). -/
def reportTotals (su : Setup) (runs : List CorpusRun) : Py (Nat × Nat) := do
  let files ← runs.mapM (CorpusRun.pickle su)
  corpusTotal (files.map fun f => some (corpusTotals f))

end Lulua
