import Verif.Model.Pipeline

/-!
# `lulua-write --benchmark`
-/

namespace Lulua

/-- One item with `--benchmark` (`text.py:344-347,368-370`): its texts are counted. -/
def benchItem {ι : Type} (extract : ι → Gen Text) (n : Nat) (item : ι) : Py Nat :=
  match (extract item).error with
  | none => .ok (n + (extract item).items.length)
  | some e => .error e

/-- The items a worker takes from the queue (`text.py:338-370`). -/
def benchItems {ι : Type} (extract : ι → Gen Text) : List ι → Nat → Py Nat
  | [], n => .ok n
  | i :: is, n => do
    let n ← benchItem extract n i
    benchItems extract is n

/-- What the worker puts into `outq` (`text.py:332-377`) with `--benchmark`; `fresh` is `makeCombined (keyboard)`. -/
def benchWorker {ι : Type} (fresh : AllStats) (extract : ι → Gen Text) (items : List ι) : Py (Option AllStats) := do
  let n ← benchItems extract items 0
  .ok (if n > 0 then some fresh else none)

/-- What `lulua-write --benchmark` has written when it ends (`text.py:447-453`). -/
def CorpusRun.benchOutput (fresh : AllStats) (r : CorpusRun) : Py (List AllStats) := do
  let rs ← r.final.results.mapM (benchWorker fresh r.extract)
  .ok (rs.filterMap id)

end Lulua
