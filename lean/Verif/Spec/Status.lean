import Verif.Model.Status

/-!
# Specification vocabulary for the progress display
-/

namespace Lulua.Spec
open Lulua

variable {ι : Type}

/-- The items a worker has processed and not delivered. -/
def workerProcessed : WState ι → List ι
  | .idle l => l
  | .busy l _ => l
  | .finishing (.ok l) => l
  | _ => []

/-- The items of a result. -/
def resultProcessed : Res ι → List ι
  | .ok l => l
  | .exc _ => []

/-- The items processed so far, wherever their statistics are: written, on their way, or with a worker. -/
def processed (p : Pool ι) : List ι :=
  p.results.flatten ++ (p.outq.map resultProcessed).flatten ++ (p.workers.map workerProcessed).flatten

/-- The number of texts announced and not shown yet. -/
def announced (q : List (Option Nat)) : Nat := (q.map fun n => n.getD 0).sum

end Lulua.Spec
