import Verif.Model.WriteMain
import Verif.Spec.Pipeline
import Verif.Spec.RenderMain

/-!
# Specification: using `lulua-write`
-/

namespace Lulua.Spec
open Lulua

/-- The words of a command. -/
def writeWords (os : List WriteOpt) (l : Text) (names : List String) : List Text :=
  os.flatMap (·.words) ++ l :: names.map String.toList

/-- The keyboard meant: the last one given, or else the usual one. -/
def writeKeyboard (os : List WriteOpt) : Text := (lastOf WriteOpt.keyboard? os).getD "ibmpc105".toList

/-- The number of workers: the last one given, or else one for each processor. -/
def workersOf (w : ArgWorld) (os : List WriteOpt) : Nat := (lastOf WriteOpt.jobs? os).getD w.cpus

/-- The texts filters make of standard input, in order. -/
def inputTexts (w : FilterWorld) (fs : List FilterName) (lines : List Text) : List Text := lines.flatMap fun l => (w.extract fs l).items

/-- The processes have got here, if a line fails exactly if its filters do, and can do nothing else. -/
def Ends (w : FilterWorld) (fs : List FilterName) (jobs : Nat) (lines : List Text) (final : Pool Text) : Prop :=
  PoolReachable jobs lines (fun l => (w.extract fs l).error ≠ none) False False final ∧
    Stuck jobs (fun l => (w.extract fs l).error ≠ none) False False final

end Lulua.Spec
