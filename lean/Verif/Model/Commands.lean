import Verif.Model.Layout
import Verif.Data.Keyboards

/-!
# The commands that read statistics, and the keyboards they load
-/

namespace Lulua

/-- `defaultKeyboards[…]` and `defaultLayouts[…].specialize (keyboard)`, with which all commands begin (`text.py:410-411`,
`stats.py:257-258,306-307,326-327`, `optimize.py:288-289`, `plot.py:61-62,137-138,186-187`), in a new process. Unpickling creates no
buttons, so it does not matter that statistics are read first. -/
def loadWith (k : KeyboardData) (d : LayoutData) : Py (InternTable × PhysicalKeyboard × KeyboardLayout) := do
  let (t, kb, _) ← PhysicalKeyboard.deserialize .initial k
  let L ← (GenericLayout.deserialize d).specialize t kb
  .ok (t, kb, L)

/-- The intern table of a worker of `write`, which has that of the main process (`text.py:422-427`) and loads another keyboard
(`text.py:334`). -/
def workerTable (k : KeyboardData) : Py InternTable := do
  let (t, _, _) ← PhysicalKeyboard.deserialize .initial k
  let (t, _, _) ← PhysicalKeyboard.deserialize t Data.ibmpc105
  .ok t

/-- Commands that read statistics (`stats.py:414-446`, `optimize.py:263`). -/
inductive Command
  | pretty | letterfreq | triadfreq | triadEffortData | triadEffortPlot | keyHeatmap | layoutstats | optimize
  deriving DecidableEq

/-- The keyboard a command loads, where `k` is the one named by `-k` (`stats.py:257,306,326`, `optimize.py:288`; `plot.py:61,137,186`).
`triadEffortPlot` reads what `triadEffortData` has written. -/
def Command.keyboard (k : KeyboardData) : Command → KeyboardData
  | .letterfreq | .triadfreq | .triadEffortData | .triadEffortPlot => Data.ibmpc105
  | _ => k

end Lulua
