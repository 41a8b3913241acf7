import Verif.Model.Plot

/-!
# `triadEffortPlot` of `lulua/plot.py`

What the plot consists of: its lines, and what is shown after a button of it is clicked. Styles, the dashed diagonal and the
drawing itself, which is done by bokeh, are left out. The palette `Set3` of bokeh is a parameter.
-/

namespace Lulua

/-- What `triadEffortData` writes (`plot.py:222`); of the layout only its name is used. -/
structure Curve where
  x : Option (List Rat)
  y : Option (List Rat)
  layout : String
  deriving DecidableEq

/-- A line (`plot.py:250-251`). -/
structure PlotLine where
  x : Option (List Rat)
  y : Option (List Rat)
  color : String
  label : String
  deriving DecidableEq

/-- Start and end of an axis. -/
abbrev AxisRange := Rat × Rat

/-- The plot and what its buttons need (`plot.py:236-288`). -/
structure EffortPlot where
  lines : Dict String PlotLine
  range : AxisRange × AxisRange
  labels : List String
  visible : Dict Nat (List String)
  ranges : Dict Nat (AxisRange × AxisRange)
  active : Nat

/-- `triadEffortData` with the layout (`plot.py:172-222`). -/
def triadEffortCurve (L : KeyboardLayout) (env : CarpalxEnv) (triads : Dict Triad Nat) : Py Curve := do
  let (x, y) ← triadEffortData L env triads
  .ok ⟨x, y, L.name⟩

/-- The loop over the curves (`plot.py:246-251`). -/
def addLines (lines : Dict String PlotLine) : List (Curve × String) → Py (Dict String PlotLine)
  | [] => .ok lines
  | (o, color) :: rest =>
    if lines.contains o.layout then .error .assertionError
    else addLines (lines.set o.layout ⟨o.x, o.y, color, o.layout⟩) rest

/-- `visible` (`plot.py:264-268`). -/
def plotVisible (lines : Dict String PlotLine) : Dict Nat (List String) :=
  [ (0, lines.keys), (1, ["ar-asmo663", "ar-linux", "ar-osx"]),
    (2, ["ar-lulua", "ar-ergoarabic", "ar-malas", "ar-linux", "ar-osx"]) ]

/-- `ranges` (`plot.py:269-273`). -/
def plotRanges : Dict Nat (AxisRange × AxisRange) :=
  [ (0, (0, 1), (0, 1)), (1, (0, 1 / 2), (0, 2 / 5)), (2, (0, 1 / 2), (0, 2 / 5)) ]

/-- `triadEffortPlot` (`plot.py:224-292`). -/
def triadEffortPlot (set3 : Nat → Option (List String)) (data : List Curve) : Py EffortPlot :=
  match set3 data.length with
  | none => .error .keyError
  | some colors => do
    let lines ← addLines [] (data.zip colors)
    .ok { lines := lines, range := ((0, 1), (0, 1)), labels := ["All", "Standard", "Usable"],
          visible := plotVisible lines, ranges := plotRanges, active := 0 }

/-- What is seen: whether each line is visible, and the ranges of the axes. -/
structure PlotView where
  shown : Dict String Bool
  x : AxisRange
  y : AxisRange

/-- Before anything is clicked (`plot.py:240-241,274`). -/
def EffortPlot.initial (p : EffortPlot) : PlotView := ⟨p.lines.map fun l => (l.1, true), p.range.1, p.range.2⟩

/-- A click on a button (`plot.py:279-287`); `none` if the script fails. -/
def EffortPlot.click (p : EffortPlot) (active : Nat) : Option PlotView := do
  let names ← p.visible.get? active
  let (x, y) ← p.ranges.get? active
  some ⟨p.lines.map fun l => (l.1, names.contains l.1), x, y⟩

end Lulua
