import Verif.Model.EffortPlot

/-!
# What C121 is about
-/

namespace Lulua.Spec
open Lulua

/-- What is known about the palettes of bokeh called `Set3`: there is one for three to twelve colors, all different. -/
structure PaletteOk (set3 : Nat → Option (List String)) : Prop where
  sizes : ∀ n, (∃ cs, set3 n = some cs) ↔ 3 ≤ n ∧ n ≤ 12
  colors : ∀ n cs, set3 n = some cs → cs.length = n ∧ cs.Nodup

/-- The lines that can be seen. -/
def seen (v : PlotView) : List String := (v.shown.filter fun l => l.2).map Prod.fst

/-- A point lies within the axes. -/
def InView (v : PlotView) (x y : Rat) : Prop := v.x.1 ≤ x ∧ x ≤ v.x.2 ∧ v.y.1 ≤ y ∧ y ≤ v.y.2

end Lulua.Spec
