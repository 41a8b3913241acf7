import Verif.Model.OptimizeMain
import Verif.Spec.RenderMain
import Verif.Spec.Shipped

/-!
# Specification: using `lulua-optimize`
-/

namespace Lulua.Spec
open Lulua

/-- The keyboard meant: the last one given, or else the usual one. -/
def optKeyboard (os : List OptimizeOpt) : Text := (lastOf OptimizeOpt.keyboard? os).getD "ibmpc105".toList

/-- The effort model meant. -/
def optModel (os : List OptimizeOpt) : ModelParams :=
  if lastOf OptimizeOpt.model? os = some "salvo".toList then Data.salvo else Data.mod01

/-- What the optimizer is asked to do by options: of each kind the last one counts, but of mutations all. -/
def optMeant (w : OptimizeWorld) (os : List OptimizeOpt) (triads : List (Triad × Rat))
    (x : InternTable × PhysicalKeyboard × KeyboardLayout) : OptArgs where
  table := x.1
  keyboard := x.2.1
  layout := x.2.2
  env := shippedEnv (optModel os) x.1 x.2.1
  triads := triads
  triadLimit := (lastOf OptimizeOpt.triadLimit? os).getD 0
  steps := (lastOf OptimizeOpt.steps? os).getD 10000
  randomize := (lastOf OptimizeOpt.randomize? os).isSome
  pin := ((lastOf OptimizeOpt.pin? os).getD []).map fun p => (p.1, p.2.map String.ofList)
  mutations := (os.filterMap OptimizeOpt.mutate?).map fun m => ((m.1.1, String.ofList m.1.2), (m.2.1, String.ofList m.2.2))
  fnmatch := w.fnmatch
  enum := w.enum

/-- The words of a command. -/
def optWords (os : List OptimizeOpt) : List Text := os.flatMap (·.words)

end Lulua.Spec
