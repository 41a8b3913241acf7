import Mathlib.Analysis.SpecialFunctions.Log.Base
import Mathlib.Algebra.Order.Round
import Verif.Model.Stats

/-!
# Model of `latinImeDict` (`lulua/stats.py`)

Floating point numbers are exact: the logarithm is that of the real numbers.
-/

namespace Lulua

/-- Python's `round` to an integer: halves to even. -/
noncomputable def pyRound (x : ℝ) : Int :=
  if Int.fract x = 1 / 2 then (if 2 ∣ ⌊x⌋ then ⌊x⌋ else ⌊x⌋ + 1) else round x

/-- `f` (`stats.py:378-384`). -/
noncomputable def imeF (p : ℚ) : Int := 255 + pyRound (Real.logb (23 / 20) p)

/-- The lines of the dictionary (`stats.py:391-394`): words and their `f`, the most frequent first. `sorted` with
`reverse` keeps the order of equal elements. -/
noncomputable def latinImeDict (words : Dict Text Nat) : List (Text × Int) :=
  (words.insertionSort fun a b => b.2 ≤ a.2).map fun e =>
    (e.1, imeF ((e.2 : ℚ) / ((words.map Prod.snd).sum : Nat)))

/-- A line (`stats.py:394`). -/
def imeLine (w : Text) (f : Int) : Text := " word=".toList ++ w ++ ",f=".toList ++ (toString f).toList

end Lulua
