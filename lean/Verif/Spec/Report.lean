import Mathlib.Data.Rat.Floor
import Mathlib.Algebra.Order.Field.Power
import Verif.Model.Report

/-!
# Specification for the numbers in reports
-/

namespace Lulua.Spec
open Lulua

/-- The number a `Decimal` stands for. -/
def decVal (x : Dec) : Rat := (if x.neg then -1 else 1) * x.coeff * (10 : Rat) ^ x.exp

/-- The digits 0–9, the comma and the dot. -/
def western : List Char := ['0', '1', '2', '3', '4', '5', '6', '7', '8', '9', ',', '.']

/-- The Arabic-Indic digits (U+0660 …), the Arabic thousands separator and the Arabic decimal separator. -/
def arabic : List Char := ((List.range 10).map fun d => Char.ofNat (0x660 + d)) ++ [Char.ofNat 0x66C, Char.ofNat 0x66B]

/-- Back to western characters. -/
def toWestern (c : Char) : Char := (western[arabic.idxOf c]?).getD c

end Lulua.Spec
