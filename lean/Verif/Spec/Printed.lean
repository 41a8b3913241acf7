import Verif.Spec.Page

/-!
# How figures are read
-/

namespace Lulua.Spec
open Lulua

/-- Digits, a point, digits. -/
def readPlain (s : Text) : Option Rat :=
  match s.dropWhile (· ≠ '.') with
  | [] => none
  | _ :: f => (wholeNumber (s.takeWhile (· ≠ '.'))).bind fun n =>
      (wholeNumber f).map fun m : Nat => (n : Rat) + (m : Rat) / 10 ^ f.length

/-- A number with decimals, which may be negative. -/
def readDecimal : Text → Option Rat
  | '-' :: s => (readPlain s).map fun v => -v
  | s => readPlain s

/-- `v` is the number with `d` decimals closest to `x`; of two equally close ones that with an even last digit. -/
structure Rounded (d : Nat) (x v : Rat) : Prop where
  decimals : ∃ k : Int, v * 10 ^ d = k ∧ (|v - x| * 10 ^ d = 1 / 2 → Even k)
  closest : |v - x| * 10 ^ d ≤ 1 / 2

/-- The text shows the number, with `d` decimals. -/
def Shows (d : Nat) (x : Rat) (t : Text) : Prop := ∃ v, readDecimal t = some v ∧ Rounded d x v

/-- The text shows the number as a percentage. -/
def ShowsPercent (d : Nat) (x : Rat) (t : Text) : Prop := ∃ s, t = s ++ ['%'] ∧ Shows d x s

/-- The parts of a line between blanks; `part` is what has been read of the current one. -/
def fieldsFrom (part : Text) : Text → List Text
  | [] => if part = [] then [] else [part]
  | c :: s => if c = ' ' then (if part = [] then [] else [part]) ++ fieldsFrom [] s else fieldsFrom (part ++ [c]) s

/-- The parts of a line between blanks. -/
def fields (t : Text) : List Text := fieldsFrom [] t

end Lulua.Spec
