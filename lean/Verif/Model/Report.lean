import Mathlib.Algebra.Order.Ring.Unbundled.Rat
import Mathlib.Algebra.Order.Group.Unbundled.Abs
import Mathlib.Data.Nat.Log
import Verif.Py.Core

/-!
# `lulua/report.py`: numbers

`decimal.Decimal` and `fractions.Fraction` of the standard library are modelled as far as they are used. The context is
the default one: 28 digits, half to even. The limits of the exponent are left out, as are NaN and infinities.
-/

namespace Lulua

/-- A finite `Decimal`: `± coeff * 10^exp`. -/
structure Dec where
  neg : Bool
  coeff : Nat
  exp : Int
  deriving DecidableEq, Repr

/-- `n / d` rounded to an integer, halves to even. -/
def halfEven (n d : Nat) : Nat :=
  let q := n / d
  let r := n % d
  if d < 2 * r ∨ (2 * r = d ∧ q % 2 = 1) then q + 1 else q

namespace Dec

/-- `round (i, 1)`: `quantize` to one decimal, an error if that takes more than 28 digits. -/
def roundTenth (i : Dec) : Py Dec :=
  let c := if -1 ≤ i.exp then i.coeff * 10 ^ (i.exp + 1).toNat else halfEven i.coeff (10 ^ (-1 - i.exp).toNat)
  if 10 ^ 28 ≤ c then .error .invalidOperation else .ok ⟨i.neg, c, -1⟩

/-- `i / Decimal (1000)`: the result has at most 28 digits. -/
def div1000 (i : Dec) : Dec :=
  if i.coeff < 10 ^ 28 then ⟨i.neg, i.coeff, i.exp - 3⟩
  else
    let k := Nat.log 10 i.coeff - 27
    ⟨i.neg, halfEven i.coeff (10 ^ k), i.exp - 3 + k⟩

/-- `i >= Decimal (1000)` for a result of `roundTenth`. -/
def ge1000 (i : Dec) : Bool := !i.neg && decide (10000 ≤ i.coeff)

end Dec

/-- `units` (`report.py:35-36`). -/
def approxUnits (lang : String) : Py (List String) :=
  Dict.getItem [("en", ["", "thousand", "million", "billion"]), ("ar", ["", "ألف", "مليون", "مليار"])] lang

/-- The loop and the result of `approx` (`report.py:39-42`). -/
def approxLoop : List String → Dec → Py (Dec × String)
  | [], i => do
    let _ ← i.roundTenth
    .error .indexError
  | [u], i => do
    let r ← i.roundTenth
    .ok (r, u)
  | u :: us, i => do
    let r ← i.roundTenth
    if r.ge1000 then approxLoop us i.div1000 else .ok (r, u)

/-- `approx` (`report.py:32-42`) of a finite number. -/
def approx (i : Dec) (lang : String) : Py (Dec × String) := do
  let units ← approxUnits lang
  approxLoop units i

/-- `numspace` (`report.py:49-51`). -/
def numspace (s : Text) : Text := s.map fun c => if c = ' ' then '\u2007' else c

/-- `m` (`report.py:60`). -/
def arabTable : List (Char × Char) :=
  [('0', '٠'), ('1', '١'), ('2', '٢'), ('3', '٣'), ('4', '٤'), ('5', '٥'), ('6', '٦'), ('7', '٧'), ('8', '٨'), ('9', '٩'),
    (',', '٬'), ('.', '٫')]

/-- `arabnum` (`report.py:53-61`). -/
def arabnum (s : Text) : Text := s.map fun c => (Dict.get? arabTable c).getD c

/-- Variables of the loop of `Fraction.limit_denominator`. -/
structure Convergents where
  p0 : Int
  q0 : Int
  p1 : Int
  q1 : Int
  n : Int
  d : Int

/-- The loop of `Fraction.limit_denominator`, up to the `break`. `fuel` bounds the number of rounds. -/
def limitDenominatorLoop (m : Int) : Nat → Convergents → Py Convergents
  | 0, _ => .error .otherError
  | fuel + 1, c =>
    if c.d = 0 then .error .zeroDivision
    else
      let a := c.n / c.d
      let q2 := c.q0 + a * c.q1
      if q2 > m then .ok c
      else limitDenominatorLoop m fuel ⟨c.p1, c.q1, c.p0 + a * c.p1, q2, c.d, c.n - a * c.d⟩

/-- `Fraction.limit_denominator`. -/
def limitDenominator (x : Rat) (m : Int) : Py Rat :=
  if m < 1 then .error .valueError
  else if (x.den : Int) ≤ m then .ok x
  else do
    let c ← limitDenominatorLoop m (x.den + 2) ⟨0, 1, 1, 0, x.num, x.den⟩
    if c.q1 = 0 then .error .zeroDivision
    else
      let k := (m - c.q0) / c.q1
      if c.q0 + k * c.q1 = 0 then .error .zeroDivision
      else
        let bound1 : Rat := ((c.p0 + k * c.p1 : Int) : Rat) / ((c.q0 + k * c.q1 : Int) : Rat)
        let bound2 : Rat := (c.p1 : Rat) / (c.q1 : Rat)
        .ok (if |bound2 - x| ≤ |bound1 - x| then bound2 else bound1)

/-- `fraction` (`report.py:44-47`) of the number `n`. -/
def fraction (n : Rat) (maxdenom : Int) : Py Text := do
  let f ← limitDenominator n maxdenom
  .ok ((toString f.num).toList ++ '\u2044' :: (toString f.den).toList)

end Lulua
