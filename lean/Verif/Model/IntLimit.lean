import Verif.Model.OptArgs

/-!
# The limit on the number of digits of `int ()`

Recent versions of python refuse to convert a text with more than `sys.get_int_max_str_digits ()` digits (4300 unless changed, 0 is no
limit). `Model/OptArgs.lean` has no limit; here are the functions of `lulua/optimize.py` with one.
-/

namespace Lulua

/-- The digits of a text, without sign and underscores. -/
def intDigitCount (u : UniNum) (s : Text) : Nat := (intSign (pyStrip u.space s)).2.countP fun c => (u.digit c).isSome

/-- `int (s)` with a limit. Both errors are `ValueError`. -/
def pyIntLimited (u : UniNum) (limit : Nat) (s : Text) : Py Int :=
  if limit ≠ 0 ∧ limit < intDigitCount u s then .error .valueError else pyInt u s

/-- Loop body of `parsePin` (`optimize.py:255-259`). -/
def parseOnePinLimited (u : UniNum) (limit : Nat) (p : Text) : Py (Int × Option Text) := do
  let x := splitFirst ',' p
  let layer ← pyIntLimited u limit x.1
  .ok (layer, x.2)

/-- `parsePin` (`optimize.py:240-261`). -/
def parsePinLimited (u : UniNum) (limit : Nat) (s : Text) : Py (List (Int × Option Text)) :=
  (s.splitOn ';').mapM (parseOnePinLimited u limit)

/-- `parseMutation` (`optimize.py:263-267`). -/
def parseMutationLimited (u : UniNum) (limit : Nat) (s : Text) : Py ((Int × Text) × (Int × Text)) := do
  let x ← splitTwo ':' s
  let a ← splitTwo ',' x.1
  let b ← splitTwo ',' x.2
  let i ← pyIntLimited u limit a.1
  let j ← pyIntLimited u limit b.1
  .ok ((i, a.2), (j, b.2))

end Lulua
