import Verif.Py.Core
import Mathlib.Data.List.Infix

/-!
# Model of `fnmatch` (python's standard library), as used in `optimize.py:334`

Only patterns without `[`; sets of characters are not modelled.
-/

namespace Lulua

/-- `fnmatch (name, pattern)`. -/
def globMatch : List Char → List Char → Bool
  | [], n => n.isEmpty
  | p :: ps, n =>
    if p = '*' then n.tails.any fun s => globMatch ps s
    else match n with
      | [] => false
      | c :: n => (decide (p = '?') || decide (p = c)) && globMatch ps n

end Lulua
