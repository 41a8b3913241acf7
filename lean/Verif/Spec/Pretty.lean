import Verif.Model.Stats
import Mathlib.Data.List.Perm.Basic

/-!
# Tables with shares
-/

namespace Lulua.Spec
open Lulua

/-- `rows` are the entries of `d`, each with its share of the total in percent. -/
structure ShareTable {κ : Type} (d : List (κ × Nat)) (rows : List (κ × Nat × Rat)) : Prop where
  entries : (rows.map fun r => (r.1, r.2.1)).Perm d
  positive : rows ≠ [] → 0 < (d.map Prod.snd).sum
  share : ∀ r ∈ rows, r.2.2 * (d.map Prod.snd).sum = r.2.1 * 100
  hundred : rows ≠ [] → (rows.map fun r => r.2.2).sum = 100

/-- Number of runs of length `n` of both hands. -/
def runsOf (hands : List (Direction × Dict Nat Nat)) (n : Nat) : Nat := (hands.map fun h => h.2.count n).sum

/-- Weighted mean of the efforts of the triads. -/
def MeanEffort (effort : Triad → Rat) (triads : List (Triad × Nat)) (v : Rat) : Prop :=
  v * (triads.map Prod.snd).sum = (triads.map fun x => x.2 * effort x.1).sum ∧ ((triads.map Prod.snd).sum = 0 → v = 0)

end Lulua.Spec
