import Verif.Model.Analyze
import Verif.Model.Plot
import Verif.Model.Render

/-!
# Model of `pretty` (`stats.py:254-301`)

The numbers that are printed, without their format. Shares are exact percentages.
-/

namespace Lulua

/-- `sorted (d.items (), key=itemgetter (1))`. -/
def byCount {κ : Type} (d : List (κ × Nat)) : List (κ × Nat) := pySorted (fun e => (e.2 : Rat)) false d

/-- `sorted (dist.items (), key=itemgetter (0))`. -/
def byKey (d : List (Nat × Nat)) : List (Nat × Nat) := pySorted (fun e => (e.1 : Rat)) false d

/-- The rows of a table with their share `v/total*100`. -/
def shareRows {κ : Type} (total : Nat) (rows : List (κ × Nat)) : Py (List (κ × Nat × Rat)) :=
  rows.mapM fun e => do
    let s ← pyDiv e.2 total
    .ok (e.1, e.2, s * 100)

/-- A row of the table of combinations (`stats.py:270-272`). -/
structure CombinationRow where
  rank : Int
  text : Text
  comb : Comb
  count : Nat
  share : Rat
  deriving DecidableEq

/-- `displayText (layout.getText (k))`, formatted with `:4s`, for which `None` is an error (`stats.py:271-272`). -/
def combinationText (u : UniData) (L : KeyboardLayout) (c : Comb) : Py Text := do
  let v ← L.getText c
  match ← displayVal u (some v) with
  | some t => .ok t
  | none => .error .typeError

/-- The loop over the combinations (`stats.py:270-272`); `n` is the number of combinations, `i` that of rows so far. -/
def combinationRows (u : UniData) (L : KeyboardLayout) (total : Nat) (n i : Int) : List (Comb × Nat) → Py (List CombinationRow)
  | [] => .ok []
  | (c, v) :: rest => do
    let t ← combinationText u L c
    let s ← pyDiv v total
    let rows ← combinationRows u L total n (i + 1) rest
    .ok (⟨n - i, t, c, v, s * 100⟩ :: rows)

/-- The loop over the hands (`stats.py:279-284`): the tables of the hands, and `combined`. -/
def handTables : List (Direction × Dict Nat Nat) → Dict Nat Nat →
    Py (List (Direction × List (Nat × Nat × Rat)) × Dict Nat Nat)
  | [], combined => .ok ([], combined)
  | (h, dist) :: rest, combined => do
    let rows ← shareRows (dist.map Prod.snd).sum (byKey dist)
    let (tables, c) ← handTables rest ((byKey dist).foldl (fun d e => d.bump e.1 e.2) combined)
    .ok ((h, rows) :: tables, c)

/-- Everything `pretty` prints before it rates the triads. -/
structure Pretty where
  presses : Nat
  buttons : List (Button × Nat × Rat)
  combinationTotal : Nat
  combinations : List CombinationRow
  unknown : List (Char × Nat)
  hands : List (Direction × List (Nat × Nat × Rat))
  combined : List (Nat × Nat × Rat)
  triads : List (Triad × Nat)
  totalWords : Nat
  words : List (Text × Nat × Rat)

/-- The tables of `pretty` (`stats.py:261-297`). -/
def prettyTables (u : UniData) (L : KeyboardLayout) (s : AllStats) : Py Pretty := do
  let presses := (s.simple.buttons.map Prod.snd).sum
  let buttons ← shareRows presses (byCount s.simple.buttons)
  let combinationTotal := (s.simple.combinations.map Prod.snd).sum
  let combinations ← combinationRows u L combinationTotal s.simple.combinations.length 0 (byCount s.simple.combinations)
  let (hands, c) ← handTables s.runlen.perHand []
  let combined ← shareRows (c.map Prod.snd).sum c
  let totalWords := (s.words.words.map Prod.snd).sum
  let words ← shareRows totalWords (byCount s.words.words)
  .ok { presses, buttons, combinationTotal, combinations, unknown := byCount s.simple.unknown, hands, combined
        triads := byCount s.triads.triads, totalWords, words }

/-- The rating at the end of `pretty` (`stats.py:299-301`). -/
def prettyEffort (env : CarpalxEnv) (triads : Dict Triad Nat) : Py Rat := do
  let r ← triads.foldlM (fun (r : Rater) x => r.add x.1 (x.2 : Rat)) ⟨env, 0, 0⟩
  .ok r.effort

/-- `pretty` (`stats.py:254-301`). Nothing printed is taken back if it fails. -/
def pretty (u : UniData) (L : KeyboardLayout) (env : CarpalxEnv) (s : AllStats) : Py (Pretty × Rat) := do
  let p ← prettyTables u L s
  let e ← prettyEffort env s.triads.triads
  .ok (p, e)

end Lulua
