import Mathlib.Data.List.Sort
import Verif.Model.Optimize
import Verif.Model.Util

/-!
# `lulua/plot.py`: the data behind plots

Drawing, reading the pickled statistics and loading the layout are left out. Floats are rational numbers.
`Rater` is a `Carpalx` object without its cache.
-/

namespace Lulua

/-- A triad of texts. -/
abbrev TextTriad := LVal × LVal × LVal

/-- The dict created for every text triad (`plot.py:143,193`) without `textTriad`, which is the key. -/
structure TriadBin where
  weight : Nat
  effort : Rater
  layers : Nat × Nat × Nat

namespace KeyboardLayout

/-- `tuple (layout.getText (t) for t in triad)` (`plot.py:146,196`). -/
def triadText (L : KeyboardLayout) (t : Triad) : Py TextTriad := do
  let a ← L.getText t.1
  let b ← L.getText t.2.1
  let c ← L.getText t.2.2
  .ok (a, b, c)

/-- `tuple (layout.modifierToLayer (x.modifier)[0] for x in triad)` (`plot.py:151,201`). -/
def triadLayers (L : KeyboardLayout) (t : Triad) : Py (Nat × Nat × Nat) := do
  let a ← L.modifierToLayer t.1.modifier
  let b ← L.modifierToLayer t.2.1.modifier
  let c ← L.modifierToLayer t.2.2.modifier
  .ok (a.1, b.1, c.1)

end KeyboardLayout

/-- One round of the loop over the triads (`plot.py:145-152,195-202`). -/
def binTriad (L : KeyboardLayout) (env : CarpalxEnv) (x : Dict TextTriad TriadBin × Nat) (t : Triad × Nat) :
    Py (Dict TextTriad TriadBin × Nat) := do
  let text ← L.triadText t.1
  let data := (x.1.get? text).getD ⟨0, ⟨env, 0, 0⟩, (0, 0, 0)⟩
  let effort ← data.effort.add t.1 t.2
  let layers ← L.triadLayers t.1
  .ok (x.1.set text ⟨data.weight + t.2, effort, layers⟩, x.2 + t.2)

/-- The loop over the triads: `binned` and `weightSum`. -/
def binTriads (L : KeyboardLayout) (env : CarpalxEnv) (ts : Dict Triad Nat) : Py (Dict TextTriad TriadBin × Nat) :=
  ts.foldlM (binTriad L env) ([], 0)

/-- `sorted (l, key=key, reverse=reverse)`: stable in both directions. -/
def pySorted {α : Type} (key : α → Rat) (reverse : Bool) (l : List α) : List α :=
  if reverse then l.insertionSort fun a b => key b ≤ key a else l.insertionSort fun a b => key a ≤ key b

/-- Bins by falling weight (`plot.py:157,210`). -/
def heaviest (binned : Dict TextTriad TriadBin) : List (TextTriad × TriadBin) :=
  pySorted (fun x => (x.2.weight : Rat)) true binned

/-- The loop selecting triads (`plot.py:155-160`). -/
def selectTop (bound : Rat) (l : List (TextTriad × TriadBin)) : List (TextTriad × TriadBin) × Nat :=
  l.foldl (fun x d => if (x.2 : Rat) < bound then (x.1 ++ [d], x.2 + d.2.weight) else x) ([], 0)

/-- The value of `--sort`. -/
inductive SortBy where
  | weight | effort | combined
  deriving DecidableEq, Repr

/-- `sorter` (`plot.py:124-129`). -/
def SortBy.key (weightSum : Nat) : SortBy → TextTriad × TriadBin → Rat
  | .weight, x => x.2.weight
  | .effort, x => x.2.effort.effort
  | .combined, x => (x.2.weight : Rat) / weightSum * x.2.effort.effort ^ 2

/-- `triadfreq` (`plot.py:122-170`): the rows that are printed. -/
def triadfreq (L : KeyboardLayout) (env : CarpalxEnv) (triads : Dict Triad Nat) (cutoff : Rat) (sort : SortBy)
    (reverse : Bool) (limit : Int) : Py (List (TextTriad × Nat × Rat)) := do
  let (binned, weightSum) ← binTriads L env triads
  let top := (selectTop (weightSum * cutoff) (heaviest binned)).1
  let rows := pySorted (sort.key weightSum) reverse top
  let rows := if limit > 0 then rows.take limit.toNat else rows
  .ok (rows.map fun r => (r.1, r.2.weight, r.2.effort.effort))

/-- Variables of the loop of `triadEffortData`. -/
structure EffortCurve where
  cumulativeWeight : Nat
  cumulativeEffort : Rat
  x : List Nat
  y : List Rat

/-- One round (`plot.py:211-215`). -/
def effortStep (binWidth : Nat) (c : EffortCurve) (d : TextTriad × TriadBin) : EffortCurve :=
  let w := c.cumulativeWeight + d.2.weight
  let e := c.cumulativeEffort + d.2.effort.effort * d.2.weight
  if c.x.getLast?.all fun l => decide (l + binWidth ≤ w) then ⟨w, e, c.x ++ [w], c.y ++ [e]⟩
  else ⟨w, e, c.x, c.y⟩

/-- `np.true_divide (l, d)`; `none` if that is not a list of numbers. -/
def trueDivide (l : List Rat) (d : Rat) : Option (List Rat) := if d = 0 then none else some (l.map (· / d))

/-- `triadEffortData` (`plot.py:172-222`): what is written as `x` and `y`. -/
def triadEffortData (L : KeyboardLayout) (env : CarpalxEnv) (triads : Dict Triad Nat) :
    Py (Option (List Rat) × Option (List Rat)) := do
  let (binned, weightSum) ← binTriads L env triads
  let binWidth := weightSum / 200
  let c := (heaviest binned).foldl (effortStep binWidth) ⟨0, 0, [], []⟩
  let x := (c.x ++ [c.cumulativeWeight]).map fun (n : Nat) => (n : Rat)
  let y := c.y ++ [c.cumulativeEffort]
  .ok (trueDivide x c.cumulativeWeight, trueDivide y c.cumulativeEffort)

/-! ### Letters -/

/-- `text[0]` of a value of a layout. -/
def LVal.firstChar : LVal → Py Char
  | .str t => Lulua.firstChar t
  | .other _ => .error .typeError

/-- One round of the loop over the combinations (`plot.py:68-73`). -/
def binLetter (L : KeyboardLayout) (letterOther : Char → Bool) (binned : Dict LVal Nat) (c : Comb × Nat) :
    Py (Dict LVal Nat) := do
  let text ← L.getText c.1
  let ch ← text.firstChar
  .ok (if letterOther ch then binned.bump text c.2 else binned)

/-- A column of the plot. -/
structure LetterRow where
  letter : LVal
  rel : Rat
  abs : Nat
  cum : Int
  cumRel : Rat
  deriving DecidableEq, Repr

/-- The loop making the columns (`plot.py:84-95`). -/
def letterRows (total : Nat) : Int → List (LVal × Nat) → Py (List LetterRow)
  | _, [] => .ok []
  | cumSum, (k, v) :: rest =>
    if total = 0 then .error .zeroDivision
    else do
      let rows ← letterRows total (cumSum - v) rest
      .ok (⟨k, (v : Rat) / total, v, cumSum, (cumSum : Rat) / total⟩ :: rows)

/-- `letterfreq` (`plot.py:48-120`). `letterOther` tells whether the category is `Lo`. Without any letter `max (ydata)`
fails (line 107). -/
def letterfreq (L : KeyboardLayout) (letterOther : Char → Bool) (combinations : Dict Comb Nat) : Py (List LetterRow) := do
  let binned ← combinations.foldlM (binLetter L letterOther) []
  let total := (binned.map Prod.snd).sum
  let rows ← letterRows total total (pySorted (fun x => (x.2 : Rat)) false binned)
  if rows = [] then .error .valueError else .ok rows

end Lulua
