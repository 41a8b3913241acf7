import Mathlib.Data.List.Sort
import Verif.Model.Stats

/-!
# Model of the commands of `lulua/stats.py` that evaluate statistics, and of the report's table

Floats are exact rationals. Drawing, printing and serialization are left out: a command's result is the data it prints.
-/

namespace Lulua

/-! ### `layoutstats` -/

/-- `alef` (`stats.py:343`). -/
def alef : Char := 'ا'
/-- `yah` (`stats.py:341`). -/
def yah : Char := 'ي'
/-- `waw` (`stats.py:342`). -/
def waw : Char := 'و'
/-- `hamzaAbove` (`stats.py:344`). -/
def hamzaAbove : Char := 'ٔ'
/-- `hamzaBelow` (`stats.py:345`). -/
def hamzaBelow : Char := 'ٕ'

/-- `letterWithHamza` (`stats.py:349`). -/
def letterWithHamza : List Text :=
  [[alef, hamzaAbove], [alef, hamzaBelow], [yah, hamzaAbove], [waw, hamzaAbove]]

/-- The loop over the letters (`stats.py:350-355`); `layout (letter)` may raise `KeyError`. -/
def hamzaLoop (L : KeyboardLayout) (combStats : Dict Comb Nat) : List Text → Dict Text Nat → Py (Dict Text Nat)
  | [], g => .ok g
  | letter :: rest, g => do
    let (m, combinations) ← L.call letter
    if m ≠ letter then hamzaLoop L combStats rest g
    else hamzaLoop L combStats rest (g.bump letter (combinations.map combStats.count).sum)

/-- `hamzaImpact` and `hamzaOnAlef` (`stats.py:347-359`); a division by zero is an exception. -/
def hamzaStats (L : KeyboardLayout) (combStats : Dict Comb Nat) : Py (Rat × Rat) := do
  let g ← hamzaLoop L combStats ([alef] :: letterWithHamza) []
  let combinations := (combStats.map Prod.snd).sum
  if combinations = 0 then .error .zeroDivision
  let impact : Rat := ((letterWithHamza.map g.count).sum : Nat) / (combinations : Nat)
  let x := g.count [alef, hamzaAbove] + g.count [alef, hamzaBelow]
  if x + g.count [alef] = 0 then .error .zeroDivision
  .ok (impact, (x : Nat) / ((x + g.count [alef] : Nat) : Rat))

/-- What `layoutstats` writes (`stats.py:361-369`), without the name of the layout. -/
structure LayoutStats extends HandStats where
  hamzaImpact : Rat
  hamzaOnAlef : Rat

/-- `layoutstats` (`stats.py:320-369`) after loading. Reading `hands[LEFT]` and `hands[RIGHT]` in line 338 makes
entries for both in the `defaultdict`. -/
def layoutstats (hf : HandFinger) (L : KeyboardLayout) (s : SimpleStats) : Py LayoutStats := do
  let h ← layoutHandStats hf s.buttons
  let z ← hamzaStats L s.combinations
  .ok { hands := (h.hands.bump .left 0).bump .right 0, fingers := h.fingers, buttonPresses := h.buttonPresses,
        asymmetry := h.asymmetry, hamzaImpact := z.1, hamzaOnAlef := z.2 }

/-! ### The table of hands and fingers in the report -/

/-- `fingerOrder` (`report.py:133`). -/
def fingerOrder : Direction → List Finger
  | .left => Finger.all
  | .right => Finger.all.reverse

/-- Part of the table for one finger: width relative to the hand and percentage. -/
structure FingerBar where
  finger : Finger
  width : Rat
  pct : Rat
  deriving DecidableEq

/-- Part of the table for one hand. -/
structure HandBar where
  hand : Direction
  pct : Rat
  fingers : List FingerBar
  deriving DecidableEq

/-- `d[k]` in a template: a missing key gives an undefined value, which cannot be divided
(`jinja2.UndefinedError`). -/
def templateItem {κ : Type} [DecidableEq κ] (d : Dict κ Nat) (k : κ) : Py Nat :=
  match d.get? k with
  | some v => .ok v
  | none => .error .otherError

/-- Division of numbers. -/
def pyDiv (a b : Nat) : Py Rat := if b = 0 then .error .zeroDivision else .ok ((a : Rat) / b)

/-- The inner loop of `fingerhandstats` (`index.html:414-419`) for one finger. -/
def fingerBar (s : HandStats) (h : Direction) (f : Finger) : Py FingerBar := do
  let k ← templateItem s.fingers (h, f)
  let pct ← pyDiv k s.buttonPresses
  let n ← templateItem s.hands h
  let width ← pyDiv k n
  .ok ⟨f, width * 100, pct * 100⟩

/-- Body of the outer loop of `fingerhandstats` (`index.html:408-425`). -/
def handBar (s : HandStats) (h : Direction) : Py HandBar := do
  let n ← templateItem s.hands h
  let pct ← pyDiv n s.buttonPresses
  let fingers ← (fingerOrder h).mapM (fingerBar s h)
  .ok ⟨h, pct * 100, fingers⟩

/-- The macro `fingerhandstats` (`index.html:404-426`): the numbers in the table. -/
def fingerHandStats (s : HandStats) : Py (List HandBar) := Direction.all.mapM (handBar s)

/-! ### `keyHeatmap` -/

/-- The loop of `keyHeatmap` (`stats.py:313-315`). -/
def heatLoop (name : Button → String) : List (Button × Nat) → Dict String Nat → Py (Dict String Nat)
  | [], d => .ok d
  | (b, n) :: rest, d =>
    if name b = "total" ∨ name b = "buttons" then .error .assertionError
    else heatLoop name rest (d.set (name b) n)

/-- `keyHeatmap` (`stats.py:303-316`): the total and the presses per name. `sorted` is stable. -/
def keyHeatmap (name : Button → String) (buttons : Dict Button Nat) : Py (Nat × Dict String Nat) := do
  let d ← heatLoop name (buttons.insertionSort fun a b => a.2 ≤ b.2) []
  .ok ((buttons.map Prod.snd).sum, d)

/-! ### Totals of the report -/

/-- `corpustotal` (`report.py:121-123`); `none` is a document without `stats`. The first component of a figure is the
number of characters, the second that of words. -/
def corpusTotal (docs : List (Option (Nat × Nat))) : Py (Nat × Nat) := do
  let words ← docs.mapM fun d => match d with
    | some x => .ok x.2
    | none => .error .keyError
  let characters ← docs.mapM fun d => match d with
    | some x => (.ok x.1 : Py Nat)
    | none => .error .keyError
  .ok (characters.sum, words.sum)

end Lulua
