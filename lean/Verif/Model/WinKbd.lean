import Verif.Model.Xmodmap
import Mathlib.Data.List.Sort

/-!
# Model of `lulua/winkbd.py` and `renderWinKbd` in `lulua/render.py`

The tables of the driver are modelled as lists of rows; a row that is `none` is the row of zeros that ends a table. The
C text around the rows is in `Model/WinKbdText.lean` and `Model/WinKbdTables.lean`. A virtual key or flag is its number,
which is what comparing two members of an `IntEnum` looks at.
-/

namespace Lulua

/-- A member of `VirtualKey` or `VirtualKeyFlag` (`winkbd.py:36-248`). -/
inductive VkVal where
  | key (n : Nat) | flag (n : Nat)
  deriving DecidableEq, Repr

/-- `VirtualKey.NULL` (`winkbd.py:226`). -/
def vkNull : VkVal := .key 0xFF

/-- Comparison of tuples of numbers. -/
def tupleLe : List Nat → List Nat → Bool
  | [], _ => true
  | _ :: _, [] => false
  | a :: as, b :: bs => a < b || (a == b && tupleLe as bs)

/-- `sorted (…, key=lambda x: x[0])` of items of a dict keyed by tuples. -/
def sortedByKey {ν : Type} (l : List (List Nat × ν)) : List (List Nat × ν) := l.insertionSort fun a b => tupleLe a.1 b.1

/-- The table of unprefixed scancodes (`winkbd.py:439-445`). -/
def ausVK (m : Dict (List Nat) (List VkVal)) : List (List VkVal) :=
  (List.range (0x7f + 1)).map fun i => (m.get? [i]).getD [vkNull]

/-- One of the tables of prefixed scancodes (`winkbd.py:448-453`). `k[1]` exists as the tuple has two elements. -/
def vscToVk {ν : Type} (m : Dict (List Nat) ν) (escape : Nat) : List (Option (Nat × ν)) :=
  (sortedByKey (m.filter fun x => x.1.length == 2 && x.1[0]? == some escape)).map fun x => some (x.1.getD 1 0, x.2)

/-- `aKeyNames` (`winkbd.py:541-546`). -/
def keyNames (m : Dict (List Nat) String) : List (Option (Nat × String)) :=
  ((sortedByKey (m.filter fun x => x.1.length == 1)).map fun x => some (x.1.getD 0 0, x.2)) ++ [none]

/-- `aKeyNamesExt` (`winkbd.py:548-553`). -/
def keyNamesExt (m : Dict (List Nat) String) : List (Option (Nat × String)) :=
  ((sortedByKey (m.filter fun x => x.1.length == 2 && x.1[0]? == some 0xe0)).map fun x => some (x.1.getD 1 0, x.2)) ++ [none]

/-- `vkToBitsTable` (`winkbd.py:557-563`): SHIFT, CONTROL, MENU, OEM_8, OEM_102. -/
def vkToBitsTable : List (Nat × Nat) := [(0x10, 1 <<< 0), (0x11, 1 <<< 1), (0x12, 1 <<< 2), (0xDF, 1 <<< 3), (0xE2, 1 <<< 4)]

/-- `vkToBits` (`winkbd.py:565-572`). -/
def vkToBits : List (Option (Nat × Nat)) := vkToBitsTable.map some ++ [none]

/-- `vkToLayer` (`winkbd.py:576-586`). -/
def vkToLayer : List (List Nat) :=
  [[], [0x10], [0xE2], [0xDF], [0x10, 0xE2], [0xDF, 0xE2], [0x11], [0x10, 0x11], [0x10, 0xDF]]

/-- Equality of sets given as lists. -/
def setEq (a b : List Nat) : Bool := a.all (fun x => b.contains x) && b.all (fun x => a.contains x)

/-- One number of `ModNumber` (`winkbd.py:596-601`). `index` finds the first. -/
def modNumber (i : Nat) : Nat :=
  let keys := (vkToBitsTable.filter fun x => (i &&& x.2) != 0).map Prod.fst
  match vkToLayer.findIdx? (setEq keys) with
  | some layer => layer
  | none => 0x0F

/-- `charModifiers` (`winkbd.py:574-605`): `wMaxModBits` and `ModNumber`. -/
def charModifiers : Nat × List Nat := (24, (List.range 25).map modNumber)

/-- An entry of the argument of `vkToWchar`: virtual key, flags, texts. Number zero stands for `None`. -/
abbrev CharEntry := VkVal × Nat × List LVal

/-- `WChar.NONE` (`winkbd.py:251`). -/
def wcharNone : Nat := 0xF000

/-- `toRepr` (`winkbd.py:619-627`), the number. -/
def wcharRepr (s : LVal) : Py Nat :=
  match s with
  | .other 0 => .ok wcharNone
  | .other _ => .error .typeError
  | .str [c] => .ok c.toNat
  | .str _ => .error .genericException

/-- `VK_TO_WCHARS`. -/
structure WRow where
  vk : VkVal
  flags : Nat
  chars : List Nat
  deriving DecidableEq, Repr

/-- `VK_TO_WCHAR_TABLE` together with what it points to. -/
structure WTable where
  name : String
  n : Nat
  rows : List (Option WRow)
  deriving DecidableEq, Repr

/-- `generate` (`winkbd.py:614-632`). -/
def generate (n : Nat) (g : List CharEntry) (defPrefix : String := "") : Py WTable := do
  let rows ← g.mapM fun e => do
    let chars ← e.2.2.mapM wcharRepr
    .ok (some (⟨e.1, e.2.1, chars⟩ : WRow))
  .ok ⟨"aVkToWch" ++ defPrefix ++ toString n, n, rows ++ [none]⟩

/-- `itertools.groupby`: neighbours with the same key. -/
def groupby {α : Type} (f : α → Nat) : List α → List (Nat × List α)
  | [] => []
  | a :: as =>
    match groupby f as with
    | [] => [(f a, [a])]
    | (k, g) :: gs => if f a = k then (k, a :: g) :: gs else (f a, [a]) :: (k, g) :: gs

/-- `numpad` (`winkbd.py:641-652`). -/
def numpad : List CharEntry :=
  [(.key 0x60, 0, [.str ['0']]), (.key 0x61, 0, [.str ['1']]), (.key 0x62, 0, [.str ['2']]), (.key 0x63, 0, [.str ['3']]),
    (.key 0x64, 0, [.str ['4']]), (.key 0x65, 0, [.str ['5']]), (.key 0x66, 0, [.str ['6']]), (.key 0x67, 0, [.str ['7']]),
    (.key 0x68, 0, [.str ['8']]), (.key 0x69, 0, [.str ['9']])]

/-- `vkToWchar` (`winkbd.py:607-656`). -/
def vkToWchar (m : List CharEntry) : Py (List (Option WTable)) := do
  let groups := groupby (fun x => x.2.2.length) (m.insertionSort fun a b => a.2.2.length ≤ b.2.2.length)
  let tables ← groups.mapM fun x => generate x.1 x.2
  let num ← generate 1 numpad "Num"
  .ok ((tables ++ [num]).map some ++ [none])

/-- The updates in `renderWinKbd` (`render.py:483-492`). -/
def driverScancodes (m : Dict (List Nat) (List VkVal)) : Dict (List Nat) (List VkVal) :=
  (((m.set [0x2B] [.key 0xE2]).set [0x3A] [.key 0xE2]).set [0x56] [.key 0xDF]).set [0xe0, 0x38] [.key 0xDF]

/-- A tuple of numbers. -/
def ScVal.codes : ScVal → Option (List Nat)
  | .tuple l => l.mapM fun a => match a with
    | .num n => some n
    | .str _ => none
  | _ => none

/-- `scancodeToVk[…]`. -/
def vkAt (m : Dict (List Nat) (List VkVal)) (v : ScVal) : Py (List VkVal) :=
  match v.codes with
  | some c => m.getItem c
  | none => .error .keyError

/-- `next (filter (lambda x: isinstance (x, VirtualKey), …))`. -/
def firstKey : List VkVal → Py VkVal
  | [] => .error .stopIteration
  | .key n :: _ => .ok (.key n)
  | .flag _ :: vs => firstKey vs

/-- `toWindows` (`render.py:495-499`). -/
def toWindows (s : LVal) : LVal := if s = .str ['\n'] then .str ['\r'] else s

/-- Body of the loop over buttons (`render.py:500-510`); `none` for buttons that are skipped. -/
def winKbdButton (m : Dict (List Nat) (List VkVal)) (L : KeyboardLayout) (b : Btn) : Py (Option CharEntry) := do
  let text := (L.getButtonText b.i).map fun v => v.getD (.other 0)
  if text.all (fun v => v = .other 0) then .ok none
  else
    let code ← b.scancodeAt "windows"
    let vks ← vkAt m code
    let vk ← firstKey vks
    .ok (some (vk, 0, text.map toWindows))

/-- The parts of the driver. -/
structure Driver where
  vks : List (List VkVal)
  e0 : List (Option (Nat × List VkVal))
  e1 : List (Option (Nat × List VkVal))
  wchars : List (Option WTable)
  modifiers : Nat × List Nat
  deriving DecidableEq, Repr

/-- `renderWinKbd` (`render.py:470-512`) for the layout it is made for, with `makeDriverSources` (`winkbd.py:801-822`);
`m` is `qwertyScancodeToVk`. -/
def winKbd (m : Dict (List Nat) (List VkVal)) (L : KeyboardLayout) (kb : PhysicalKeyboard) : Py Driver := do
  let m := driverScancodes m
  let buttons ← unique (scancodeKey "windows") kb.keys
  let entries ← buttons.mapM (winKbdButton m L)
  let wchars ← vkToWchar (entries.filterMap id)
  .ok ⟨ausVK m, vscToVk m 0xe0, vscToVk m 0xe1, wchars, charModifiers⟩

end Lulua
