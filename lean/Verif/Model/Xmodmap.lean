import Verif.Model.Render
import Mathlib.Data.Nat.Digits.Defs

/-!
# Model of `renderXmodmap` in `lulua/render.py`

The lines of the file that depend on the layout are modelled as records; the fixed lines around them and the
formatting of the records are not. Buttons in layers are numbers, the button object is the first one of the keyboard
with that number, as `specialize` looks them up in the keyboard.
-/

namespace Lulua

/-- Digits of `%X`. -/
def hexDigit (n : Nat) : Char := "0123456789ABCDEF".toList.getD n '0'

/-- `f'{n:04X}'`. -/
def hex4 (n : Nat) : Text :=
  let ds := (Nat.digits 16 n).reverse.map hexDigit
  List.replicate (4 - ds.length) '0' ++ ds

/-- `btn.scancode[key]`. -/
def Btn.scancodeAt (b : Btn) (key : String) : Py ScVal :=
  match b.scancode with
  | none => .error .typeError
  | some d => d.getItem key

/-- Used as the key of a dict: a list is not hashable. -/
def ScVal.hashed : ScVal → Py ScVal
  | .list _ => .error .typeError
  | v => .ok v

/-- Key passed to `unique`, `lambda x: x.scancode[key]` (`render.py:306,501`). -/
def scancodeKey (key : String) (b : Btn) : Py ScVal := b.scancodeAt key >>= ScVal.hashed

/-- The button object with number `b`. -/
def PhysicalKeyboard.object (kb : PhysicalKeyboard) (b : Button) : Py Btn :=
  match kb.keys.find? (fun k => k.i = b) with
  | some k => .ok k
  | none => .error .keyError

/-- `'NoSymbol'`. -/
def noSymbol : Text := "NoSymbol".toList

/-- `specialMap` (`render.py:340-345`). -/
def specialMap : Dict Char Text :=
  [('\t', "Tab".toList), ('\n', "Return".toList), (' ', "space".toList), ('\x08', "BackSpace".toList)]

/-- Symbol for a text (`render.py:335-346`). The default of `specialMap.get` is evaluated first, so `ord` raises
`TypeError` unless the text has one character. `truthy` says whether a value that is no text is true; number zero
stands for `None`. -/
def symbolOf (truthy : Nat → Bool) (v : Option LVal) : Py Text :=
  match v with
  | none => .ok noSymbol
  | some (.other n) => if n = 0 ∨ truthy n = false then .ok noSymbol else .error .typeError
  | some (.str []) => .ok noSymbol
  | some (.str [c]) => .ok ((specialMap.get? c).getD ('U' :: hex4 c.toNat))
  | some (.str (_ :: _ :: _)) => .error .typeError

/-- `keycodeMap`: the symbols for each button, which is the key itself. -/
abbrev KeycodeMap := Dict Button (Btn × List Text)

/-- `keycodeMap[btn].append (s)` of a `defaultdict (list)`. The key stays the object first used. -/
def KeycodeMap.append (d : KeycodeMap) (b : Btn) (s : Text) : KeycodeMap :=
  match d.get? b.i with
  | some (o, l) => d.set b.i (o, l ++ [s])
  | none => d.set b.i (b, [s])

/-- Body of the loops over buttons (`render.py:327-328,332-347`). -/
def xmodmapButton (truthy : Nat → Bool) (L : KeyboardLayout) (layer : Option Layer) (d : KeycodeMap) (b : Btn) : Py KeycodeMap :=
  match layer with
  | none => .ok (d.append b noSymbol)
  | some l =>
    if L.isModifier (frozenset [b.i]) then .ok d
    else (symbolOf truthy (l.layout.get? b.i)).map fun s => d.append b s

/-- `(0, 1, 2, 4, 3, 99999, 5, 6)` (`render.py:325`). -/
def xmodmapColumns : List Nat := [0, 1, 2, 4, 3, 99999, 5, 6]

/-- Body of the loop over columns (`render.py:325-347`). -/
def xmodmapColumn (truthy : Nat → Bool) (L : KeyboardLayout) (kb : PhysicalKeyboard) (d : KeycodeMap) (i : Nat) : Py KeycodeMap := do
  let buttons ← unique (scancodeKey "xorg") kb.keys
  buttons.foldlM (xmodmapButton truthy L L.layers[i]?) d

/-- `layerMap` (`render.py:349-354`). -/
def layerMap : List (List Text) :=
  [[], ["Shift_L".toList, "Shift_Lock".toList],
    ["ISO_Group_Shift".toList, "ISO_Group_Shift".toList, "ISO_First_Group".toList, "NoSymbol".toList],
    ["ISO_Level3_Shift".toList, "ISO_Level3_Shift".toList, "ISO_Group_Shift".toList, "ISO_Group_Shift".toList,
      "ISO_Level3_Lock".toList, "NoSymbol".toList]]

/-- `layerMap[i]`. -/
def layerSymbols (i : Nat) : Py (List Text) :=
  match layerMap[i]? with
  | some s => .ok s
  | none => .error .indexError

/-- Body of the loop over modifiers (`render.py:356-361`). -/
def xmodmapModifier (kb : PhysicalKeyboard) (i : Nat) (d : KeycodeMap) (m : FSet) : Py KeycodeMap :=
  match m with
  | [] => .ok d
  | [b] => do
    let o ← (match d.get? b with
      | some p => .ok p.1
      | none => kb.object b)
    let s ← layerSymbols i
    .ok (d.set b (o, s))
  | _ :: _ :: _ => .error .assertionError

/-- The loop over layers (`render.py:355-361`). -/
def xmodmapModifiers (kb : PhysicalKeyboard) : Nat → KeycodeMap → List Layer → Py KeycodeMap
  | _, d, [] => .ok d
  | i, d, l :: ls => do
    let d' ← l.modifier.foldlM (xmodmapModifier kb i) d
    xmodmapModifiers kb (i + 1) d' ls

/-- `!! name` and `keycode … = …` (`render.py:363-365`). -/
structure XLine where
  button : Button
  name : String
  keycode : ScVal
  symbols : List Text
  deriving DecidableEq, Repr

/-- `renderXmodmap` (`render.py:302-366`), the lines about buttons. -/
def xmodmap (truthy : Nat → Bool) (t : InternTable) (L : KeyboardLayout) (kb : PhysicalKeyboard) : Py (List XLine) := do
  let d ← xmodmapColumns.foldlM (xmodmapColumn truthy L kb) []
  let d ← xmodmapModifiers kb 0 d L.layers
  d.mapM fun p => do
    let name ← t.nameOf p.1
    let code ← p.2.1.scancodeAt "xorg"
    .ok ⟨p.1, name, code, p.2.2⟩

end Lulua
