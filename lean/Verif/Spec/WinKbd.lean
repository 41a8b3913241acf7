import Verif.Spec.Xmodmap
import Verif.Model.WinKbd

/-!
# Specification of the Windows driver
-/

namespace Lulua.Spec
open Lulua

/-- A table that ends with the row of zeros and has no other one. -/
def Terminated {α : Type} (rows : List (Option α)) : Prop := ∃ r : List α, rows = r.map some ++ [none]

/-- Virtual keys that count as modifiers, with the bit that stands for them: SHIFT, CONTROL, MENU, OEM_8, OEM_102. -/
def modifierBits : List (Nat × Nat) := [(0x10, 0), (0x11, 1), (0x12, 2), (0xDF, 3), (0xE2, 4)]

/-- The modifiers held for each layer, by the number of the layer. -/
def layerKeys : List (List Nat) :=
  [[], [0x10], [0xE2], [0xDF], [0x10, 0xE2], [0xDF, 0xE2], [0x11], [0x10, 0x11], [0x10, 0xDF]]

/-- The modifiers whose bit is set in `i` are those of layer `k`. -/
def BitsOfLayer (i k : Nat) : Prop :=
  ∃ keys, layerKeys[k]? = some keys ∧ ∀ p ∈ modifierBits, i.testBit p.2 = true ↔ p.1 ∈ keys

/-- What stands in the table for a text. -/
def WcharSays (v : LVal) (n : Nat) : Prop := (v = .other 0 ∧ n = 0xF000) ∨ ∃ c, v = .str [c] ∧ n = c.toNat

/-- The row for an entry. -/
def RowSays (e : CharEntry) (r : Option WRow) : Prop :=
  ∃ cs, r = some ⟨e.1, e.2.1, cs⟩ ∧ List.Forall₂ WcharSays e.2.2 cs

/-- The table for all entries of `m` with `n` texts, in their order. -/
def TableFor (m : List CharEntry) (n : Nat) (t : Option WTable) : Prop :=
  ∃ rows, t = some ⟨"aVkToWch" ++ toString n, n, rows ++ [none]⟩ ∧
    List.Forall₂ RowSays (m.filter fun e => e.2.2.length = n) rows

/-- The table of the numpad. -/
def numpadTable : WTable :=
  ⟨"aVkToWchNum1", 1, (((List.range 10).map fun i => some ⟨.key (0x60 + i), 0, [0x30 + i]⟩) ++ [none])⟩

/-! ### What Windows does with the driver -/

/-- The first row with that number. -/
def rowOf {ν : Type} (rows : List (Option (Nat × ν))) (c : Nat) : Option ν := ((rows.filterMap id).find? fun r => r.1 = c).map Prod.snd

def isKey : VkVal → Bool
  | .key _ => true
  | .flag _ => false

/-- The virtual key of a scancode. -/
def vkOf (d : Driver) (code : List Nat) : Option VkVal :=
  Option.bind (match code with
    | [i] => d.vks[i]?
    | [p, c] => if p = 0xe0 then rowOf d.e0 c else if p = 0xe1 then rowOf d.e1 c else none
    | _ => none) fun vks => vks.find? isKey

/-- The character of a virtual key on a layer: that of the first row for the key in any table. -/
def charOf (d : Driver) (vk : VkVal) (layer : Nat) : Option Nat :=
  (((d.wchars.filterMap id).flatMap fun t => t.rows.filterMap id).find? fun r => r.vk = vk).bind fun r => r.chars[layer]?

/-- The scancode of a button as numbers. -/
def windowsCode (b : Btn) : Option (List Nat) := (codeOf "windows" b).bind ScVal.codes

/-- Scancodes the driver has tables for. -/
def Coded (c : List Nat) : Prop := (∃ i < 128, c = [i]) ∨ (∃ i, c = [0xe0, i]) ∨ ∃ i, c = [0xe1, i]

/-- The layout has a value for the button on some layer. -/
def Used (layers : List Layer) (b : Button) : Prop := ∃ l ∈ layers, ∃ v, l.layout.get? b = some v ∧ v ≠ .other 0

/-- What the driver has for layer `k` of a button: the character of its text, a line break being a carriage return; or
nothing. -/
def DriverSays (layers : List Layer) (b : Button) (k : Nat) (n : Nat) : Prop :=
  ∃ l : Layer, layers[k]? = some l ∧
    ((∃ c, l.layout.get? b = some (.str [c]) ∧ n = if c = '\n' then 13 else c.toNat) ∨
      ((l.layout.get? b = none ∨ l.layout.get? b = some (.other 0)) ∧ n = 0xF000))

/-- Windows takes the left and the right modifier keys as one. -/
def baseKey (n : Nat) : Nat :=
  if n = 0xA0 ∨ n = 0xA1 then 0x10 else if n = 0xA2 ∨ n = 0xA3 then 0x11 else if n = 0xA4 ∨ n = 0xA5 then 0x12 else n

/-- The bit of the modifier with that scancode. -/
def bitOf (d : Driver) (code : List Nat) : Option Nat :=
  match vkOf d code with
  | some (.key n) => (modifierBits.find? fun p => p.1 = baseKey n).map Prod.snd
  | _ => none

/-- The layer while buttons with these scancodes are held: by the number with the bits of the modifiers set. -/
def heldLayer (d : Driver) (codes : List (List Nat)) : Option Nat :=
  d.modifiers.2[(codes.filterMap (bitOf d)).foldl (fun n i => n ||| 2 ^ i) 0]?

end Lulua.Spec
