import Verif.Spec.Render
import Verif.Model.Xmodmap

/-!
# Specification of the xmodmap file
-/

namespace Lulua.Spec
open Lulua

def hexDigits : List Char := "0123456789ABCDEF".toList

/-- Value of a text as a hexadecimal number. -/
def hexValue (t : Text) : Nat := t.foldl (fun n c => 16 * n + hexDigits.idxOf c) 0

/-- `t` is `n` in hexadecimal, with leading zeros up to four digits only. -/
structure IsHex4 (t : Text) (n : Nat) : Prop where
  digits : ∀ c ∈ t, c ∈ hexDigits
  value : hexValue t = n
  long : 4 ≤ t.length
  short : 4 < t.length → t.head? ≠ some '0'

/-- `s` is the name of the symbol that types `c`. -/
def KeySym (c : Char) (s : Text) : Prop :=
  (c = '\t' ∧ s = "Tab".toList) ∨ (c = '\n' ∧ s = "Return".toList) ∨ (c = ' ' ∧ s = "space".toList) ∨
  (c = '\x08' ∧ s = "BackSpace".toList) ∨
  (c ≠ '\t' ∧ c ≠ '\n' ∧ c ≠ ' ' ∧ c ≠ '\x08' ∧ ∃ t, s = 'U' :: t ∧ IsHex4 t c.toNat)

/-- Layer `k` has a text for button `b`, and it is `t`. -/
def TextAt (layers : List Layer) (b : Button) (k : Nat) (t : Text) : Prop :=
  ∃ l : Layer, layers[k]? = some l ∧ l.layout.get? b = some (.str t) ∧ t ≠ []

/-- The symbol for layer `k` (counted from zero) of a button. -/
def SymbolAt (layers : List Layer) (b : Button) (k : Nat) (s : Text) : Prop :=
  (∃ c, TextAt layers b k [c] ∧ KeySym c s) ∨ ((¬ ∃ t, TextAt layers b k t) ∧ s = "NoSymbol".toList)

/-- The code of a button of some kind, for example its X11 keycode. -/
def codeOf (key : String) (b : Btn) : Option ScVal := b.scancode.bind fun d => d.get? key

/-- No button behind `b` on the keyboard has its code. -/
def LastOfCode (key : String) (kb : PhysicalKeyboard) (b : Btn) : Prop :=
  ∃ pre post, kb.keys = pre ++ b :: post ∧ ∀ b' ∈ post, codeOf key b' ≠ codeOf key b

/-- What a modifier key does, for the layer it leads to (counted from zero). -/
def modifierSymbols : List (Nat × List Text) :=
  [(0, []), (1, ["Shift_L".toList, "Shift_Lock".toList]),
    (2, ["ISO_Group_Shift".toList, "ISO_Group_Shift".toList, "ISO_First_Group".toList, "NoSymbol".toList]),
    (3, ["ISO_Level3_Shift".toList, "ISO_Level3_Shift".toList, "ISO_Group_Shift".toList, "ISO_Group_Shift".toList,
      "ISO_Level3_Lock".toList, "NoSymbol".toList])]

end Lulua.Spec
