import Verif.Model.Klc
import Verif.Data.Keyboards
import Verif.Data.WinKbd

/-!
# Where the keys of a KLC file are

The place of a key on the keyboard is given by its scancode: `qwertyScancodeToVk` has the virtual key of each scancode, the
keyboard file the scancode of each button.
-/

namespace Lulua.Spec
open Lulua

/-- Number of the virtual key with this name in a KLC file: letters and digits have their own code. -/
def klcVirtualKey (name : Text) : Option Nat :=
  match name with
  | [c] => if ('A' ≤ c ∧ c ≤ 'Z') ∨ ('0' ≤ c ∧ c ≤ '9') then some c.toNat else none
  | _ => Data.vkval.get? (String.ofList name)

/-- The scancodes of a system the shipped keyboard has, with the name of the button. -/
def boardScancodes (system : String) : List (String × ScVal) :=
  Data.ibmpc105.rows.flatMap fun r => (r.1 ++ r.2).filterMap fun b =>
    match b.name, b.scancode with
    | some n, some (some d) => (d.get? system).map fun v => (n, v)
    | _, _ => none

/-- The button is where the keyboards KLC files are for have the key. -/
def AtItsPlace (key : Text) (button : String) : Prop :=
  ∃ n sc vs, klcVirtualKey key = some n ∧ (sc, VkVal.key n :: vs) ∈ Data.qwertyScancodeToVk ∧
    (button, ScVal.list (sc.map ScAtom.num)) ∈ boardScancodes "windows"

end Lulua.Spec
