import Verif.Data.WinKbd
import Verif.Model.WinKbdText
import Verif.Spec.CText
import Verif.Spec.WinKbd

/-!
# What a driver compiled from C tables does

Macros come first, then definitions. The types are those of `typedefs` (`winkbd.py:658-763`): `unsigned char` has 8 bits,
`unsigned short` and `wchar_t` 16.
-/

namespace Lulua.Spec
open Lulua

/-- `define NAME (NUMBER)`. -/
def cDefine (line : Text) : Option (Text × Nat) :=
  match line.splitOn ' ' with
  | [d, name, v] =>
    if d = "define".toList ∧ name.all wordChar ∧ name.head?.any (fun c => !c.isDigit) ∧ v.head? = some '(' ∧ v.getLast? = some ')' then
      (cNumber v.tail.dropLast).map fun n => (name, n)
    else none
  | _ => none

def CTok.line : CTok → Option Text
  | .directive l => some l
  | _ => none

structure CProgram where
  macros : List (Text × Nat)
  defs : List CDef

/-- The macros and definitions of a text. There are no macros within or after definitions. A macro may be defined again, but not differently. -/
def cProgram (t : Text) : Option CProgram := do
  let ts ← cTokens t
  let macros ← ((ts.takeWhile fun x => x.line.isSome).filterMap CTok.line).mapM cDefine
  let defs ← cDefs (ts.dropWhile fun x => x.line.isSome)
  if ∀ a ∈ macros, ∀ b ∈ macros, a.1 = b.1 → a.2 = b.2 then some ⟨macros, defs⟩ else none

/-- The value of a word. -/
def cWord (ms : List (Text × Nat)) (w : Text) : Option Nat :=
  match ms.find? fun x => x.1 = w with
  | some x => some x.2
  | none => cNumber w

/-- The value of words joined by `|`. -/
def cOr (ms : List (Text × Nat)) : List CTok → Option Nat
  | [.word w] => cWord ms w
  | .word w :: .punct '|' :: ts => do
    let a ← cWord ms w
    let b ← cOr ms ts
    some (a ||| b)
  | _ => none

def cValue (ms : List (Text × Nat)) : CInit → Option Nat
  | .expr ts => cOr ms ts
  | .list _ => none

/-- The first number of a row, an `unsigned char`. -/
def numberKey (ms : List (Text × Nat)) : CInit → Option Nat
  | .list (x :: _) => (cValue ms x).map (· % 256)
  | _ => none

/-- A definition of that name and type. -/
def CProgram.table (p : CProgram) (type name : String) : Option (List CInit) := do
  let d ← defNamed p.defs name.toList
  if d.type = type.toList then some d.init else none

/-- The number the tables have for a scancode: a virtual key and flags. -/
def CProgram.vk (p : CProgram) : List Nat → Option Nat
  | [i] => do
    let rows ← p.table "unsigned short" "ausVK"
    let x ← rows[i]?
    let n ← cValue p.macros x
    some (n % 65536)
  | [e, c] => do
    let rows ← if e = 0xe0 then p.table "VSC_VK" "aE0VscToVk" else if e = 0xe1 then p.table "VSC_VK" "aE1VscToVk" else none
    let row ← rows.find? fun r => numberKey p.macros r = some c
    match row with
    | .list [_, x] => do
      let n ← cValue p.macros x
      some (n % 65536)
    | _ => none
  | _ => none

/-- Rows before the one with number zero. -/
def CProgram.rows (p : CProgram) (rows : List CInit) : List CInit := rows.takeWhile fun r => numberKey p.macros r ≠ some 0

/-- The name of a key. -/
def CProgram.keyName (p : CProgram) (ext : Bool) (c : Nat) : Option Text := do
  let rows ← p.table "VSC_LPWSTR" (if ext then "aKeyNamesExt" else "aKeyNames")
  let row ← (p.rows rows).find? fun r => numberKey p.macros r = some c
  match row with
  | .list [_, .expr [.word l, .str t]] => if l = ['L'] then some t else none
  | _ => none

/-- The bits of a modifier, an `unsigned char`. -/
def CProgram.modBits (p : CProgram) (bits : List CInit) (code : List Nat) : Option Nat := do
  let n ← p.vk code
  let row ← (p.rows bits).find? fun r => numberKey p.macros r = some (baseKey (n % 256))
  match row with
  | .list [_, x] => (cValue p.macros x).map (· % 256)
  | _ => none

/-- The layer while buttons with these scancodes are held. Buttons that are no modifier do not count. -/
def CProgram.layer (p : CProgram) (codes : List (List Nat)) : Option Nat := do
  let init ← p.table "MODIFIERS" "CharModifiers"
  match init with
  | [.expr [.punct '&', .word name, .punct '[', .word zero, .punct ']'], max, .list nums] => do
    let bits ← p.table "VK_TO_BIT" (String.ofList name)
    let max ← cValue p.macros max
    let i := (codes.filterMap (p.modBits bits)).foldl (fun a b => a ||| b) 0
    if zero = ['0'] ∧ i ≤ max then
      let x ← nums[i]?
      let n ← cValue p.macros x
      some (n % 256)
    else none
  | _ => none

/-- The rows of a table of characters, given the row that refers to it. -/
def CProgram.charRows (p : CProgram) : CInit → Option (List CInit)
  | .list [.expr [.punct '(', .word ptr, .punct ')', .word name], .expr [.word n], .expr size] => do
    let rows ← p.table (String.ofList ("VK_TO_WCHARS".toList ++ n)) (String.ofList name)
    if ptr = "PVK_TO_WCHARS1".toList ∧ n ∈ ["1", "2", "3", "4", "5", "6", "7", "8"].map String.toList ∧
        size = [.word "sizeof".toList, .punct '(', .word name, .punct '[', .word ['0'], .punct ']', .punct ')'] then
      some (p.rows rows)
    else none
  | _ => none

/-- The number stored for a virtual key and a layer. -/
def CProgram.char (p : CProgram) (vk : Nat) (layer : Nat) : Option Nat := do
  let tables ← p.table "VK_TO_WCHAR_TABLE" "aVkToWcharTable"
  let rows ← (tables.takeWhile fun r => !firstIs "NULL" r).mapM p.charRows
  let row ← rows.flatten.find? fun r => numberKey p.macros r = some vk
  match row with
  | .list [_, _, .list cs] => do
    let c ← cs[layer]?
    let n ← cValue p.macros c
    some (n % 65536)
  | _ => none

/-- What is typed by the button with this scancode while the others are held. -/
def CProgram.typed (p : CProgram) (held : List (List Nat)) (code : List Nat) : Option Nat := do
  let n ← p.vk code
  let k ← p.layer held
  let c ← p.char (n % 256) k
  typedUnit c

/-- The number of a virtual key or flag. -/
def vkNumber : VkVal → Nat
  | .key n => n
  | .flag n => n

/-- All bits of some numbers. -/
def orAll (l : List Nat) : Nat := l.foldl (fun a b => a ||| b) 0

/-- A member of `VirtualKey` or `VirtualKeyFlag`. -/
def Member : VkVal → Prop
  | .key n => n ∈ Data.vkval.map Prod.snd
  | .flag n => n ∈ vkFlags.map Prod.snd

instance : DecidablePred Member := fun v => by unfold Member; split <;> infer_instance

/-- What is assumed about a map from scancodes: members of the enumerations, one of them a key, and second codes that fit. -/
structure Scancodes (m : Dict (List Nat) (List VkVal)) : Prop where
  member : ∀ x ∈ m, ∀ v ∈ x.2, Member v
  one : ∀ x ∈ m, (x.2.filter isKey).length = 1
  byte : ∀ x ∈ m, ∀ e c, x.1 = [e, c] → c < 256

/-- An entry for a virtual key. -/
def KeyEntry (e : CharEntry) : Prop := ∃ n, e.1 = .key n ∧ Member (.key n)

instance : DecidablePred KeyEntry := fun e =>
  match h : e.1 with
  | .key n => if hm : Member (.key n) then isTrue ⟨n, h, hm⟩ else isFalse fun ⟨_, h', hm'⟩ => by rw [h] at h'; cases h'; exact hm hm'
  | .flag n => isFalse fun ⟨_, h', _⟩ => by rw [h] at h'; cases h'

end Lulua.Spec
