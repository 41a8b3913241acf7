import Verif.Model.Klc
import Mathlib.Data.Nat.Digits.Defs
import Mathlib.Data.List.SplitOn

/-!
# What a KLC file says
-/

namespace Lulua.Spec
open Lulua

/-- The words of a text. -/
def words (isSpace : Char → Bool) (l : Text) : List Text := (l.splitOnP isSpace).filter (· ≠ [])

/-- What is left of a line without its comment: everything if there is no `//`, otherwise what is in front of the first
`//`, and there in front of the first `;`. -/
def CodePart (line code : Text) : Prop :=
  (¬ ['/', '/'] <:+: line ∧ code = line) ∨
    ∃ a b, line = a ++ ['/', '/'] ++ b ∧ ¬ ['/', '/'] <:+: a ++ ['/'] ∧
      ((';' ∉ a ∧ code = a) ∨ ∃ c, a = code ++ ';' :: c ∧ ';' ∉ code)

/-- The line opens the layout section. -/
def Opens (isSpace : Char → Bool) (line : Text) : Prop :=
  ∃ code w ws, CodePart line code ∧ words isSpace code = w :: ws ∧ "LAYOUT".toList <+: w

/-- The line closes the layout section. -/
def Closes (isSpace : Char → Bool) (line : Text) : Prop := ∃ code, CodePart line code ∧ words isSpace code = ["LIGATURE".toList]

/-- The line behind these lines is in the layout section. -/
def InLayout (isSpace : Char → Bool) (pre : List Text) : Prop :=
  ∃ a m b, pre = a ++ m :: b ∧ Opens isSpace m ∧ ∀ l ∈ b, ¬ Closes isSpace l

/-- Value of a hexadecimal digit. -/
def HexDigit (dig : Char → Option Nat) (c : Char) (d : Nat) : Prop :=
  (d < 16 ∧ (c = Nat.digitChar d ∨ c = (Nat.digitChar d).toUpper)) ∨ (128 ≤ c.toNat ∧ dig c = some d)

/-- Digits, with underscores between them. -/
inductive HexRun (dig : Char → Option Nat) : Text → List Nat → Prop
  | one {c d} : HexDigit dig c d → HexRun dig [c] [d]
  | next {c d cs ds} : HexDigit dig c d → HexRun dig cs ds → HexRun dig (c :: cs) (d :: ds)
  | gap {c d cs ds} : HexDigit dig c d → HexRun dig cs ds → HexRun dig (c :: '_' :: cs) (d :: ds)

/-- What may be before the digits: nothing, or a zero and an `x`, perhaps with an underscore. -/
inductive HexPrefix (dig : Char → Option Nat) : Text → Prop
  | none : HexPrefix dig []
  | plain {z x} : HexDigit dig z 0 → x = 'x' ∨ x = 'X' → HexPrefix dig [z, x]
  | under {z x} : HexDigit dig z 0 → x = 'x' ∨ x = 'X' → HexPrefix dig [z, x, '_']

/-- A natural number, perhaps with a prefix. -/
def HexNat (dig : Char → Option Nat) (c : Text) (n : Nat) : Prop :=
  ∃ pre body ds, c = pre ++ body ∧ HexPrefix dig pre ∧ HexRun dig body ds ∧ n = Nat.ofDigits 16 ds.reverse

/-- A number, perhaps with a sign. -/
def HexInt (dig : Char → Option Nat) (c : Text) (n : Int) : Prop :=
  ∃ s body m, c = s ++ body ∧ HexNat dig body m ∧ ((s ∈ [[], ['+']] ∧ n = m) ∨ (s = ['-'] ∧ n = -m))

/-- The code stands for nothing. -/
def NoCode (dig : Char → Option Nat) (c : Text) : Prop := c = ['%', '%'] ∨ HexInt dig c (-1)

/-- The code stands for a code point. -/
def CodePoint (dig : Char → Option Nat) (c : Text) (n : Nat) : Prop := HexInt dig c n ∧ n ≤ 0x10FFFF

/-- The line says that there is `text` on layer `i` of the button. -/
def Entry (isSpace : Char → Bool) (dig : Char → Option Nat) (nfd : Nat → List Nat) (line : Text) (i : Nat) (button : String)
    (text : List Nat) : Prop :=
  ∃ code sc vk cap codes c n, CodePart line code ∧ words isSpace code = sc :: vk :: cap :: codes ∧
    vkToButton.get? vk = some button ∧ codes[i]? = some c ∧ CodePoint dig c n ∧ text = nfd n

/-- So does line `k`, which is in the layout section. -/
def Sets (isSpace : Char → Bool) (dig : Char → Option Nat) (nfd : Nat → List Nat) (lines : List Text) (k i : Nat) (button : String)
    (text : List Nat) : Prop :=
  ∃ line, lines[k]? = some line ∧ InLayout isSpace (lines.take k) ∧ ¬ Opens isSpace line ∧ ¬ Closes isSpace line ∧
    Entry isSpace dig nfd line i button text

/-- A line that can be imported: it has less than three words, or all codes stand for something and the key is known, with no
more than six layers used, or it is the decimal point. -/
def Importable (isSpace : Char → Bool) (dig : Char → Option Nat) (line : Text) : Prop :=
  ∃ code, CodePart line code ∧ ((words isSpace code).length < 3 ∨
    ∃ sc vk cap codes, words isSpace code = sc :: vk :: cap :: codes ∧ (∀ c ∈ codes, NoCode dig c ∨ ∃ n, CodePoint dig c n) ∧
      (((∃ b, vkToButton.get? vk = some b) ∧ ∀ i c, codes[i]? = some c → 6 ≤ i → NoCode dig c) ∨ vk = "DECIMAL".toList))

end Lulua.Spec
