import Verif.Model.WinKbd
import Verif.Model.Xml

/-!
# The C text `vkToWchar` in `lulua/winkbd.py` writes

The members of `VirtualKey` and the characters `repr` shows as they are are parameters.
-/

namespace Lulua

/-- `VirtualKeyFlag` (`winkbd.py:237-247`). -/
def vkFlags : Dict String Nat :=
  [("EXT", 0x0100), ("MULTIVK", 0x0200), ("SPECIAL", 0x0400), ("NUMPAD", 0x0800), ("UNICODE", 0x1000), ("INJECTEDVK", 0x2000),
    ("MAPPEDVK", 0x4000), ("BREAK", 0x8000)]

/-- `name` of the member of an enumeration with this value, the first one: those after it are aliases. There is always one; the
number stands for what cannot happen. -/
def memberName (members : Dict String Nat) (n : Nat) : Text :=
  match members.find? fun x => x.2 = n with
  | some x => x.1.toList
  | none => natText n

/-- `cdefName` (`winkbd.py:29-32`). The names are in upper case already; `keys` is `vkval`. -/
def vkCName (keys : Dict String Nat) : VkVal → Text
  | .key n => "VIRTUALKEY_".toList ++ memberName keys n
  | .flag n => "VIRTUALKEYFLAG_".toList ++ memberName vkFlags n

/-- `f'{n:0{w}x}'`. -/
def hexLower (w n : Nat) : Text :=
  let ds := (Nat.digits 16 n).reverse.map fun d => "0123456789abcdef".toList.getD d '0'
  List.replicate (w - ds.length) '0' ++ ds

/-- `repr` of a text of one character (`unicode_repr` of python 3.11). -/
def pyRepr (printable : Char → Bool) (c : Char) : Text :=
  if c = '\'' then ['"', '\'', '"']
  else '\'' ::
    (if c = '\\' then ['\\', '\\']
    else if c = '\t' then ['\\', 't']
    else if c = '\n' then ['\\', 'n']
    else if c = '\r' then ['\\', 'r']
    else if 0x20 ≤ c.toNat ∧ c.toNat < 0x7f then [c]
    else if 0x7f < c.toNat ∧ printable c then [c]
    else if c.toNat ≤ 0xff then '\\' :: 'x' :: hexLower 2 c.toNat
    else if c.toNat ≤ 0xffff then '\\' :: 'u' :: hexLower 4 c.toNat
    else '\\' :: 'U' :: hexLower 8 c.toNat) ++ ['\'']

/-- `toRepr` (`winkbd.py:619-627`). -/
def wcharText (printable : Char → Bool) : LVal → Py Text
  | .other 0 => .ok "WCHAR_NONE".toList
  | .other _ => .error .typeError
  | .str [c] => .ok ("0x".toList ++ hex4 c.toNat ++ "u /*".toList ++ pyRepr printable c ++ "*/".toList)
  | .str _ => .error .genericException

/-- The line of an entry (`winkbd.py:628-629`). -/
def wrowText (printable : Char → Bool) (vkName : VkVal → Text) (e : CharEntry) : Py Text := do
  let chars ← e.2.2.mapM (wcharText printable)
  .ok ("\t{".toList ++ vkName e.1 ++ ", ".toList ++ natText e.2.1 ++ ", {".toList ++ ", ".toList.intercalate chars ++ "}},".toList)

/-- `defname` (`winkbd.py:615`). -/
def wtableName (n : Nat) (defPrefix : Text) : Text := "aVkToWch".toList ++ defPrefix ++ natText n

/-- The lines `generate` adds to `ret` (`winkbd.py:614-630`). -/
def wtableLines (printable : Char → Bool) (vkName : VkVal → Text) (n : Nat) (g : List CharEntry) (defPrefix : Text) : Py (List Text) := do
  let rows ← g.mapM (wrowText printable vkName)
  .ok (["/* map virtual key to flags and ".toList ++ natText n ++ " unicode output characters */".toList,
      "static VK_TO_WCHARS".toList ++ natText n ++ [' '] ++ wtableName n defPrefix ++ "[] = {".toList] ++ rows ++
    ["\t{0, 0, {".toList ++ (List.replicate n "0, ".toList).flatten ++ "}},".toList, "\t};".toList, []])

/-- The line `generate` adds to `retTbl` (`winkbd.py:631-632`). -/
def wtableRef (n : Nat) (defPrefix : Text) : Text :=
  "\t{(PVK_TO_WCHARS1) ".toList ++ wtableName n defPrefix ++ ", ".toList ++ natText n ++ ", sizeof(".toList ++
    wtableName n defPrefix ++ "[0])},".toList

/-- `vkToWchar` (`winkbd.py:607-656`): the text. -/
def vkToWcharText (printable : Char → Bool) (vkName : VkVal → Text) (m : List CharEntry) : Py Text := do
  let groups := groupby (fun x => x.2.2.length) (m.insertionSort fun a b => a.2.2.length ≤ b.2.2.length)
  let tables ← groups.mapM fun x => wtableLines printable vkName x.1 x.2 []
  let num ← wtableLines printable vkName 1 numpad "Num".toList
  .ok (['\n'].intercalate (tables.flatten ++ num ++
    (["/* table of virtual key to wchar mapping tables */".toList, "static VK_TO_WCHAR_TABLE aVkToWcharTable[] = {".toList] ++
      groups.map (fun x => wtableRef x.1 []) ++ [wtableRef 1 "Num".toList, "\t{NULL, 0, 0},".toList, "\t};".toList])))

/-- What `renderWinKbd` (`render.py:470-512`) writes by `vkToWchar`; `m` is `qwertyScancodeToVk`. -/
def winKbdChars (printable : Char → Bool) (vkName : VkVal → Text) (m : Dict (List Nat) (List VkVal)) (L : KeyboardLayout)
    (kb : PhysicalKeyboard) : Py Text := do
  let m := driverScancodes m
  let buttons ← unique (scancodeKey "windows") kb.keys
  let entries ← buttons.mapM (winKbdButton m L)
  vkToWcharText printable vkName (entries.filterMap id)

end Lulua
