import Verif.Model.WinKbdText
import Verif.Data.WinKbd

/-!
# The C text of the other tables in `lulua/winkbd.py`

`typedefs` and `entrypoint`, which are constant, are in `Model/WinKbdFile.lean`. The order in which python iterates over a set of keys is a
parameter; it shows in a comment only.
-/

namespace Lulua

/-- `f'{n:0{w}X}'`. -/
def hexUpper (w n : Nat) : Text :=
  let ds := (Nat.digits 16 n).reverse.map hexDigit
  List.replicate (w - ds.length) '0' ++ ds

/-- `enumToCDefine` (`winkbd.py:417-426`) for an enumeration of that name; `pre` is its name in upper case. -/
def enumDefines (name pre : Text) (members : Dict String Nat) : Text :=
  ['\n'].intercalate (["/* ".toList ++ name ++ " */".toList] ++
    members.map (fun x => "#define ".toList ++ pre ++ memberName members x.2 ++ " (0x".toList ++ hexUpper 1 x.2 ++ "u)".toList) ++ [[]])

/-- `enumOr` (`winkbd.py:428-432`). -/
def enumOr (vkName : VkVal → Text) (v : List VkVal) : Text := " | ".toList.intercalate (v.map vkName)

/-- Line of an unprefixed scancode (`winkbd.py:444`). -/
def ausVKLine (vkName : VkVal → Text) (i : Nat) (v : List VkVal) : Text :=
  "\t /* ".toList ++ hexUpper 2 i ++ " */ ".toList ++ enumOr vkName v ++ ",".toList

/-- Line of a prefixed scancode (`winkbd.py:452`). -/
def vscLine (vkName : VkVal → Text) (x : Nat × List VkVal) : Text :=
  "\t{ 0x".toList ++ hexLower 1 x.1 ++ ", ".toList ++ enumOr vkName x.2 ++ " },".toList

/-- The lines of one of the tables of prefixed scancodes (`winkbd.py:448-453`). -/
def vscLines (vkName : VkVal → Text) (m : Dict (List Nat) (List VkVal)) (escape : Nat) : List Text :=
  ["/* scancodes prefixed by ".toList ++ hexUpper 1 escape ++ " */".toList,
    "static VSC_VK a".toList ++ hexUpper 1 escape ++ "VscToVk[] = {".toList] ++
    ((vscToVk m escape).filterMap id).map (vscLine vkName) ++ ["\t};\n".toList]

/-- `scancodeToVkTables` (`winkbd.py:434-455`). -/
def scancodeToVkTables (vkName : VkVal → Text) (m : Dict (List Nat) (List VkVal)) : Text :=
  ['\n'].intercalate (["/* mappings from scancode to virtual key */".toList, "/* non-prefixed scancodes */".toList,
      "static unsigned short ausVK[] = {".toList] ++
    (List.range (0x7f + 1)).map (fun i => ausVKLine vkName i ((m.get? [i]).getD [vkNull])) ++ ["\t};\n".toList] ++
    vscLines vkName m 0xe0 ++ vscLines vkName m 0xe1)

/-- Line of a name (`winkbd.py:545,552`). -/
def nameLine (x : Nat × String) : Text := "\t{0x".toList ++ hexLower 2 x.1 ++ ", L\"".toList ++ x.2.toList ++ "\"},".toList

/-- `scancodeToName` (`winkbd.py:535-555`). -/
def scancodeToName (m : Dict (List Nat) String) : Text :=
  ['\n'].intercalate (["/* Virtual scancode to key name */".toList, "static VSC_LPWSTR aKeyNames[] = {".toList] ++
    ((keyNames m).filterMap id).map nameLine ++ ["\t{0x00, NULL},".toList, "};".toList, []] ++
    ["/* Virtual scan code (E0 prefixed) to key name */".toList, "static VSC_LPWSTR aKeyNamesExt[] = {".toList] ++
    ((keyNamesExt m).filterMap id).map nameLine ++ ["\t{0x00, NULL},".toList, "};".toList, []])

/-- `vkToBits` (`winkbd.py:565-572`). -/
def vkToBitsText (vkName : VkVal → Text) : Text :=
  ['\n'].intercalate (["/* maps virtual keys (first value) to shift bitfield value (second value) */".toList,
      "static VK_TO_BIT aVkToBits[] = {".toList] ++
    vkToBitsTable.map (fun x => "\t{".toList ++ vkName (.key x.1) ++ ", 0x".toList ++ hexLower 1 x.2 ++ "},".toList) ++
    ["\t{0, 0x0}".toList, "\t};\n".toList])

/-- Line of a number of a layer (`winkbd.py:597-603`). -/
def modLine (vkName : VkVal → Text) (order : List Nat → List Nat) (i : Nat) : Text :=
  let keys := (vkToBitsTable.filter fun x => (i &&& x.2) != 0).map Prod.fst
  let layer := modNumber i
  let keysComment := if layer = 0x0F then "disabled".toList else enumOr vkName ((order keys).map .key)
  "\t\t0x".toList ++ hexLower 1 layer ++ ", /* ".toList ++ keysComment ++ " */".toList

/-- `charModifiers` (`winkbd.py:574-605`). -/
def charModifiersText (vkName : VkVal → Text) (order : List Nat → List Nat) : Text :=
  ['\n'].intercalate (["/* maps a shift bitfield value (array index) to a layer number in".toList,
      "virtual key translation (VK_TO_WCHARS, array value) */".toList, "static MODIFIERS CharModifiers = {".toList,
      "\t&aVkToBits[0],".toList, "\t24,".toList, "\t{".toList] ++
    (List.range 25).map (modLine vkName order) ++ ["\t}};\n".toList])

/-- `WChar` (`winkbd.py:249-251`). -/
def wcharEnum : Dict String Nat := [("NONE", wcharNone)]

/-- `makeDriverSources` (`winkbd.py:801-822`) without `typedefs` and `entrypoint`. -/
def driverText (printable : Char → Bool) (order : List Nat → List Nat) (scancodes : Dict (List Nat) (List VkVal))
    (charmap : List CharEntry) : Py Text := do
  let vkName := vkCName Data.vkval
  let chars ← vkToWcharText printable vkName charmap
  .ok (['\n'].intercalate [enumDefines "VirtualKey".toList "VIRTUALKEY_".toList Data.vkval,
    enumDefines "VirtualKeyFlag".toList "VIRTUALKEYFLAG_".toList vkFlags, enumDefines "WChar".toList "WCHAR_".toList wcharEnum,
    scancodeToVkTables vkName scancodes, scancodeToName Data.qwertyScancodeToName, vkToBitsText vkName,
    charModifiersText vkName order, chars])

/-- What `renderWinKbd` (`render.py:470-512`) writes, without `typedefs` and `entrypoint`. -/
def winKbdText (printable : Char → Bool) (order : List Nat → List Nat) (m : Dict (List Nat) (List VkVal)) (L : KeyboardLayout)
    (kb : PhysicalKeyboard) : Py Text := do
  let m := driverScancodes m
  let buttons ← unique (scancodeKey "windows") kb.keys
  let entries ← buttons.mapM (winKbdButton m L)
  driverText printable order m (entries.filterMap id)

end Lulua
