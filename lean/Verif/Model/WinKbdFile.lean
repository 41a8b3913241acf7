import Verif.Model.WinKbdTables

/-!
# Model of `winkbd.py`: types, entry point and the whole file
-/

namespace Lulua

/-- A text given by its lines. -/
def textLines (ls : List String) : Text := ['\n'].intercalate (ls.map String.toList)

/-- The first types (`winkbd.py:658-676`). -/
def typedefsFirst : Text := textLines
  ["",
    "#include <wchar.h>",
    "",
    "typedef struct {",
    "    unsigned char Vk;",
    "    unsigned char ModBits;",
    "} VK_TO_BIT, *PVK_TO_BIT;",
    "",
    "typedef struct {",
    "    PVK_TO_BIT pVkToBit;",
    "    unsigned short wMaxModBits;",
    "    unsigned char ModNumber[];",
    "} MODIFIERS, *PMODIFIERS;",
    "",
    "typedef struct _VSC_VK {",
    "    unsigned char Vsc;",
    "    unsigned short Vk;",
    "} VSC_VK, *PVSC_VK;",
    ""]

/-- A type for rows of `n` characters (`winkbd.py:678-685`). -/
def wcharsType (n : Nat) : Text :=
  "\ntypedef struct _VK_TO_WCHARS".toList ++ natText n ++
    " {\n    unsigned char VirtualKey;\n    unsigned char Attributes;\n    wchar_t wch[".toList ++ natText n ++
    "];\n} VK_TO_WCHARS".toList ++ natText n ++ ", *PVK_TO_WCHARS".toList ++ natText n ++ ";\n".toList

/-- A type for ligatures (`winkbd.py:687-694`). -/
def ligatureType (n : Nat) : Text :=
  "\ntypedef struct _LIGATURE".toList ++ natText n ++
    " {\n    unsigned char VirtualKey;\n    unsigned short ModificationNumber;\n    wchar_t wch[".toList ++ natText n ++
    "];\n} LIGATURE".toList ++ natText n ++ ", *PLIGATURE".toList ++ natText n ++ ";\n".toList

/-- More types (`winkbd.py:696-712`). -/
def typedefsLast : Text := textLines
  ["",
    "typedef struct _VK_TO_WCHAR_TABLE {",
    "    PVK_TO_WCHARS1 pVkToWchars;",
    "    unsigned char nModifications;",
    "    unsigned char cbSize;",
    "} VK_TO_WCHAR_TABLE, *PVK_TO_WCHAR_TABLE;",
    "",
    "typedef struct {",
    "    unsigned long dwBoth;",
    "    wchar_t wchComposed;",
    "    unsigned short uFlags;",
    "} DEADKEY, *PDEADKEY;",
    "",
    "typedef struct {",
    "    unsigned char vsc;",
    "    wchar_t *pwsz;",
    "} VSC_LPWSTR, *PVSC_LPWSTR;",
    ""]

/-- The type of the table that refers to all others (`winkbd.py:714-763`). -/
def kbdTablesType : Text := textLines
  ["",
    "typedef struct tagKbdLayer {",
    "    /*",
    "     * Modifier keys",
    "     */",
    "    PMODIFIERS pCharModifiers;",
    "",
    "    /*",
    "     * Characters",
    "     */",
    "    PVK_TO_WCHAR_TABLE pVkToWcharTable;  // ptr to tbl of ptrs to tbl",
    "",
    "    /*",
    "     * Diacritics",
    "     */",
    "    PDEADKEY pDeadKey;",
    "",
    "    /*",
    "     * Names of Keys",
    "     */",
    "    PVSC_LPWSTR pKeyNames;",
    "    PVSC_LPWSTR pKeyNamesExt;",
    "    wchar_t **pKeyNamesDead;",
    "",
    "    /*",
    "     * Scan codes to Virtual Keys",
    "     */",
    "    unsigned short *pusVSCtoVK;",
    "    unsigned char    bMaxVSCtoVK;",
    "    PVSC_VK pVSCtoVK_E0;  // Scancode has E0 prefix",
    "    PVSC_VK pVSCtoVK_E1;  // Scancode has E1 prefix",
    "",
    "    /*",
    "     * Locale-specific special processing",
    "     */",
    "    unsigned long fLocaleFlags;",
    "",
    "    /*",
    "     * Ligatures",
    "     */",
    "    unsigned char       nLgMax;",
    "    unsigned char       cbLgEntry;",
    "    PLIGATURE1 pLigature;",
    "",
    "    /*",
    "     * Type and subtype. These are optional.",
    "     */",
    "    unsigned long dwType;     // Keyboard Type",
    "    unsigned long dwSubType;  // Keyboard SubType: may contain OemId",
    "} KBDTABLES, *PKBDTABLES;",
    ""]

/-- `typedefs` (`winkbd.py:658-763`). -/
def typedefs : Text :=
  typedefsFirst ++ (List.range' 1 8).flatMap wcharsType ++ [1].flatMap ligatureType ++ typedefsLast ++ kbdTablesType

/-- `entrypoint` (`winkbd.py:765-799`). -/
def entrypoint : Text := textLines
  ["",
    "#define KBD_VERSION (1)",
    "",
    "static KBDTABLES KbdTables = {",
    "    pCharModifiers: &CharModifiers,",
    "",
    "    pVkToWcharTable: aVkToWcharTable,",
    "",
    "    pDeadKey: NULL,",
    "",
    "    pKeyNames: aKeyNames,",
    "    pKeyNamesExt: aKeyNamesExt,",
    "    pKeyNamesDead: NULL,",
    "",
    "    pusVSCtoVK: ausVK,",
    "    bMaxVSCtoVK: sizeof(ausVK) / sizeof(*ausVK),",
    "    pVSCtoVK_E0: aE0VscToVk,",
    "    pVSCtoVK_E1: aE1VscToVk,",
    "",
    "    fLocaleFlags: (0 & 0xffffUL) | ((KBD_VERSION & 0xffffUL) << 16),",
    "",
    "    nLgMax: 0,",
    "    cbLgEntry: 0,",
    "    pLigature: NULL,",
    "",
    "    dwType: 0,",
    "    dwSubType: 0,",
    "};",
    "",
    "/* The main entry point of the driver",
    " */",
    "PKBDTABLES KbdLayerDescriptor() {",
    "    return &KbdTables;",
    "}",
    ""]

/-- `makeDriverSources` (`winkbd.py:801-822`). -/
def driverSources (printable : Char → Bool) (order : List Nat → List Nat) (scancodes : Dict (List Nat) (List VkVal))
    (charmap : List CharEntry) : Py Text := do
  let text ← driverText printable order scancodes charmap
  .ok (['\n'].intercalate [typedefs, text, entrypoint])

/-- What `renderWinKbd` (`render.py:470-512`) writes for a layout. -/
def winKbdSources (printable : Char → Bool) (order : List Nat → List Nat) (m : Dict (List Nat) (List VkVal)) (L : KeyboardLayout)
    (kb : PhysicalKeyboard) : Py Text := do
  let m := driverScancodes m
  let buttons ← unique (scancodeKey "windows") kb.keys
  let entries ← buttons.mapM (winKbdButton m L)
  let text ← driverSources printable order m (entries.filterMap id)
  .ok ("/* This header was auto-generated by lulua. Do not modify directly. */\n\n".toList ++ text)

end Lulua
