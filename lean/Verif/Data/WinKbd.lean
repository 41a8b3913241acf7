import Verif.Model.WinKbd

/-!
# Tables of the Windows driver

Written by `tools/gen_data.py` from `lulua/winkbd.py`. Virtual keys and flags are given by their numbers.
-/

namespace Lulua.Data

/-- `qwertyScancodeToVk` (`winkbd.py:254-415`). -/
def qwertyScancodeToVk : Dict (List Nat) (List VkVal) :=
  [([0x01], [.key 0x1B]), ([0x02], [.key 0x31]), ([0x03], [.key 0x32]), ([0x04], [.key 0x33]),
   ([0x05], [.key 0x34]), ([0x06], [.key 0x35]), ([0x07], [.key 0x36]), ([0x08], [.key 0x37]),
   ([0x09], [.key 0x38]), ([0x0A], [.key 0x39]), ([0x0B], [.key 0x30]), ([0x0C], [.key 0xBD]),
   ([0x0D], [.key 0xBB]), ([0x0E], [.key 0x08]), ([0x0F], [.key 0x09]), ([0x10], [.key 0x51]),
   ([0x11], [.key 0x57]), ([0x12], [.key 0x45]), ([0x13], [.key 0x52]), ([0x14], [.key 0x54]),
   ([0x15], [.key 0x59]), ([0x16], [.key 0x55]), ([0x17], [.key 0x49]), ([0x18], [.key 0x4F]),
   ([0x19], [.key 0x50]), ([0x1A], [.key 0xDB]), ([0x1B], [.key 0xDD]), ([0x1C], [.key 0x0D]),
   ([0x1D], [.key 0xA2]), ([0x1E], [.key 0x41]), ([0x1F], [.key 0x53]), ([0x20], [.key 0x44]),
   ([0x21], [.key 0x46]), ([0x22], [.key 0x47]), ([0x23], [.key 0x48]), ([0x24], [.key 0x4A]),
   ([0x25], [.key 0x4B]), ([0x26], [.key 0x4C]), ([0x27], [.key 0xBA]), ([0x28], [.key 0xDE]),
   ([0x29], [.key 0xC0]), ([0x2A], [.key 0xA0]), ([0x2B], [.key 0xDC]), ([0x2C], [.key 0x5A]),
   ([0x2D], [.key 0x58]), ([0x2E], [.key 0x43]), ([0x2F], [.key 0x56]), ([0x30], [.key 0x42]),
   ([0x31], [.key 0x4E]), ([0x32], [.key 0x4D]), ([0x33], [.key 0xBC]), ([0x34], [.key 0xBE]),
   ([0x35], [.key 0xBF]), ([0x36], [.key 0xA1, .flag 0x0100]),
   ([0x37], [.key 0x6A, .flag 0x0200]), ([0x38], [.key 0xA4]), ([0x39], [.key 0x20]),
   ([0x3A], [.key 0x14]), ([0x3B], [.key 0x70]), ([0x3C], [.key 0x71]), ([0x3D], [.key 0x72]),
   ([0x3E], [.key 0x73]), ([0x3F], [.key 0x74]), ([0x40], [.key 0x75]), ([0x41], [.key 0x76]),
   ([0x42], [.key 0x77]), ([0x43], [.key 0x78]), ([0x44], [.key 0x79]),
   ([0x45], [.key 0x90, .flag 0x0100, .flag 0x0200]), ([0x46], [.key 0x91, .flag 0x0200]),
   ([0x47], [.key 0x24, .flag 0x0800, .flag 0x0400]),
   ([0x48], [.key 0x26, .flag 0x0800, .flag 0x0400]),
   ([0x49], [.key 0x21, .flag 0x0800, .flag 0x0400]), ([0x4A], [.key 0x6D]),
   ([0x4B], [.key 0x25, .flag 0x0800, .flag 0x0400]),
   ([0x4C], [.key 0x0C, .flag 0x0800, .flag 0x0400]),
   ([0x4D], [.key 0x27, .flag 0x0800, .flag 0x0400]), ([0x4E], [.key 0x6B]),
   ([0x4F], [.key 0x23, .flag 0x0800, .flag 0x0400]),
   ([0x50], [.key 0x28, .flag 0x0800, .flag 0x0400]),
   ([0x51], [.key 0x22, .flag 0x0800, .flag 0x0400]),
   ([0x52], [.key 0x2D, .flag 0x0800, .flag 0x0400]),
   ([0x53], [.key 0x2E, .flag 0x0800, .flag 0x0400]), ([0x54], [.key 0x2C]),
   ([0x56], [.key 0xE2]), ([0x57], [.key 0x7A]), ([0x58], [.key 0x7B]), ([0x59], [.key 0x0C]),
   ([0x5A], [.key 0xEE]), ([0x5B], [.key 0xF1]), ([0x5C], [.key 0xEA]), ([0x5D], [.key 0xF9]),
   ([0x5E], [.key 0xF5]), ([0x5F], [.key 0xF3]), ([0x62], [.key 0xFB]), ([0x63], [.key 0x2F]),
   ([0x64], [.key 0x7C]), ([0x65], [.key 0x7D]), ([0x66], [.key 0x7E]), ([0x67], [.key 0x7F]),
   ([0x68], [.key 0x80]), ([0x69], [.key 0x81]), ([0x6A], [.key 0x82]), ([0x6B], [.key 0x83]),
   ([0x6C], [.key 0x84]), ([0x6D], [.key 0x85]), ([0x6E], [.key 0x86]), ([0x6F], [.key 0xED]),
   ([0x71], [.key 0xE9]), ([0x73], [.key 0xC1]), ([0x76], [.key 0x87]), ([0x7B], [.key 0xEB]),
   ([0x7C], [.key 0x09]), ([0x7E], [.key 0xC2]), ([0x7F], [.key 0xEC]),
   ([0xE0, 0x10], [.key 0xB1, .flag 0x0100]), ([0xE0, 0x19], [.key 0xB0, .flag 0x0100]),
   ([0xE0, 0x1C], [.key 0x0D, .flag 0x0100]), ([0xE0, 0x1D], [.key 0xA3, .flag 0x0100]),
   ([0xE0, 0x20], [.key 0xAD, .flag 0x0100]), ([0xE0, 0x21], [.key 0xB7, .flag 0x0100]),
   ([0xE0, 0x22], [.key 0xB3, .flag 0x0100]), ([0xE0, 0x24], [.key 0xB2, .flag 0x0100]),
   ([0xE0, 0x2E], [.key 0xAE, .flag 0x0100]), ([0xE0, 0x30], [.key 0xAF, .flag 0x0100]),
   ([0xE0, 0x32], [.key 0xAC, .flag 0x0100]), ([0xE0, 0x35], [.key 0x6F, .flag 0x0100]),
   ([0xE0, 0x37], [.key 0x2C, .flag 0x0100]), ([0xE0, 0x38], [.key 0xA5, .flag 0x0100]),
   ([0xE0, 0x46], [.key 0x03, .flag 0x0100]), ([0xE0, 0x47], [.key 0x24, .flag 0x0100]),
   ([0xE0, 0x48], [.key 0x26, .flag 0x0100]), ([0xE0, 0x49], [.key 0x21, .flag 0x0100]),
   ([0xE0, 0x4B], [.key 0x25, .flag 0x0100]), ([0xE0, 0x4D], [.key 0x27, .flag 0x0100]),
   ([0xE0, 0x4F], [.key 0x23, .flag 0x0100]), ([0xE0, 0x50], [.key 0x28, .flag 0x0100]),
   ([0xE0, 0x51], [.key 0x22, .flag 0x0100]), ([0xE0, 0x52], [.key 0x2D, .flag 0x0100]),
   ([0xE0, 0x53], [.key 0x2E, .flag 0x0100]), ([0xE0, 0x5B], [.key 0x5B, .flag 0x0100]),
   ([0xE0, 0x5C], [.key 0x5C, .flag 0x0100]), ([0xE0, 0x5D], [.key 0x5D, .flag 0x0100]),
   ([0xE0, 0x5F], [.key 0x5F, .flag 0x0100]), ([0xE0, 0x65], [.key 0xAA, .flag 0x0100]),
   ([0xE0, 0x66], [.key 0xAB, .flag 0x0100]), ([0xE0, 0x67], [.key 0xA8, .flag 0x0100]),
   ([0xE0, 0x68], [.key 0xA9, .flag 0x0100]), ([0xE0, 0x69], [.key 0xA7, .flag 0x0100]),
   ([0xE0, 0x6A], [.key 0xA6, .flag 0x0100]), ([0xE0, 0x6B], [.key 0xB6, .flag 0x0100]),
   ([0xE0, 0x6C], [.key 0xB4, .flag 0x0100]), ([0xE0, 0x6D], [.key 0xB5, .flag 0x0100]),
   ([0xE1, 0x1D], [.key 0x13])]

/-- `qwertyScancodeToName` (`winkbd.py:457-533`). -/
def qwertyScancodeToName : Dict (List Nat) String :=
  [([0x01], "Esc"), ([0x0E], "Backspace"), ([0x0F], "Tab"), ([0x1C], "Enter"), ([0x1D], "Ctrl"),
   ([0x2A], "Shift"), ([0x36], "Right Shift"), ([0x37], "Num *"), ([0x38], "Alt"),
   ([0x39], "Space"), ([0x3A], "Caps Lock"), ([0x3B], "F1"), ([0x3C], "F2"), ([0x3D], "F3"),
   ([0x3E], "F4"), ([0x3F], "F5"), ([0x40], "F6"), ([0x41], "F7"), ([0x42], "F8"),
   ([0x43], "F9"), ([0x44], "F10"), ([0x45], "Pause"), ([0x46], "Scroll Lock"),
   ([0x47], "Num 7"), ([0x48], "Num 8"), ([0x49], "Num 9"), ([0x4A], "Num -"),
   ([0x4B], "Num 4"), ([0x4C], "Num 5"), ([0x4D], "Num 6"), ([0x4E], "Num +"),
   ([0x4F], "Num 1"), ([0x50], "Num 2"), ([0x51], "Num 3"), ([0x52], "Num 0"),
   ([0x53], "Num Del"), ([0x54], "Sys Req"), ([0x57], "F11"), ([0x58], "F12"), ([0x7C], "F13"),
   ([0x7D], "F14"), ([0x7E], "F15"), ([0x7F], "F16"), ([0x80], "F17"), ([0x81], "F18"),
   ([0x82], "F19"), ([0x83], "F20"), ([0x84], "F21"), ([0x85], "F22"), ([0x86], "F23"),
   ([0x87], "F24"), ([0xE0, 0x1C], "Num Enter"), ([0xE0, 0x1D], "Right Ctrl"),
   ([0xE0, 0x35], "Num /"), ([0xE0, 0x37], "Prnt Scrn"), ([0xE0, 0x38], "Right Alt"),
   ([0xE0, 0x45], "Num Lock"), ([0xE0, 0x46], "Break"), ([0xE0, 0x47], "Home"),
   ([0xE0, 0x48], "Up"), ([0xE0, 0x49], "Page Up"), ([0xE0, 0x4B], "Left"),
   ([0xE0, 0x4D], "Right"), ([0xE0, 0x4F], "End"), ([0xE0, 0x50], "Down"),
   ([0xE0, 0x51], "Page Down"), ([0xE0, 0x52], "Insert"), ([0xE0, 0x53], "Delete"),
   ([0xE0, 0x54], "<00>"), ([0xE0, 0x56], "Help"), ([0xE0, 0x5B], "Left Windows"),
   ([0xE0, 0x5C], "Right Windows"), ([0xE0, 0x5D], "Application")]

/-- `vkval` (`winkbd.py:36-233`). -/
def vkval : Dict String Nat :=
  [("LBUTTON", 0x01), ("RBUTTON", 0x02), ("CANCEL", 0x03), ("MBUTTON", 0x04),
   ("XBUTTON1", 0x05), ("XBUTTON2", 0x06), ("BACK", 0x08), ("TAB", 0x09), ("CLEAR", 0x0C),
   ("RETURN", 0x0D), ("SHIFT", 0x10), ("CONTROL", 0x11), ("MENU", 0x12), ("PAUSE", 0x13),
   ("CAPITAL", 0x14), ("KANA", 0x15), ("HANGEUL", 0x15), ("HANGUL", 0x15), ("JUNJA", 0x17),
   ("FINAL", 0x18), ("HANJA", 0x19), ("KANJI", 0x19), ("ESCAPE", 0x1B), ("CONVERT", 0x1C),
   ("NONCONVERT", 0x1D), ("ACCEPT", 0x1E), ("MODECHANGE", 0x1F), ("SPACE", 0x20),
   ("PRIOR", 0x21), ("NEXT", 0x22), ("END", 0x23), ("HOME", 0x24), ("LEFT", 0x25), ("UP", 0x26),
   ("RIGHT", 0x27), ("DOWN", 0x28), ("SELECT", 0x29), ("PRINT", 0x2A), ("EXECUTE", 0x2B),
   ("SNAPSHOT", 0x2C), ("INSERT", 0x2D), ("DELETE", 0x2E), ("HELP", 0x2F), ("LWIN", 0x5B),
   ("RWIN", 0x5C), ("APPS", 0x5D), ("SLEEP", 0x5F), ("NUMPAD0", 0x60), ("NUMPAD1", 0x61),
   ("NUMPAD2", 0x62), ("NUMPAD3", 0x63), ("NUMPAD4", 0x64), ("NUMPAD5", 0x65),
   ("NUMPAD6", 0x66), ("NUMPAD7", 0x67), ("NUMPAD8", 0x68), ("NUMPAD9", 0x69),
   ("MULTIPLY", 0x6A), ("ADD", 0x6B), ("SEPARATOR", 0x6C), ("SUBTRACT", 0x6D),
   ("DECIMAL", 0x6E), ("DIVIDE", 0x6F), ("F1", 0x70), ("F2", 0x71), ("F3", 0x72), ("F4", 0x73),
   ("F5", 0x74), ("F6", 0x75), ("F7", 0x76), ("F8", 0x77), ("F9", 0x78), ("F10", 0x79),
   ("F11", 0x7A), ("F12", 0x7B), ("F13", 0x7C), ("F14", 0x7D), ("F15", 0x7E), ("F16", 0x7F),
   ("F17", 0x80), ("F18", 0x81), ("F19", 0x82), ("F20", 0x83), ("F21", 0x84), ("F22", 0x85),
   ("F23", 0x86), ("F24", 0x87), ("NUMLOCK", 0x90), ("SCROLL", 0x91), ("OEM_NEC_EQUAL", 0x92),
   ("OEM_FJ_JISHO", 0x92), ("OEM_FJ_MASSHOU", 0x93), ("OEM_FJ_TOUROKU", 0x94),
   ("OEM_FJ_LOYA", 0x95), ("OEM_FJ_ROYA", 0x96), ("LSHIFT", 0xA0), ("RSHIFT", 0xA1),
   ("LCONTROL", 0xA2), ("RCONTROL", 0xA3), ("LMENU", 0xA4), ("RMENU", 0xA5),
   ("BROWSER_BACK", 0xA6), ("BROWSER_FORWARD", 0xA7), ("BROWSER_REFRESH", 0xA8),
   ("BROWSER_STOP", 0xA9), ("BROWSER_SEARCH", 0xAA), ("BROWSER_FAVORITES", 0xAB),
   ("BROWSER_HOME", 0xAC), ("VOLUME_MUTE", 0xAD), ("VOLUME_DOWN", 0xAE), ("VOLUME_UP", 0xAF),
   ("MEDIA_NEXT_TRACK", 0xB0), ("MEDIA_PREV_TRACK", 0xB1), ("MEDIA_STOP", 0xB2),
   ("MEDIA_PLAY_PAUSE", 0xB3), ("LAUNCH_MAIL", 0xB4), ("LAUNCH_MEDIA_SELECT", 0xB5),
   ("LAUNCH_APP1", 0xB6), ("LAUNCH_APP2", 0xB7), ("OEM_1", 0xBA), ("OEM_PLUS", 0xBB),
   ("OEM_COMMA", 0xBC), ("OEM_MINUS", 0xBD), ("OEM_PERIOD", 0xBE), ("OEM_2", 0xBF),
   ("OEM_3", 0xC0), ("ABNT_C1", 0xC1), ("ABNT_C2", 0xC2), ("OEM_4", 0xDB), ("OEM_5", 0xDC),
   ("OEM_6", 0xDD), ("OEM_7", 0xDE), ("OEM_8", 0xDF), ("OEM_AX", 0xE1), ("OEM_102", 0xE2),
   ("ICO_HELP", 0xE3), ("ICO_00", 0xE4), ("PROCESSKEY", 0xE5), ("ICO_CLEAR", 0xE6),
   ("PACKET", 0xE7), ("OEM_RESET", 0xE9), ("OEM_JUMP", 0xEA), ("OEM_PA1", 0xEB),
   ("OEM_PA2", 0xEC), ("OEM_PA3", 0xED), ("OEM_WSCTRL", 0xEE), ("OEM_CUSEL", 0xEF),
   ("OEM_ATTN", 0xF0), ("OEM_FINISH", 0xF1), ("OEM_COPY", 0xF2), ("OEM_AUTO", 0xF3),
   ("OEM_ENLW", 0xF4), ("OEM_BACKTAB", 0xF5), ("ATTN", 0xF6), ("CRSEL", 0xF7), ("EXSEL", 0xF8),
   ("EREOF", 0xF9), ("PLAY", 0xFA), ("ZOOM", 0xFB), ("NONAME", 0xFC), ("PA1", 0xFD),
   ("OEM_CLEAR", 0xFE), ("NULL", 0xFF), ("NUMBER0", 0x30), ("NUMBER1", 0x31), ("NUMBER2", 0x32),
   ("NUMBER3", 0x33), ("NUMBER4", 0x34), ("NUMBER5", 0x35), ("NUMBER6", 0x36),
   ("NUMBER7", 0x37), ("NUMBER8", 0x38), ("NUMBER9", 0x39), ("A", 0x41), ("B", 0x42),
   ("C", 0x43), ("D", 0x44), ("E", 0x45), ("F", 0x46), ("G", 0x47), ("H", 0x48), ("I", 0x49),
   ("J", 0x4A), ("K", 0x4B), ("L", 0x4C), ("M", 0x4D), ("N", 0x4E), ("O", 0x4F), ("P", 0x50),
   ("Q", 0x51), ("R", 0x52), ("S", 0x53), ("T", 0x54), ("U", 0x55), ("V", 0x56), ("W", 0x57),
   ("X", 0x58), ("Y", 0x59), ("Z", 0x5A)]

end Lulua.Data
