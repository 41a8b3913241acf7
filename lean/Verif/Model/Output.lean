import Verif.Model.Xml
import Verif.Model.WinKbdFile

/-!
# The files `lulua-render` writes

Text of the files for xmodmap and Keyman, and what is left in the output file if an exception comes while it is being written: `with`
closes the file, so everything written so far stays, and what was in the file before is lost as soon as it has been opened. Files
are in UTF-8 and can be written; SVG files are not considered.
-/

namespace Lulua

/-- The content of the output file after a command, `none` if it has not been opened, and how the command ends. -/
structure FileResult where
  file : Option Text
  result : Py Unit

/-- `fd.write` of one piece after the other in a `with` block. Each is computed when it is written. -/
def writePieces : Text → List (Py Text) → FileResult
  | t, [] => ⟨some t, .ok ()⟩
  | t, .error e :: _ => ⟨some t, .error e⟩
  | t, .ok s :: r => writePieces (t ++ s) r

/-- `' '.join (…)` and the like. -/
def joinTexts (c : Char) (ts : List Text) : Text := [c].intercalate ts

/-! ### xmodmap -/

/-- The beginning of the file (`render.py:310-320`); `now` is the time. -/
def xmodmapHeader (name now : Text) : Text :=
  joinTexts '\n' ["!! auto-generated xmodmap".toList, "!! layout: ".toList ++ name, "!! generated: ".toList ++ now, [],
    "clear Lock".toList, "clear Mod2".toList, "clear Mod3".toList, "clear Mod5".toList, []]

/-- Two lines for a button (`render.py:364-365`); `ct` is `str` of a code. -/
def xmodmapText (ct : ScVal → Text) (x : XLine) : Text :=
  "!! ".toList ++ x.name.toList ++ "\nkeycode ".toList ++ ct x.keycode ++ " = ".toList ++ joinTexts '\t' x.symbols ++ ['\n']

/-- The last lines (`render.py:366`). -/
def xmodmapFooter : Text := joinTexts '\n' ["add Mod3 = ISO_First_Group".toList, "add Mod5 = ISO_Level3_Shift".toList, []]

/-- `keycodeMap` (`render.py:322-361`). -/
def xmodmapCodes (truthy : Nat → Bool) (L : KeyboardLayout) (kb : PhysicalKeyboard) : Py KeycodeMap := do
  let d ← xmodmapColumns.foldlM (xmodmapColumn truthy L kb) []
  xmodmapModifiers kb 0 d L.layers

/-- What is written for a button (`render.py:363-365`). -/
def xmodmapLine (t : InternTable) (p : Button × Btn × List Text) : Py XLine := do
  let name ← t.nameOf p.1
  let code ← p.2.1.scancodeAt "xorg"
  .ok ⟨p.1, name, code, p.2.2⟩

/-- `renderXmodmap` (`render.py:302-366`) after loading the layout. -/
def xmodmapFile (ct : ScVal → Text) (now : Text) (truthy : Nat → Bool) (t : InternTable) (L : KeyboardLayout) (kb : PhysicalKeyboard) :
    FileResult :=
  writePieces (xmodmapHeader L.name.toList now)
    (match xmodmapCodes truthy L kb with
      | .error e => [.error e]
      | .ok d => d.map (fun p => (xmodmapLine t p).map (xmodmapText ct)) ++ [.ok xmodmapFooter])

/-! ### Keyman -/

/-- The beginning of the file (`render.py:377-390`). -/
def keymanHeader (name now : Text) : Text :=
  joinTexts '\n' ["c Auto-generated file for Keyman 11.0".toList, "c layout: ".toList ++ name, "c generated: ".toList ++ now, [],
    "store(&version) \"9.0\"".toList, "store(&name)    \"".toList ++ name ++ ['"'], "store(&mnemoniclayout) \"0\"".toList,
    "store(&targets) \"any\"".toList, [], "begin Unicode > use(main)".toList, "group(main) using keys".toList, []]

/-- A rule (`render.py:401`). -/
def keymanRuleText (r : KeymanRule) : Text :=
  "+ [".toList ++ joinTexts ' ' (r.codes.map String.toList) ++ "] > ".toList ++ joinTexts ' ' r.text ++ ['\n']

/-- The body of the loop over modifiers (`render.py:392-401`). -/
def keymanPieces (order : FSet → List Button) (kb : PhysicalKeyboard) (l : Layer) (m : FSet) : List (Py Text) :=
  match (order m).mapM kb.object with
  | .error e => [.error e]
  | .ok bs => (keymanCheck bs).map (fun _ => []) :: l.layout.map fun e => (keymanRule kb bs e).map keymanRuleText

/-- `renderKeyman` (`render.py:368-401`) after loading the layout. -/
def keymanFile (now : Text) (order : FSet → List Button) (L : KeyboardLayout) (kb : PhysicalKeyboard) : FileResult :=
  writePieces (keymanHeader L.name.toList now) (L.layers.flatMap fun l => l.modifier.flatMap (keymanPieces order kb l))

/-! ### The other formats -/

/-- `renderAsk` (`render.py:403-468`) after loading the layout. `ElementTree.write` opens the file when the tree is complete. -/
def askFile (nfc : Text → Text) (fmt : Rat → Text) (L : KeyboardLayout) (kb : PhysicalKeyboard) : FileResult :=
  match ask nfc L kb with
  | .error e => ⟨none, .error e⟩
  | .ok (rows, bottom) =>
    ⟨some ("<?xml version='1.0' encoding='utf-8'?>\n".toList ++ serializeXml (askRoot fmt rows bottom)), .ok ()⟩

/-- `decl` (`render.py:551-553`). -/
def keylayoutDecl : Text :=
  "<?xml version=\"1.0\" encoding=\"utf-8\"?>\n<!DOCTYPE keyboard PUBLIC \"\" \"file://localhost/System/Library/DTDs/KeyboardLayout.dtd\">\n".toList

/-- `renderKeylayout` (`render.py:514-556`) after loading the layout: values are looked at after the file has been opened, codes
before. -/
def keylayoutFile (ct : ScVal → Text) (name : Option String) (L : KeyboardLayout) (kb : PhysicalKeyboard) : FileResult :=
  match L.layers.mapM fun l => l.layout.mapM (macKey kb) with
  | .error e => ⟨none, .error e⟩
  | .ok _ => writePieces keylayoutDecl
      [(keylayout name L kb).map fun maps => serializeXml (keylayoutRoot ct ((name.map String.toList).getD []) maps)]

/-- `renderKlavaro` (`render.py:558-585`) after loading the layout. -/
def klavaroFile (nfc : Text → Text) (L : KeyboardLayout) (kb : PhysicalKeyboard) : FileResult :=
  match klavaro nfc L kb with
  | .error e => ⟨none, .error e⟩
  | .ok t => ⟨some t, .ok ()⟩

/-- The first line of the C file (`render.py:481`). -/
def winKbdComment : Text := "/* This header was auto-generated by lulua. Do not modify directly. */\n\n".toList

/-- `renderWinKbd` (`render.py:470-512`) after loading the layout; `arg` is its name as given. -/
def winKbdFile (printable : Char → Bool) (order : List Nat → List Nat) (m : Dict (List Nat) (List VkVal)) (arg : Text)
    (L : KeyboardLayout) (kb : PhysicalKeyboard) : FileResult :=
  if arg ≠ "ar-lulua".toList then ⟨none, .ok ()⟩
  else match winKbdSources printable order m L kb with
    | .error e => ⟨some winKbdComment, .error e⟩
    | .ok t => ⟨some t, .ok ()⟩

/-! ### The disk -/

/-- The contents of files by path. -/
abbrev Disk := Text → Option Text

/-- After the command. -/
def FileResult.after (x : FileResult) (path : Text) (d : Disk) : Disk :=
  match x.file with
  | none => d
  | some t => fun p => if p = path then some t else d p

/-- The beginning of all commands of `lulua-render` (`render.py:303-304`): keyboard and layout are loaded before anything is opened. -/
def afterLoading {α : Type} (load : Py α) (f : α → FileResult) : FileResult :=
  match load with
  | .error e => ⟨none, .error e⟩
  | .ok x => f x

end Lulua
