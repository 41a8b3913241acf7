import Verif.Model.Export

/-!
# The XML files written by `renderKeylayout` and `renderAsk` (`lulua/render.py`)

The serializer is `xml.etree.ElementTree` of python 3.11, for elements without text and names without namespaces in
braces. The XML declaration and the document type in front of the root element are left out. `str` of a code and the
number format of a width are parameters.
-/

namespace Lulua

/-- `Element` without text and tail. -/
inductive Xml where
  | elem (tag : Text) (attribs : List (Text × Text)) (children : List Xml)

/-- `t.replace (c, r)` for a single character. -/
def replaceChar (c : Char) (r : Text) (t : Text) : Text := t.flatMap fun x => if x = c then r else [x]

/-- `_escape_attrib` (`ElementTree.py`). -/
def escapeAttrib (t : Text) : Text :=
  let t := replaceChar '&' "&amp;".toList t
  let t := replaceChar '<' "&lt;".toList t
  let t := replaceChar '>' "&gt;".toList t
  let t := replaceChar '"' "&quot;".toList t
  let t := replaceChar '\r' "&#13;".toList t
  let t := replaceChar '\n' "&#10;".toList t
  replaceChar '\t' "&#09;".toList t

/-- `" %s=\"%s\"" % (qnames[k], v)` (`ElementTree.py: _serialize_xml`). -/
def serializeAttrib (p : Text × Text) : Text := ' ' :: p.1 ++ '=' :: '"' :: escapeAttrib p.2 ++ ['"']

mutual
  /-- `_serialize_xml` (`ElementTree.py`). -/
  def serializeXml : Xml → Text
    | .elem tag attribs children =>
      '<' :: tag ++ attribs.flatMap serializeAttrib ++
        (if children.isEmpty then [' ', '/', '>'] else '>' :: serializeAll children ++ '<' :: '/' :: tag ++ ['>'])
  /-- `for e in elem` in `_serialize_xml`. -/
  def serializeAll : List Xml → Text
    | [] => []
    | e :: es => serializeXml e ++ serializeAll es
end

/-- An element without children. -/
def Xml.leaf (tag : String) (attribs : List (String × Text)) : Xml :=
  .elem tag.toList (attribs.map fun p => (p.1.toList, p.2)) []

/-- An element with children. -/
def Xml.node (tag : String) (attribs : List (String × Text)) (children : List Xml) : Xml :=
  .elem tag.toList (attribs.map fun p => (p.1.toList, p.2)) children

/-- `str (n)`. -/
def natText (n : Nat) : Text := Nat.toDigits 10 n

/-- The root element of `renderKeylayout` (`render.py:527-549`) for the maps `keylayout` gives. -/
def keylayoutRoot (codeText : ScVal → Text) (name : Text) (maps : List (List (ScVal × Text))) : Xml :=
  .node "keyboard" [("group", ['0']), ("id", "14242".toList), ("name", name), ("maxout", ['3'])]
    [.node "modifierMap" [("id", ['0']), ("defaultIndex", ['0'])]
      (["", "anyShift caps?", "caps", "anyOption"].zipIdx.map fun p =>
        .node "keyMapSelect" [("mapIndex", natText p.2)] [.leaf "modifier" [("keys", p.1.toList)]]),
    .node "keyMapSet" [("id", ['1'])]
      (maps.zipIdx.map fun p => .node "keyMap" [("index", natText p.2)]
        (p.1.map fun k => .leaf "key" [("code", codeText k.1), ("output", k.2)])),
    .node "layouts" []
      [.leaf "layout" [("first", ['0']), ("last", ['0']), ("modifiers", ['0']), ("mapSet", ['1'])]]]

/-- `','.join (map (lambda x: str (ord (x)), …))` (`render.py:447`). -/
def codesText (cs : List Nat) : Text := [','].intercalate (cs.map natText)

/-- The root element of `renderAsk` (`render.py:417-465`) for the rows `ask` gives. `fmt` is the format `.2f`. -/
def askRoot (fmt : Rat → Text) (rows : List AskRow) (bottom : List (Dict String String)) : Xml :=
  .node "Keyboard" [("xmlns:android", "http://schemas.android.com/apk/res/android".toList),
      ("xmlns:ask", "http://schemas.android.com/apk/res-auto".toList)]
    (rows.map (fun r => .node "Row"
        (("android:keyWidth", fmt r.width ++ "%p".toList) ::
          if r.top then [("android:rowEdgeFlags", "top".toList), ("android:keyHeight", "@integer/key_short_height".toList)] else [])
        (r.keys.map fun k => .leaf "Key" [("android:codes", codesText k.codes), ("android:keyLabel", k.label),
          ("android:popupCharacters", k.popup), ("ask:hintLabel", k.hint)])) ++
      [.node "Row" [("android:rowEdgeFlags", "bottom".toList), ("android:keyHeight", "@integer/key_normal_height".toList)]
        (bottom.map fun a => .leaf "Key" (a.map fun p => (p.1, p.2.toList)))])

end Lulua
