import Verif.Model.Xml

/-!
# A reader for the part of XML 1.0 these files use

Elements with attributes in double quotes and child elements; no text, comments, sections or single quotes. Names are
restricted to ASCII. https://www.w3.org/TR/xml/
-/

namespace Lulua.Spec
open Lulua

/-- `Char` ([2] in the recommendation): the characters a document may contain, also by reference. -/
def XmlChar (c : Char) : Prop :=
  c = '\t' ∨ c = '\n' ∨ c = '\r' ∨ (0x20 ≤ c.toNat ∧ c.toNat ≤ 0xD7FF) ∨ (0xE000 ≤ c.toNat ∧ c.toNat ≤ 0xFFFD) ∨
    (0x10000 ≤ c.toNat ∧ c.toNat ≤ 0x10FFFF)

instance (c : Char) : Decidable (XmlChar c) := by unfold XmlChar; infer_instance

def XmlText (t : Text) : Prop := ∀ c ∈ t, XmlChar c

instance (t : Text) : Decidable (XmlText t) := by unfold XmlText; infer_instance

/-- `S` ([3]). -/
def xmlSpace (c : Char) : Bool := c = ' ' || c = '\t' || c = '\n' || c = '\r'

def xmlNameStart (c : Char) : Bool := c.isAlpha || c = ':' || c = '_'

def xmlNameChar (c : Char) : Bool := c.isAlphanum || c = ':' || c = '_' || c = '-' || c = '.'

/-- A name, and what follows it. -/
def xmlName (s : Text) : Option (Text × Text) :=
  match s with
  | [] => none
  | c :: _ => if xmlNameStart c then some (s.takeWhile xmlNameChar, s.dropWhile xmlNameChar) else none

def decDigit (c : Char) : Option Nat := if c.isDigit then some (c.toNat - 48) else none

def hexDigit (c : Char) : Option Nat :=
  if c.isDigit then some (c.toNat - 48)
  else if 'a' ≤ c ∧ c ≤ 'f' then some (c.toNat - 87)
  else if 'A' ≤ c ∧ c ≤ 'F' then some (c.toNat - 55) else none

def digitsValue (base : Nat) (digit : Char → Option Nat) (s : Text) : Option Nat :=
  if s.isEmpty then none else s.foldl (fun a c => do let a ← a; let d ← digit c; some (a * base + d)) (some 0)

/-- What a reference stands for ([66]–[68]), given what is between `&` and `;`. -/
def xmlReference (s : Text) : Option Char :=
  if s = "lt".toList then some '<'
  else if s = "gt".toList then some '>'
  else if s = "amp".toList then some '&'
  else if s = "quot".toList then some '"'
  else if s = "apos".toList then some '\''
  else
    let n := match s with
      | '#' :: 'x' :: h => digitsValue 16 hexDigit h
      | '#' :: d => digitsValue 10 decDigit d
      | _ => none
    n.bind fun n => if XmlChar (Char.ofNat n) ∧ (Char.ofNat n).toNat = n then some (Char.ofNat n) else none

/-- An attribute value ([10], normalized as in 3.3.3) up to the closing quote, and what follows it. The first argument is
the beginning of a reference, reversed. -/
def xmlValue : Option Text → Text → Option (Text × Text)
  | _, [] => none
  | none, c :: s =>
    if c = '"' then some ([], s)
    else if c = '<' then none
    else if c = '&' then xmlValue (some []) s
    else if xmlSpace c then (xmlValue none s).map fun p => (' ' :: p.1, p.2)
    else if XmlChar c then (xmlValue none s).map fun p => (c :: p.1, p.2)
    else none
  | some r, c :: s =>
    if c = ';' then
      match xmlReference r.reverse with
      | some x => (xmlValue none s).map fun p => (x :: p.1, p.2)
      | none => none
    else xmlValue (some (c :: r)) s

/-- Attributes and the end of the tag: whether the element is empty, and what follows. -/
def xmlAttribs : Nat → Text → Option (List (Text × Text) × Bool × Text)
  | 0, _ => none
  | n + 1, s =>
    match s.dropWhile xmlSpace with
    | '/' :: '>' :: r => some ([], true, r)
    | '>' :: r => some ([], false, r)
    | s' =>
      if s' = s then none
      else
        match xmlName s' with
        | some (k, '=' :: '"' :: r) =>
          match xmlValue none r with
          | some (v, r) => (xmlAttribs n r).map fun p => ((k, v) :: p.1, p.2)
          | none => none
        | _ => none

mutual
  /-- An element ([39]), and what follows it. -/
  def xmlElement : Nat → Text → Option (Xml × Text)
    | 0, _ => none
    | n + 1, s =>
      match s with
      | '<' :: s =>
        match xmlName s with
        | none => none
        | some (tag, s) =>
          match xmlAttribs n s with
          | none => none
          | some (attribs, isEmpty, s) =>
            if (attribs.map Prod.fst).Nodup then
              if isEmpty then some (.elem tag attribs [], s)
              else
                match xmlContent n s with
                | none => none
                | some (children, s) =>
                  match xmlName s with
                  | none => none
                  | some (tag', s) =>
                    match s.dropWhile xmlSpace with
                    | '>' :: s => if tag' = tag then some (.elem tag attribs children, s) else none
                    | _ => none
            else none
      | _ => none
  /-- The elements up to `</`, and what follows it. -/
  def xmlContent : Nat → Text → Option (List Xml × Text)
    | 0, _ => none
    | n + 1, s =>
      match s with
      | '<' :: '/' :: s => some ([], s)
      | s =>
        match xmlElement n s with
        | none => none
        | some (e, s) => (xmlContent n s).map fun p => (e :: p.1, p.2)
end

/-- The text is the well-formed document with this root. -/
def ReadsAs (s : Text) (e : Xml) : Prop := ∃ n, xmlElement n s = some (e, [])

/-- The text is a well-formed document. -/
def WellFormed (s : Text) : Prop := ∃ e, ReadsAs s e

/-- A name. -/
def XmlName (s : Text) : Prop := (∃ c t, s = c :: t ∧ xmlNameStart c = true) ∧ ∀ c ∈ s, xmlNameChar c = true

mutual
  /-- Tags and names of attributes are names, and attributes differ. -/
  def Xml.Named : Xml → Prop
    | .elem tag attribs children =>
      XmlName tag ∧ (∀ p ∈ attribs, XmlName p.1) ∧ (attribs.map Prod.fst).Nodup ∧ Xml.AllNamed children
  def Xml.AllNamed : List Xml → Prop
    | [] => True
    | e :: es => Xml.Named e ∧ Xml.AllNamed es
end

mutual
  /-- The values of attributes. -/
  def Xml.values : Xml → List Text
    | .elem _ attribs children => attribs.map Prod.snd ++ Xml.allValues children
  def Xml.allValues : List Xml → List Text
    | [] => []
    | e :: es => Xml.values e ++ Xml.allValues es
end

/-! ### What a keyboard layout of macOS says

https://developer.apple.com/library/archive/technotes/tn2056/ -/

def _root_.Lulua.Xml.tag : Xml → Text | .elem t _ _ => t

def _root_.Lulua.Xml.children : Xml → List Xml | .elem _ _ cs => cs

def _root_.Lulua.Xml.attrib (e : Xml) (k : String) : Option Text := match e with | .elem _ as _ => as.lookup k.toList

/-- The elements with a tag inside a list. -/
def tagged (t : String) (es : List Xml) : List Xml := es.filter fun e => e.tag = t.toList

/-- The map that is used for a combination of modifiers: the code and output of its keys. -/
def keyMapFor (root : Xml) (keys : Text) : Option (List (Option Text × Option Text)) := do
  let select ← (tagged "keyMapSelect" ((tagged "modifierMap" root.children).flatMap Xml.children)).find? fun s =>
    (tagged "modifier" s.children).any fun m => m.attrib "keys" = some keys
  let index ← select.attrib "mapIndex"
  let map ← (tagged "keyMap" ((tagged "keyMapSet" root.children).flatMap Xml.children)).find? fun m => m.attrib "index" = some index
  some ((tagged "key" map.children).map fun k => (k.attrib "code", k.attrib "output"))

/-- The rows of a keyboard for AnySoftKeyboard: codes, label and popup of the keys. -/
def askRowsOf (root : Xml) : List (List (Option Text × Option Text × Option Text)) :=
  (tagged "Row" root.children).map fun r => (tagged "Key" r.children).map fun k =>
    (k.attrib "android:codes", k.attrib "android:keyLabel", k.attrib "android:popupCharacters")

end Lulua.Spec
