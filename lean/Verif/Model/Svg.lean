import Verif.Model.Shapes

/-!
# `lulua/render.py`: elements, classes and the style sheet of the SVG picture

Style sheets see an element through its name, its `class` attribute and the elements around it. A shape is represented
together with these; groups without shapes are left out. `svgwrite` writes the style sheet unchanged.
-/

namespace Lulua

/-- Name and `class` attribute of an element; the attribute is empty if there is none. -/
structure SvgNode where
  tag : Text
  cls : Text
  deriving DecidableEq, Repr

/-- A shape and the elements it is in, outermost first. The last one is its own. For text this is the `tspan` the text is
in. -/
structure SvgLeaf where
  path : List SvgNode
  shape : Shape
  deriving DecidableEq, Repr

def svgGroup (cls : String) : SvgNode := ⟨"g".toList, cls.toList⟩

/-- The element of the picture and `g` (`render.py:66,273,299`). -/
def svgRoot : List SvgNode := [⟨"svg".toList, []⟩, svgGroup ""]

/-- `finger.name.lower ()` (`render.py:98`, names from `layout.py:44-48`). -/
def Finger.lower : Finger → String
  | .little => "little"
  | .ring => "ring"
  | .middle => "middle"
  | .index => "index"
  | .thumb => "thumb"

/-- `hand.name.lower ()` (`render.py:98`, names from `layout.py:38-39`). -/
def Direction.lower : Direction → String
  | .left => "left"
  | .right => "right"

/-- `extraClass` (`render.py:98`). -/
def extraClass (hand : Direction) (finger : Finger) : Text :=
  "finger-".toList ++ finger.lower.toList ++ " hand-".toList ++ hand.lower.toList

/-- What is added to `gCapShadow` (`render.py:69-71,96-99`). -/
def svgCapShadow (s : ShapeSettings) (d : Drawn) : List SvgLeaf :=
  match d.shadow with
  | some (hand, finger) =>
    [⟨svgRoot ++ [svgGroup "cap-shadow", ⟨"rect".toList, extraClass hand finger⟩], drawCapShadow s d.width d.pos⟩]
  | none => []

/-- The lines of a marker in their group (`render.py:180-197`). -/
def svgMarker (s : ShapeSettings) (d : Drawn) : List SvgLeaf :=
  List.zipWith (fun cls sh => ⟨svgRoot ++ [svgGroup "cap", svgGroup "marker", ⟨"line".toList, cls⟩], sh⟩)
    ["shadow".toList, []] (drawMarker s d.width d.pos)

/-- What is added to `gCap` (`render.py:72-74,101-107`). -/
def svgCap (s : ShapeSettings) (d : Drawn) : List SvgLeaf :=
  ⟨svgRoot ++ [svgGroup "cap", ⟨"rect".toList, if d.unused then "unused".toList else []⟩], drawCap s d.width d.pos⟩ ::
    if d.marked then svgMarker s d else []

/-- What is added to `gHighlight` (`render.py:75-77,109-111`). -/
def svgHighlight (s : ShapeSettings) (d : Drawn) : List SvgLeaf :=
  match d.highlight with
  | some v => [⟨svgRoot ++ [svgGroup "highlight", ⟨"circle".toList, []⟩], drawHighlight s v d.width d.pos⟩]
  | none => []

/-- The third part of `textParam` (`render.py:216-221`). -/
def layerClass : Nat → Text
  | 1 => "layer-1".toList
  | 2 => "layer-2".toList
  | 3 => "layer-3".toList
  | _ => "layer-4".toList

/-- `' '.join ([cls] + extraclass)` (`render.py:223-225,237,247`). -/
def withShadow (cls : String) (shadow : Bool) : Text := cls.toList ++ if shadow then " shadow".toList else []

/-- The elements added for a label (`render.py:226-251`). -/
def labelPaths (shadow : Bool) (l : Label) : List (List SvgNode) :=
  let t : SvgNode := ⟨"text".toList, withShadow "label" shadow⟩
  if l.control then [[⟨"rect".toList, withShadow "controllabel" shadow⟩], [t, ⟨"tspan".toList, "controlchar".toList⟩]]
  else [[t, ⟨"tspan".toList, layerClass l.layer⟩]]

/-- What is added to `gLabel` (`render.py:78-80,113-117`). -/
def svgLabel (s : ShapeSettings) (d : Drawn) : List SvgLeaf :=
  let g := svgRoot ++ [svgGroup "label", svgGroup (if d.modifier then "modifier" else "")]
  [(true, s.shadowOffset), (false, 0)].flatMap fun x => d.labels.flatMap fun l =>
    List.zipWith (fun p sh => ⟨g ++ p, sh⟩) (labelPaths x.1 l) (labelShapes s d.width d.pos x.1 x.2 l)

/-- The picture, from back to front. -/
def svgPicture (s : ShapeSettings) (ds : List Drawn) : List SvgLeaf :=
  ds.flatMap (svgCapShadow s) ++ ds.flatMap (svgCap s) ++ ds.flatMap (svgHighlight s) ++ ds.flatMap (svgLabel s)

/-- A digit of `base64.b64encode`. -/
def b64Char (n : Nat) : Char :=
  ("ABCDEFGHIJKLMNOPQRSTUVWXYZabcdefghijklmnopqrstuvwxyz0123456789+/".toList)[n]?.getD '='

/-- `base64.b64encode` (`render.py:286`). -/
def b64encode : List UInt8 → Text
  | [] => []
  | [a] => [b64Char (a.toNat / 4), b64Char (a.toNat % 4 * 16), '=', '=']
  | [a, b] => [b64Char (a.toNat / 4), b64Char (a.toNat % 4 * 16 + b.toNat / 16), b64Char (b.toNat % 16 * 4), '=']
  | a :: b :: c :: rest =>
    b64Char (a.toNat / 4) :: b64Char (a.toNat % 4 * 16 + b.toNat / 16) :: b64Char (b.toNat % 16 * 4 + c.toNat / 64) ::
      b64Char (c.toNat % 64) :: b64encode rest

/-- What is added to `style` for a font (`render.py:287-294`). -/
def fontFace (font : String) (weight : String) (data : List UInt8) : Text :=
  "\n                @font-face {\n                font-family: '".toList ++ font.toList ++
  "';\n                font-style: normal;\n                font-weight: ".toList ++ weight.toList ++
  ";\n                src: url(\"data:application/font-woff2;charset=utf-8;base64,".toList ++ b64encode data ++
  "\") format('woff2');\n                }\n                ".toList

/-- `style` (`render.py:279-296`) for the data of the two font files and the text of the style sheet. -/
def svgStyle (thin regular : List UInt8) (sheet : Text) : Text :=
  fontFace "IBM Plex Sans Arabic" "100" thin ++ fontFace "IBM Plex Sans Arabic" "400" regular ++ sheet

end Lulua
