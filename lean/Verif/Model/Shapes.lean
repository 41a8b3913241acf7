import Verif.Model.Render

/-!
# `lulua/render.py`: the shapes in the SVG picture

`svgwrite` objects are represented by the numbers and texts they are created from. Numbers are rational; `0.3` and the like
are decimal fractions here.
-/

namespace Lulua

/-- `RendererSettings` (`render.py:37`). -/
structure ShapeSettings where
  base : RenderSettings
  rounded : Rat
  shadowOffset : Rat
  markerStroke : Rat
  deriving DecidableEq, Repr

/-- `defaultSettings` (`render.py:44-51`). -/
def ShapeSettings.default : ShapeSettings := ⟨.default, 10, 5, 7⟩

/-- `svgwrite` objects. Classes are left out except for `shadow` (they are in `Model/Svg.lean`), as are the dashes of boxes. The stroke of a
rectangle is zero if it is not given. -/
inductive Shape where
  | rect (x y w h : Rat) (rounded stroke : Rat) (shadow : Bool)
  | line (x₁ y₁ x₂ y₂ : Rat) (stroke : Rat) (shadow : Bool)
  | circle (cx cy r : Rat) (opacity : Rat)
  | text (x y : Rat) (style : Option Nat) (content : Text) (shadow : Bool)
  deriving DecidableEq, Repr

/-- `_drawCapShadow` (`render.py:157-165`). -/
def drawCapShadow (s : ShapeSettings) (width : Rat) (p : Rat × Rat) : Shape :=
  .rect (p.1 + s.shadowOffset) (p.2 + s.shadowOffset) width s.base.buttonWidth s.rounded 0 true

/-- `_drawCap` (`render.py:167-174`). -/
def drawCap (s : ShapeSettings) (width : Rat) (p : Rat × Rat) : Shape :=
  .rect p.1 p.2 width s.base.buttonWidth s.rounded 0 false

/-- `_drawMarker` (`render.py:176-198`). -/
def drawMarker (s : ShapeSettings) (width : Rat) (p : Rat × Rat) : List Shape :=
  let x₁ := p.1 + width * (3 / 10)
  let x₂ := p.1 + width * (7 / 10)
  let y := p.2 + s.base.buttonWidth * (9 / 10)
  [.line (x₁ + s.shadowOffset) (y + s.shadowOffset) (x₂ + s.shadowOffset) (y + s.shadowOffset) s.markerStroke true,
    .line x₁ y x₂ y s.markerStroke false]

/-- `_drawHighlight` (`render.py:200-208`). -/
def drawHighlight (s : ShapeSettings) (highlight : Rat) (width : Rat) (p : Rat × Rat) : Shape :=
  .circle (p.1 + width / 2) (p.2 + s.base.buttonWidth / 2) (min width s.base.buttonWidth / 2 * (9 / 10)) highlight

/-- `textParam` (`render.py:216-221`) for the label of a layer. -/
def textParam : Nat → Rat × Rat
  | 1 => (-1 / 4, 3 / 10)
  | 2 => (-1 / 4, -3 / 20)
  | 3 => (1 / 4, -3 / 20)
  | _ => (1 / 4, 3 / 10)

/-- The body of the inner loop of `_drawLabel` (`render.py:226-251`); `more` is `morexoff` and `moreyoff`. -/
def labelShapes (s : ShapeSettings) (width : Rat) (p : Rat × Rat) (shadow : Bool) (more : Rat) (l : Label) : List Shape :=
  let tx := (textParam l.layer).1 * s.base.buttonWidth + more
  let ty := (textParam l.layer).2 * s.base.buttonWidth + more
  let x := p.1 + width / 2 + tx
  let y := p.2 + s.base.buttonWidth / 2 + ty
  if l.control then [.rect (x - 40) (y - 40) 80 50 0 2 shadow, .text x y none l.text shadow]
  else [.text x y (some l.layer) l.text shadow]

/-- `_drawLabel` (`render.py:210-252`) for the labels `drawLabel` gives. -/
def drawLabels (s : ShapeSettings) (width : Rat) (p : Rat × Rat) (ls : List Label) : List Shape :=
  [(true, s.shadowOffset), (false, 0)].flatMap fun x => ls.flatMap (labelShapes s width p x.1 x.2)

/-- The four groups (`render.py:68-80`), drawn in this order. -/
structure Groups where
  capShadow : List Shape
  cap : List Shape
  highlight : List Shape
  label : List Shape
  deriving DecidableEq, Repr

/-- What the loop adds for a button (`render.py:96-117`). -/
def buttonShapes (s : ShapeSettings) (d : Drawn) : Groups where
  capShadow := match d.shadow with
    | some _ => [drawCapShadow s d.width d.pos]
    | none => []
  cap := drawCap s d.width d.pos :: if d.marked then drawMarker s d.width d.pos else []
  highlight := match d.highlight with
    | some v => [drawHighlight s v d.width d.pos]
    | none => []
  label := drawLabels s d.width d.pos d.labels

/-- The groups of all buttons. -/
def pictureShapes (s : ShapeSettings) (ds : List Drawn) : Groups where
  capShadow := ds.flatMap fun d => (buttonShapes s d).capShadow
  cap := ds.flatMap fun d => (buttonShapes s d).cap
  highlight := ds.flatMap fun d => (buttonShapes s d).highlight
  label := ds.flatMap fun d => (buttonShapes s d).label

end Lulua
