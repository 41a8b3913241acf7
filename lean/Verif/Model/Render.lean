import Mathlib.Data.List.Sort
import Verif.Model.Writer
import Verif.Model.Util

/-!
# `lulua/render.py`: the SVG picture

Numbers are rational. `svgwrite` objects are represented by the data they are created from; the shapes drawn from it are in
`Model/Shapes.lean`, classes and style in `Model/Svg.lean`. The file written is left out.
-/

namespace Lulua

/-- The members of `RendererSettings` that positions depend on (`render.py:37`). -/
structure RenderSettings where
  buttonMargin : Rat
  middleGap : Rat
  buttonWidth : Rat
  deriving DecidableEq, Repr

/-- `defaultSettings` (`render.py:44-51`). -/
def RenderSettings.default : RenderSettings := ⟨20, 10, 200⟩

/-- `Renderer.buttonWidth` (`render.py:254-256`). -/
def RenderSettings.widthOf (s : RenderSettings) (b : Btn) : Rat := b.width * s.buttonWidth

/-- `m` of `_calcDimensions`: positions of buttons. -/
abbrev Positions := Dict Button (Rat × Rat)

/-- One of the loops over the buttons of a half row (`render.py:134-137,141-144`): the new map and `cursor[0]`. -/
def placeButtons (s : RenderSettings) (y : Rat) : Positions → Rat → List Btn → Py (Positions × Rat)
  | m, x, [] => .ok (m, x)
  | m, x, b :: bs =>
    if m.contains b.i then .error .assertionError
    else placeButtons s y (m.set b.i (x, y)) (x + (s.widthOf b + s.buttonMargin)) bs

/-- The loop over rows (`render.py:133-151`); `y` is `cursor[1]`, `w` is `maxWidth`. -/
def placeRows (s : RenderSettings) : Positions → Rat → Rat → List (Row Btn) → Py (Positions × Rat × Rat)
  | m, y, w, [] => .ok (m, w, y)
  | m, y, w, (l, r) :: rows => do
    let (m, x) ← placeButtons s y m 0 l
    let (m, x) ← placeButtons s y m (x + s.middleGap) r
    placeRows s m (y + (s.buttonWidth + s.buttonMargin)) (max x w) rows

/-- `_calcDimensions` (`render.py:121-155`): positions, width and height. -/
def calcDimensions (s : RenderSettings) (kb : PhysicalKeyboard) : Py (Positions × Rat × Rat) := placeRows s [] 0 0 kb.rows

/-- A label of a button (`render.py:226-251`): the number of its style, its text, and whether it is shown as a control
character. (Each is drawn twice, the first time as shadow.) -/
structure Label where
  layer : Nat
  text : Text
  control : Bool
  deriving DecidableEq, Repr

/-- What is drawn for a button (`render.py:82-117`). -/
structure Drawn where
  button : Button
  width : Rat
  pos : Rat × Rat
  shadow : Option (Direction × Finger)
  unused : Bool
  marked : Bool
  highlight : Option Rat
  modifier : Bool
  labels : List Label
  deriving DecidableEq, Repr

/-- `layerToArrow[i]` (`render.py:87,89`). -/
def layerToArrow (i : Nat) : Py Text :=
  if i = 1 then .ok ['⭡'] else if i = 2 then .ok ['⭧'] else if i = 3 then .ok ['⭨'] else .error .keyError

/-- `displayText` of what a layer has for a button. `.other 0` stands for `None`, which a layout file may spell out; what is
neither text nor `None` cannot be displayed. -/
def displayVal (u : UniData) : Option LVal → Py (Option Text)
  | none => displayText u none
  | some (.str t) => displayText u (some t)
  | some (.other 0) => displayText u none
  | some (.other _) => .error .typeError

/-- `text.startswith ('[') and text.endswith (']')` and `text[1:-1]` (`render.py:238-240`). -/
def labelOf (layer : Nat) (text : Text) : Label :=
  if text.head? = some '[' ∧ text.getLast? = some ']' then ⟨layer, text.tail.dropLast, true⟩ else ⟨layer, text, false⟩

/-- `_drawLabel` (`render.py:210-252`): at most four, `None` is skipped. -/
def drawLabel (texts : List (Option Text)) : List Label :=
  (texts.zip [1, 2, 3, 4]).filterMap fun x => x.1.map fun t => labelOf x.2 t

/-- `any (buttonText)` (`render.py:96,102`). -/
def anyText (texts : List (Option Text)) : Bool := texts.any fun t => match t with
  | some (_ :: _) => true
  | _ => false

/-- `buttonText` (`render.py:83-91`), and `isModifier`. -/
def buttonLabels (u : UniData) (L : KeyboardLayout) (b : Button) : Py (Bool × List (Option Text)) :=
  if L.isModifier (frozenset [b]) then do
    let l ← L.modifierToLayer (frozenset [b])
    let a ← layerToArrow l.1
    .ok (true, [some a])
  else do
    let ts ← (L.getButtonText b).mapM (displayVal u)
    .ok (false, ts)

/-- The body of the loop of `render` (`render.py:82-117`). -/
def drawButton (u : UniData) (s : RenderSettings) (L : KeyboardLayout) (hf : HandFinger) (t : InternTable)
    (heat : Dict String Rat) (pos : Positions) (b : Btn) : Py Drawn := do
  let (isMod, texts) ← buttonLabels u L b.i
  let p ← pos.getItem b.i
  let shadow ← (if anyText texts then (hf b.i).map some else .ok none)
  let name ← t.nameOf b.i
  let highlight := (heat.get? name).getD 0
  .ok { button := b.i, width := s.widthOf b, pos := p, shadow := shadow, unused := !anyText texts, marked := b.isMarked
        highlight := if 0 < highlight then some highlight else none, modifier := isMod, labels := drawLabel texts }

/-- `Renderer.render` (`render.py:60-119`). -/
def renderPicture (u : UniData) (s : RenderSettings) (L : KeyboardLayout) (hf : HandFinger) (t : InternTable)
    (heat : Dict String Rat) (kb : PhysicalKeyboard) : Py (List Drawn × Rat × Rat) := do
  let (pos, size) ← calcDimensions s kb
  let drawn ← kb.keys.mapM (drawButton u s L hf t heat pos)
  .ok (drawn, size)

/-- `keyHeat` of a heatmap (`render.py:267-269`). The first line raises `ValueError` if there are no buttons. -/
def keyHeat (buttons : Dict String Nat) : Py (Dict String Rat) :=
  match buttons with
  | [] => .error .valueError
  | p :: rest =>
    let maxHeat := rest.foldl (fun m q => max m q.2) p.2
    if maxHeat = 0 then .error .zeroDivision
    else .ok (Dict.ofPairs (buttons.map fun q => (q.1, (q.2 : Rat) / maxHeat)))

/-- `unique (l, key)` (`render.py:258-259`). -/
def unique {α κ : Type} [DecidableEq κ] (key : α → Py κ) (l : List α) : Py (List α) := do
  let pairs ← l.mapM fun v => do
    let k ← key v
    .ok (k, v)
  .ok (Dict.ofPairs pairs).values

end Lulua
