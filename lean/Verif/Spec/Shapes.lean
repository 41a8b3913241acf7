import Verif.Model.Shapes
import Verif.Spec.Render

/-!
# Specification of the shapes in the picture
-/

namespace Lulua.Spec
open Lulua

/-- `a` lies in `b`. -/
def Rect.Within (a b : Rect) : Prop := b.x ≤ a.x ∧ a.x + a.w ≤ b.x + b.w ∧ b.y ≤ a.y ∧ a.y + a.h ≤ b.y + b.h

/-- A rectangle that covers the shape, including its stroke. How much room text needs depends on the font; only the point is
known where it is put. -/
def Shape.box : Shape → Rect
  | .rect x y w h _ stroke _ => ⟨x - stroke / 2, y - stroke / 2, w + stroke, h + stroke⟩
  | .line x₁ y₁ x₂ y₂ stroke _ => ⟨min x₁ x₂, min y₁ y₂ - stroke / 2, |x₂ - x₁|, |y₂ - y₁| + stroke⟩
  | .circle cx cy r _ => ⟨cx - r, cy - r, 2 * r, 2 * r⟩
  | .text x y _ _ _ => ⟨x, y, 0, 0⟩

/-- The shape is the shadow of another one, inside its group. -/
def Shape.isShadow : Shape → Bool
  | .rect _ _ _ _ _ _ shadow => shadow
  | .line _ _ _ _ _ shadow => shadow
  | .circle _ _ _ _ => false
  | .text _ _ _ _ shadow => shadow

/-- The shadow of a shape: the same thing, `d` to the right and `d` down. -/
def Shape.castsShadow (d : Rat) : Shape → Shape
  | .rect x y w h r stroke _ => .rect (x + d) (y + d) w h r stroke true
  | .line x₁ y₁ x₂ y₂ stroke _ => .line (x₁ + d) (y₁ + d) (x₂ + d) (y₂ + d) stroke true
  | .circle cx cy r o => .circle (cx + d) (cy + d) r o
  | .text x y style t _ => .text (x + d) (y + d) style t true

/-- All shapes, from back to front. -/
def Groups.all (g : Groups) : List Shape := g.capShadow ++ g.cap ++ g.highlight ++ g.label

/-- The cap of a button. -/
def capOf (s : ShapeSettings) (d : Drawn) : Rect := ⟨d.pos.1, d.pos.2, d.width, s.base.buttonWidth⟩

/-- The cap of a button and its shadow. -/
def cellOf (s : ShapeSettings) (d : Drawn) : Rect :=
  ⟨d.pos.1, d.pos.2, d.width + s.shadowOffset, s.base.buttonWidth + s.shadowOffset⟩

/-- The quarter of the cap where the label of a layer belongs: clockwise from the lower left one. -/
def quarter (s : ShapeSettings) (d : Drawn) (layer : Nat) : Rect :=
  ⟨d.pos.1 + (if layer = 1 ∨ layer = 2 then 0 else d.width / 2),
    d.pos.2 + (if layer = 2 ∨ layer = 3 then 0 else s.base.buttonWidth / 2), d.width / 2, s.base.buttonWidth / 2⟩

/-- What a text shape says. -/
def Shape.says : Shape → Option Text
  | .text _ _ _ t _ => some t
  | _ => none

/-- Buttons are high enough for what is drawn on them: the boxes around names of control characters have a fixed size and
markers a fixed stroke. -/
structure Roomy (s : ShapeSettings) : Prop where
  shadow : 0 ≤ s.shadowOffset
  stroke : 0 ≤ s.markerStroke ∧ s.markerStroke ≤ s.base.buttonWidth / 5
  high : 164 ≤ s.base.buttonWidth

end Lulua.Spec
