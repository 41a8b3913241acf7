import Verif.Model.Render

/-!
# Specification of the picture
-/

namespace Lulua.Spec
open Lulua

/-- A rectangle: left, top, width, height. -/
structure Rect where
  x : Rat
  y : Rat
  w : Rat
  h : Rat

/-- At least `d` apart, horizontally or vertically. -/
def Rect.Apart (d : Rat) (a b : Rect) : Prop :=
  a.x + a.w + d ≤ b.x ∨ b.x + b.w + d ≤ a.x ∨ a.y + a.h + d ≤ b.y ∨ b.y + b.h + d ≤ a.y

/-- Inside a picture of that size. -/
def Rect.Inside (a : Rect) (width height : Rat) : Prop := 0 ≤ a.x ∧ a.x + a.w ≤ width ∧ 0 ≤ a.y ∧ a.y + a.h ≤ height

/-- The cap of a button drawn at `p`. -/
def capRect (s : RenderSettings) (b : Btn) (p : Rat × Rat) : Rect := ⟨p.1, p.2, b.width * s.buttonWidth, s.buttonWidth⟩

/-- Room taken by some buttons. -/
def roomFor (s : RenderSettings) (bs : List Btn) : Rat := (bs.map fun b => b.width * s.buttonWidth + s.buttonMargin).sum

/-- Left end of button number `j` of a row: behind those before it, and the gap if it belongs to the right hand. -/
def rowX (s : RenderSettings) (r : Row Btn) (j : Nat) : Rat :=
  roomFor s ((r.1 ++ r.2).take j) + if r.1.length ≤ j then s.middleGap else 0

/-- Sizes are not negative. -/
structure Sized (s : RenderSettings) (kb : PhysicalKeyboard) : Prop where
  margin : 0 ≤ s.buttonMargin
  gap : 0 ≤ s.middleGap
  width : 0 ≤ s.buttonWidth
  buttons : ∀ b ∈ kb.keys, 0 ≤ b.width

/-- Button `b` alone leads to layer `i` (the last one listing it). -/
def LeadsTo (layers : List Layer) (b : Button) (i : Nat) : Prop :=
  (∃ l : Layer, layers[i]? = some l ∧ [b] ∈ l.modifier) ∧ ∀ (j : Nat) (l : Layer), i < j → layers[j]? = some l → [b] ∉ l.modifier

/-- Button `b` alone is no modifier. -/
def NoModifier (layers : List Layer) (b : Button) : Prop := ∀ l ∈ layers, [b] ∉ l.modifier

/-- The arrow for a layer (its number counted from zero). -/
def arrows : List (Nat × Char) := [(1, '⭡'), (2, '⭧'), (3, '⭨')]

/-- What is to be shown for layer `k` of a button. -/
def Shown (u : UniData) (layers : List Layer) (b : Button) (k : Nat) (t : Text) : Prop :=
  ∃ (l : Layer) (x : Text), layers[k]? = some l ∧ l.layout.get? b = some (.str x) ∧ displayText u (some x) = .ok (some t)

/-- What the label of layer `k` says if the text to display is `t`. -/
def LabelSays (l : Label) (k : Nat) (t : Text) : Prop :=
  l.layer = k ∧ ((l.control = false ∧ l.text = t ∧ ¬ ∃ m, t = '[' :: m ++ [']']) ∨
    (l.control = true ∧ t = '[' :: l.text ++ [']']))

end Lulua.Spec
