import Verif.Model.Layout

/-!
# Specification vocabulary for buttons, keyboards and generic layouts
-/

namespace Lulua.Spec
open Lulua

/-- A process creating buttons with the given names: the final tables and the number of each
button created. -/
def createAll (t : InternTable) : List String → InternTable × List Button
  | [] => (t, [])
  | n :: ns =>
    let (t', i) := t.intern n
    let (t'', is) := createAll t' ns
    (t'', i :: is)

/-- Distinct names in the order of their first use. -/
def distinct (names : List String) : List String :=
  names.foldl (fun ns n => if n ∈ ns then ns else ns ++ [n]) []

/-- The tables of a process that has created buttons `names` since its start. -/
def tableAfter (names : List String) : InternTable := InternTable.initial.internAll names

/-- All buttons of a keyboard were created in this process. -/
def Named (t : InternTable) (bs : List Btn) : Prop := ∀ b ∈ bs, ∃ n, t.nameOf b.i = .ok n

/-- The button occurs in this row. -/
def InRow (r : Row Btn) (b : Button) : Prop := ∃ x, (x ∈ r.1 ∨ x ∈ r.2) ∧ x.i = b

/-- What the constructors guarantee about a button object: windows scancodes are a tuple, exactly
`MultiRowButton`s have a span, the name is registered. -/
structure Constructed (t : InternTable) (b : Btn) : Prop where
  named : ∃ n, t.nameOf b.i = .ok n
  windows : ∀ d v, b.scancode = some d → d.get? "windows" = some v → ∃ l, v = .tuple l
  span : b.span.isSome ↔ b.kind = .multi

/-- A description in the form `serialize` produces: everything spelled out except for defaults of
`isMarked` and `kind`, windows scancodes as a list. -/
structure Canonical (d : ButtonData) : Prop where
  name : d.name.isSome
  width : d.width.isSome
  isMarked : d.isMarked ≠ some false
  kind : d.kind = none ∨ d.kind = some "letter" ∨ d.kind = some "multi"
  span : d.span.isSome ↔ d.kind = some "multi"
  scancode : d.scancode.isSome
  windows : ∀ s v, d.scancode = some (some s) → s.get? "windows" = some v → ∃ l, v = .list l

/-- Two lists of names denote the same set. -/
def SameSet (a b : List String) : Prop := ∀ n, n ∈ a ↔ n ∈ b

/-- Two generic layers are equal: same texts, same modifier sets in the same order. -/
def SameLayer (a b : GLayer) : Prop :=
  a.layout = b.layout ∧ List.Forall₂ SameSet a.modifier b.modifier

/-- All button names a layer mentions, as key or modifier. -/
def layerNames (l : GLayer) : List String := l.layout.map Prod.fst ++ l.modifier.flatten

/-- `kb` has a button called `n`. -/
def HasButton (t : InternTable) (kb : PhysicalKeyboard) (n : String) : Prop :=
  ∃ b ∈ kb.keys, t.nameOf b.i = .ok n

/-- `b` is called `n` and is on the keyboard. -/
def Called (t : InternTable) (kb : PhysicalKeyboard) (n : String) (b : Button) : Prop :=
  (∃ x ∈ kb.keys, x.i = b) ∧ t.nameOf b = .ok n

/-- A specialized layer is the translation of a generic one: the button called `n` has the value
`n` has, there is nothing else, and the modifier sets are translated name by name. -/
structure Translates (t : InternTable) (kb : PhysicalKeyboard) (g : GLayer) (l : Layer) : Prop where
  texts : ∀ n b, Called t kb n b → l.layout.get? b = g.layout.get? n
  nothingElse : ∀ b v, l.layout.get? b = some v → ∃ n, Called t kb n b
  modifiers : List.Forall₂ (fun (m : List String) (s : FSet) =>
    FSet.WF s ∧ ∀ b, b ∈ s ↔ ∃ n ∈ m, Called t kb n b) g.modifier l.modifier

end Lulua.Spec
