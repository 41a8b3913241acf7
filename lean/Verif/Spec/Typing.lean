import Verif.Model.Writer

/-!
# Specification vocabulary for typing

Only the plain data of a layout (its list of layers) and the plain events are mentioned here,
not the trie, the buffer or the scores.
-/

namespace Lulua.Spec
open Lulua

/-- Some button of some layer carries the text `t`. -/
def HasText (layers : List Layer) (t : Text) : Prop :=
  ∃ l ∈ layers, ∃ b, (b, LVal.str t) ∈ l.layout

/-- Pressing button `b` with the modifiers `m` held produces `t`: some layer lists `m` among its
modifiers and maps `b` to `t`. -/
def Produces (layers : List Layer) (m : FSet) (b : Button) (t : Text) : Prop :=
  ∃ l ∈ layers, m ∈ l.modifier ∧ (b, LVal.str t) ∈ l.layout

/-- `m` is the longest layout text that `input` starts with. -/
def LongestMatch (layers : List Layer) (input m : Text) : Prop :=
  HasText layers m ∧ m <+: input ∧ ∀ m', HasText layers m' → m' <+: input → m'.length ≤ m.length

/-- Nothing the layout can type is a prefix of `input`. -/
def NoMatch (layers : List Layer) (input : Text) : Prop :=
  ∀ t, HasText layers t → ¬ t <+: input

/-- The part of the text an event accounts for. -/
def eventText : Event → Text
  | .typed t _ => t
  | .skip c => [c]

/-- The text a sequence of events accounts for. -/
def eventsText (evs : List Event) : Text := evs.flatMap eventText

/-- All combinations producing `t`, in the order layer, button, modifier. -/
def producers (layers : List Layer) (t : Text) : List Comb :=
  layers.flatMap fun l => l.layout.flatMap fun e =>
    if e.2 = LVal.str t then l.modifier.map fun m => { modifier := m, buttons := [e.1] } else []

/-- Every button used in the layers has a finger. -/
def Fingered (hf : HandFinger) (layers : List Layer) : Prop :=
  ∀ l ∈ layers, (∀ m ∈ l.modifier, ∀ b ∈ m, ∃ p, hf b = .ok p) ∧
    ∀ e ∈ l.layout, ∃ p, hf e.1 = .ok p

/-- Every button of a combination has a finger. -/
def CombFingered (hf : HandFinger) (c : Comb) : Prop :=
  (∀ b ∈ c.modifier, ∃ p, hf b = .ok p) ∧ ∀ b ∈ c.buttons, ∃ p, hf b = .ok p

/-- No modifier set belongs to two layers (layer numbers `i`, `j`). -/
def UnambiguousModifiers (layers : List Layer) : Prop :=
  ∀ i j (hi : i < layers.length) (hj : j < layers.length) (m : FSet),
    m ∈ (layers[i]).modifier → m ∈ (layers[j]).modifier → i = j

/-- Every layer can be reached: it has a (possibly empty) set of modifiers. -/
def Reachable (layers : List Layer) : Prop := ∀ l ∈ layers, l.modifier ≠ []

/-- No text of the layout is empty. -/
def NoEmptyText (layers : List Layer) : Prop := ¬ HasText layers []

end Lulua.Spec
