import Verif.Model.Analyze
import Verif.Spec.Stats

/-!
# Specification vocabulary for the figures of the report
-/

namespace Lulua.Spec
open Lulua

/-- Every press in `evs` produces the text it was made for. -/
def TypedWith (layers : List Layer) (evs : List Event) : Prop :=
  ∀ t c, Event.typed t c ∈ evs → ∃ m b, c = { modifier := m, buttons := [b] } ∧ Produces layers m b t

/-- The texts typed, one for every press. -/
def typedTexts (evs : List Event) : List Text :=
  evs.filterMap fun e => match e with
    | .typed t _ => some t
    | .skip _ => none

/-- No layer lists the same set of modifiers twice. -/
def DistinctModifiers (layers : List Layer) : Prop := ∀ l ∈ layers, l.modifier.Nodup

/-- Letters carrying a hamza: alef with one above or below, yah and waw with one above. -/
def hamzaLetters : List Text :=
  [[Char.ofNat 0x627, Char.ofNat 0x654], [Char.ofNat 0x627, Char.ofNat 0x655], [Char.ofNat 0x64a, Char.ofNat 0x654],
   [Char.ofNat 0x648, Char.ofNat 0x654]]

/-- The letter alef and its two forms with hamza. -/
def alefLetter : Text := [Char.ofNat 0x627]
def alefAbove : Text := [Char.ofNat 0x627, Char.ofNat 0x654]
def alefBelow : Text := [Char.ofNat 0x627, Char.ofNat 0x655]

end Lulua.Spec
