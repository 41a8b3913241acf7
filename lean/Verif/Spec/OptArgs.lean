import Verif.Model.OptArgs

/-!
# Specification vocabulary for the command line of the optimizer
-/

namespace Lulua.Spec
open Lulua

/-- A Unicode database that knows the ten digits and the Latin letters. -/
structure PlainNum (u : UniNum) : Prop where
  digit : ∀ c, c.isDigit → u.digit c = some (c.toNat - 48) ∧ u.space c = false
  letter : ∀ c, c.isAlpha → u.digit c = none ∧ u.space c = false
  minus : u.space '-' = false

/-- Decimal notation. -/
def decimal (n : Int) : Text := (toString n).toList

/-- A pin as it is to be written: `layer` or `layer,pattern`. -/
def writePin (p : Int × Option Text) : Text :=
  match p.2 with
  | none => decimal p.1
  | some pat => decimal p.1 ++ ',' :: pat

/-- Pins as they are to be written: separated by `;`. -/
def writePins (ps : List (Int × Option Text)) : Text := [';'].intercalate (ps.map writePin)

/-- A mutation as it is to be written: `layer,button:layer,button`. -/
def writeMutation (m : (Int × Text) × (Int × Text)) : Text :=
  decimal m.1.1 ++ ',' :: m.1.2 ++ ':' :: (decimal m.2.1 ++ ',' :: m.2.2)

end Lulua.Spec
