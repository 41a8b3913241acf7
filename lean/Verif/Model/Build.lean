import Verif.Py.Core

/-!
# Model of the rule `opt` of `gen.sh` (lines 24, 34-35)

`ninja` puts the values of its variables into the command as they are and gives it to `sh`. Of `sh` only the separation of
commands at `;` and of words at blanks is modelled; lines with quotes, backslashes, `$`, `&` and the like are not
covered. Redirections are words here.
-/

namespace Lulua

/-- The commands in a line of `sh`, each split into words. -/
def shellCommands (line : Text) : List (List Text) :=
  (line.splitOn ';').map fun c => (c.splitOn ' ').filter fun w => !w.isEmpty

/-- Command of the rule `opt` (`gen.sh:35`). -/
def optCommand (rounds pins model input output : Text) : Text :=
  "lulua-optimize -n ".toList ++ rounds ++ " -r -p ".toList ++ pins ++ " -l ar-lulua -m ".toList ++ model ++ " < ".toList ++
    input ++ " > ".toList ++ output

/-- `optpins` (`gen.sh:24`). -/
def optpins : Text := "0;1;2;0,B*;3,*".toList

end Lulua
