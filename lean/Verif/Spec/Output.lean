import Verif.Model.Output
import Mathlib.Data.List.SplitOn

/-!
# Reading the files for xmodmap and Keyman
-/

namespace Lulua.Spec
open Lulua

/-- A blank or tabulator. -/
def blankChar (c : Char) : Bool := c = ' ' || c = '\t'

/-- The words of a line, if `cur` is the beginning of the first one. -/
def wordsFrom : Text → Text → List Text
  | cur, [] => if cur = [] then [] else [cur]
  | cur, c :: r =>
    if blankChar c then (if cur = [] then wordsFrom [] r else cur :: wordsFrom [] r) else wordsFrom (cur ++ [c]) r

/-- The words of a line. -/
def lineWords (l : Text) : List Text := wordsFrom [] l

/-- The commands `xmodmap` finds in a file: its lines as words, without empty lines and comments. -/
def xmodmapCommands (t : Text) : List (List Text) :=
  ((t.splitOn '\n').filter fun l => lineWords l ≠ [] ∧ l.head? ≠ some '!').map lineWords

/-- A text of one word. -/
def OneWord (t : Text) : Prop := t ≠ [] ∧ ∀ c ∈ t, blankChar c = false ∧ c ≠ '\n'

/-- Nothing is typed any more with a keyboard set up by these commands. -/
def clears : List (List Text) :=
  [["clear".toList, "Lock".toList], ["clear".toList, "Mod2".toList], ["clear".toList, "Mod3".toList], ["clear".toList, "Mod5".toList]]

/-- A rule of a Keyman file: the keys in brackets, and the characters. -/
def keymanReadRule (l : Text) : Option (List Text × List Text) :=
  match l with
  | '+' :: ' ' :: '[' :: r =>
    match r.dropWhile (· ≠ ']') with
    | ']' :: ' ' :: '>' :: s => some (lineWords (r.takeWhile (· ≠ ']')), lineWords s)
    | _ => none
  | _ => none

/-- The rules of a Keyman file. -/
def keymanReadRules (t : Text) : List (List Text × List Text) := (t.splitOn '\n').filterMap keymanReadRule

end Lulua.Spec
