import Verif.Model.Formats

/-!
# Model of the command line syntax of `lulua/optimize.py`

Python's notion of white space and of decimal digits is a parameter.
-/

namespace Lulua

/-- What `int ()` asks the Unicode database: is a character white space, and is it a decimal digit. -/
structure UniNum where
  space : Char → Bool
  digit : Char → Option Nat

/-- Digits with single underscores between them; `after` tells that a digit comes right before. -/
def intDigits (u : UniNum) (after : Bool) (acc : Nat) : Text → Option Nat
  | [] => if after then some acc else none
  | c :: cs =>
    if c = '_' then (if after then intDigits u false acc cs else none)
    else match u.digit c with
      | some d => intDigits u true (acc * 10 + d) cs
      | none => none

/-- Sign and rest. -/
def intSign : Text → Bool × Text
  | '-' :: cs => (true, cs)
  | '+' :: cs => (false, cs)
  | cs => (false, cs)

/-- `int (s)` of a string. The limit on the number of digits of recent python versions is left out. -/
def pyInt (u : UniNum) (s : Text) : Py Int :=
  let x := intSign (pyStrip u.space s)
  match intDigits u false 0 x.2 with
  | some n => .ok (if x.1 then -(n : Int) else n)
  | none => .error .valueError

/-- `s.split (c, 1)`: what comes before the first `c`, and after it. -/
def splitFirst (c : Char) : Text → Text × Option Text
  | [] => ([], none)
  | x :: xs =>
    if x = c then ([], some xs)
    else let r := splitFirst c xs; (x :: r.1, r.2)

/-- Loop body of `parsePin` (`optimize.py:255-259`). -/
def parseOnePin (u : UniNum) (p : Text) : Py (Int × Option Text) := do
  let x := splitFirst ',' p
  let layer ← pyInt u x.1
  .ok (layer, x.2)

/-- `parsePin` (`optimize.py:240-261`), a list in place of the frozenset. -/
def parsePin (u : UniNum) (s : Text) : Py (List (Int × Option Text)) := (s.splitOn ';').mapM (parseOnePin u)

/-- `a1, a2 = a.split (c)`. -/
def splitTwo (c : Char) (s : Text) : Py (Text × Text) :=
  match s.splitOn c with
  | [a, b] => .ok (a, b)
  | _ => .error .valueError

/-- `parseMutation` (`optimize.py:263-267`). -/
def parseMutation (u : UniNum) (s : Text) : Py ((Int × Text) × (Int × Text)) := do
  let x ← splitTwo ':' s
  let a ← splitTwo ',' x.1
  let b ← splitTwo ',' x.2
  let i ← pyInt u a.1
  let j ← pyInt u b.1
  .ok ((i, a.2), (j, b.2))

end Lulua
