import Verif.Model.Page
import Verif.Model.Pretty

/-!
# The texts of the figures printed

Formats of numbers (`stats.py:261-301`, `index.html:382,410-422`, `render.py:429`). Numbers are exact; with floating point
numbers the last digit may differ if the number is halfway between two. Texts of objects are parameters.
-/

namespace Lulua

/-- Digits with `d` decimals of a number of units of the last one. -/
def fixedDigits (d k : Nat) : Text :=
  natText (k / 10 ^ d) ++ '.' ::
    (List.replicate (d - (natText (k % 10 ^ d)).length) '0' ++ natText (k % 10 ^ d))

/-- `f'{x:.{d}f}'` or `'%.{d}f' % x`, for at least one decimal. -/
def fixedText (d : Nat) (x : Rat) : Text :=
  (if x < 0 then ['-'] else []) ++ fixedDigits d (halfEven (x.num.natAbs * 10 ^ d) x.den)

/-- Filling up with blanks on the right, as strings are. -/
def padRight (w : Nat) (s : Text) : Text := s ++ List.replicate (w - s.length) ' '

/-- `f'{n: 3d}'`: a blank in place of the sign of a positive number. -/
def signedRank (n : Int) : Text := padLeft 3 ((if n < 0 then '-' else ' ') :: natText n.natAbs)

/-- What `print` and `f'{…}'` make of objects and of floating point numbers without a format. -/
structure Shown where
  button : Button → Text
  comb : Comb → Text
  char : Char → Text
  hand : Direction → Text
  triad : Triad → Text
  number : Rat → Text

/-- `stats.py:264`. -/
def buttonLine (sh : Shown) (r : Button × Nat × Rat) : Text :=
  sh.button r.1 ++ [' '] ++ padLeft 10 (natText r.2.1) ++ [' '] ++ padLeft 5 (fixedText 1 r.2.2) ++ ['%']

/-- `stats.py:272`. -/
def combinationLine (sh : Shown) (r : CombinationRow) : Text :=
  signedRank r.rank ++ ". ".toList ++ padRight 4 r.text ++ [' '] ++ sh.comb r.comb ++ [' '] ++ padLeft 10 (natText r.count) ++ [' '] ++
    padLeft 7 (fixedText 3 r.share) ++ ['%']

/-- `stats.py:276`. -/
def unknownLine (sh : Shown) (r : Char × Nat) : Text := sh.char r.1 ++ [' '] ++ padLeft 10 (natText r.2)

/-- `stats.py:283,288`. -/
def runLine (r : Nat × Nat × Rat) : Text :=
  padLeft 2 (natText r.1) ++ [' '] ++ padLeft 10 (natText r.2.1) ++ [' '] ++ padLeft 5 (fixedText 1 r.2.2) ++ ['%']

/-- `stats.py:292`. -/
def triadLine (sh : Shown) (r : Triad × Nat) : Text := sh.triad r.1 ++ [' '] ++ padLeft 10 (natText r.2)

/-- `stats.py:297`. -/
def wordLine (r : Text × Nat × Rat) : Text :=
  padRight 20 r.1 ++ [' '] ++ padLeft 2 (fixedText 5 r.2.2) ++ [' '] ++ padLeft 10 (natText r.2.1)

/-- The lines `pretty` prints (`stats.py:262-301`). -/
def prettyLines (sh : Shown) (p : Pretty) (effort : Rat) : List Text :=
  ["button presses ".toList ++ natText p.presses] ++ p.buttons.map (buttonLine sh) ++
  ["combinations ".toList ++ natText p.combinationTotal] ++ p.combinations.map (combinationLine sh) ++
  ["unknown".toList] ++ p.unknown.map (unknownLine sh) ++
  p.hands.flatMap (fun h => sh.hand h.1 :: h.2.map runLine) ++
  ["combined".toList] ++ p.combined.map runLine ++
  ["triads".toList] ++ p.triads.map (triadLine sh) ++
  ["words ".toList ++ natText p.totalWords] ++ p.words.map wordLine ++
  ["total effort (carpalx) ".toList ++ sh.number effort]

/-- The texts of a finger in the table of the page: the width of its bar and its share (`index.html:417`). -/
def fingerTexts (f : FingerBar) : Text × Text := (fixedText 3 f.width, fixedText 2 f.pct)

/-- The texts of a hand: the width of its part, its share (`index.html:410-411`), and its fingers. -/
def handTexts (b : HandBar) : Text × Text × List (Text × Text) := (fixedText 3 b.pct, fixedText 2 b.pct, b.fingers.map fingerTexts)

/-- The asymmetry below the table (`index.html:422`). -/
def asymmetryText (t : LayoutTable) : Text := fixedText 3 t.asymmetry

/-- The figure about hamza (`index.html:382`). -/
def hamzaText (p : Page) : Text := fixedText 1 p.hamzaImpact

/-- `android:keyWidth` of a row (`render.py:429`). -/
def keyWidthText (r : AskRow) : Text := fixedText 2 r.width ++ "%p".toList

end Lulua
