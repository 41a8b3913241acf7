import Verif.Spec.Report
import Verif.Model.Page

/-!
# Specification for the page of the report
-/

namespace Lulua.Spec
open Lulua

/-- Digits to a number. -/
def wholeNumber (s : Text) : Option Nat := if !s.isEmpty && s.all Char.isDigit then some (Nat.ofDigitChars 10 s 0) else none

/-- How a reader takes a number on the page: blanks and thousands separators do not count; western and Arabic digits. -/
def readNumber (t : Text) : Option Rat :=
  let s := (t.map toWestern).filter fun c => c ≠ ' ' ∧ c ≠ Char.ofNat 0x2007 ∧ c ≠ ','
  match s.dropWhile (· ≠ '.') with
  | [] => (wholeNumber s).map fun n : Nat => (n : Rat)
  | _ :: f => (wholeNumber (s.takeWhile (· ≠ '.'))).bind fun n => (wholeNumber f).map fun m : Nat => (n : Rat) + (m : Rat) / 10 ^ f.length

/-- The words for 1, 1000, 1000² and 1000³. -/
def unitWords : PageLang → List String
  | .ar => ["", "ألف", "مليون", "مليار"]
  | .en => ["", "thousand", "million", "billion"]

/-- The cell shows a number with an error of at most half of the last digit. The number shown is from 1 to below 1000, as
far as there is a unit for it. -/
def ShowsAbout (lang : PageLang) (n : Nat) (c : Cell) : Prop :=
  ∃ (j : Nat) (v : Rat), readNumber c.num = some v ∧ (unitWords lang)[j]? = some (String.ofList c.unit) ∧
    |v * 1000 ^ j - n| ≤ 1 / 20 * 1000 ^ j ∧ (v < 1000 ∨ j = 3) ∧ (0 < j → 1 ≤ v)

/-- The name in a language, empty if there is none. -/
def nameIn (lang : PageLang) (n : BothNames) : Text :=
  match lang with
  | .ar => n.ar.getD []
  | .en => n.en.getD []

/-- The row shows where the document is from, how many texts it has, and its size. -/
structure RowShows (lang : PageLang) (d : CorpusDoc) (r : CorpusRow) : Prop where
  source : ∃ s n, d.source = some s ∧ s.name = some n ∧ r.url = s.url.getD [] ∧ r.name = nameIn lang n
  count : match d.count with
    | none => r.count = none
    | some c => ∃ cell num kind, r.count = some cell ∧ c.num = some num ∧ c.kind = some kind ∧
        readNumber cell.num = some (num : Rat) ∧ cell.unit = nameIn lang kind
  figures : ∃ characters words, d.stats = some (characters, words) ∧ ShowsAbout lang words r.words ∧
    ShowsAbout lang characters r.characters

/-- The document has what the page uses. -/
structure HasMetadata (d : CorpusDoc) : Prop where
  source : ∃ s n, d.source = some s ∧ s.name = some n
  count : ∀ c, d.count = some c → c.num ≠ none ∧ c.kind ≠ none
  stats : d.stats ≠ none

/-- The English name of a document. -/
def englishName (d : CorpusDoc) : Option Text := do
  let s ← d.source
  let n ← s.name
  n.en

/-- Alphabetical order by code points. -/
def NotAfter (s t : Text) : Prop := s = t ∨ List.Lex (fun a b : Char => a.toNat < b.toNat) s t

/-- The last file of a layout. -/
def LastOf (files : List (String × LayoutStats)) (name : String) (s : LayoutStats) : Prop :=
  ∃ a b, files = a ++ (name, s) :: b ∧ ∀ x ∈ b, x.1 ≠ name

/-- There are presses, by both hands, and an entry for every finger. -/
def AllFingers (s : LayoutStats) : Prop :=
  s.buttonPresses ≠ 0 ∧ ∀ d, (∃ n, n ≠ 0 ∧ s.hands.get? d = some n) ∧ ∀ f, s.fingers.get? (d, f) ≠ none

/-- The sum of a figure over the documents. -/
def sumOf (f : Nat × Nat → Nat) (docs : List CorpusDoc) : Nat := ((docs.filterMap (·.stats)).map f).sum

/-- What a browser makes of a cell with a link: the address ends at the first quotation mark, the text at the first `<`. -/
def readLink (t : Text) : Option (Text × Text) :=
  let start := "<td><a href=\"".toList
  if start.isPrefixOf t then
    let t := t.drop start.length
    let url := t.takeWhile (· ≠ '"')
    let t := t.drop url.length
    if ['"', '>'].isPrefixOf t then
      let t := t.drop 2
      let name := t.takeWhile (· ≠ '<')
      if t.drop name.length = "</a></td>".toList then some (url, name) else none
    else none
  else none

/-- The code points of the letters, with U+0654 HAMZAH ABOVE. -/
def letterShapes : List (String × List Nat) :=
  [ ("Hamzah", [0x621]), ("Alif", [0x627]), ("Alifhamzah", [0x627, 0x654]), ("Wawhamzah", [0x648, 0x654]),
    ("Yahamzah", [0x64a, 0x654]), ("Ba", [0x628]), ("Ta", [0x62a]), ("Tha", [0x62b]), ("Ra", [0x631]), ("Dal", [0x62f]),
    ("Dhal", [0x630]), ("Qaf", [0x642]), ("Lam", [0x644]), ("Lamalif", [0x644, 0x627]), ("Mim", [0x645]), ("Nun", [0x646]),
    ("Waw", [0x648]), ("Ya", [0x64a]), ("Tamarbutah", [0x629]), ("Alifmaqsurah", [0x649]) ]

/-- A romanised name in ASCII: without the signs for long vowels (U+0304), emphatic consonants (U+0323), hamzah (U+1D53) and
hyphens, and with `h` for the line below a consonant (U+0331). -/
def asciiName (t : Text) : Text :=
  (t.filter fun c => !([0x304, 0x323, 0x1d53, 0x2d, 0x20].contains c.toNat)).map fun c => if c.toNat = 0x331 then 'h' else c

end Lulua.Spec
