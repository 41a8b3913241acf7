import Verif.Spec.Xml

/-!
# A reader for tables in C

Tokens (words, texts, single characters, lines of the preprocessor; comments and white space are dropped), and definitions
of arrays and structures with initializers. Texts must not contain a backslash. There are no character literals, line splices or
trigraphs in these tables.
-/

namespace Lulua.Spec
open Lulua

inductive CTok where
  | word (t : Text) | punct (c : Char) | str (t : Text) | directive (line : Text)
  deriving DecidableEq, Repr

/-- Where the reader is: between tokens, in a word (reversed), after a slash, in a comment, after an asterisk in a comment,
in a comment up to the end of the line, in a text, in a line of the preprocessor; or it has given up. -/
inductive CState where
  | start | word (acc : Text) | slash | comment | star | line | str (acc : Text) | dir (acc : Text) | bad
  deriving DecidableEq, Repr

def wordChar (c : Char) : Bool := c.isAlphanum || c = '_'

def cSpace (c : Char) : Bool := c = ' ' || c = '\t' || c = '\n' || c = '\r'

def cStart (c : Char) : CState × List CTok :=
  if wordChar c then (.word [c], [])
  else if c = '/' then (.slash, [])
  else if c = '"' then (.str [], [])
  else if c = '#' then (.dir [], [])
  else if cSpace c then (.start, [])
  else (.start, [.punct c])

def cStep : CState → Char → CState × List CTok
  | .start, c => cStart c
  | .word a, c => if wordChar c then (.word (c :: a), []) else ((cStart c).1, .word a.reverse :: (cStart c).2)
  | .slash, c =>
    if c = '*' then (.comment, []) else if c = '/' then (.line, []) else ((cStart c).1, .punct '/' :: (cStart c).2)
  | .comment, c => (if c = '*' then .star else .comment, [])
  | .star, c => (if c = '/' then .start else if c = '*' then .star else .comment, [])
  | .line, c => (if c = '\n' then .start else .line, [])
  | .str a, c => if c = '"' then (.start, [.str a.reverse]) else if c = '\\' ∨ c = '\n' then (.bad, []) else (.str (c :: a), [])
  | .dir a, c => if c = '\n' then (.start, [.directive a.reverse]) else (.dir (c :: a), [])
  | .bad, _ => (.bad, [])

def cRun : CState → Text → CState × List CTok
  | s, [] => (s, [])
  | s, c :: t => ((cRun (cStep s c).1 t).1, (cStep s c).2 ++ (cRun (cStep s c).1 t).2)

/-- The tokens of a text. Comments, texts and lines of the preprocessor have to end. -/
def cTokens (t : Text) : Option (List CTok) :=
  match cRun .start t with
  | (.start, ts) => some ts
  | (.line, ts) => some ts
  | (.word a, ts) => some (ts ++ [.word a.reverse])
  | (.slash, ts) => some (ts ++ [.punct '/'])
  | _ => none

/-- An initializer: an expression or a list. -/
inductive CInit where
  | expr (ts : List CTok) | list (l : List CInit)

/-- The item that is being read: nothing yet, an expression (reversed), a list that has been closed. -/
inductive CItem where
  | nothing | expr (ts : List CTok) | closed

/-- Lists being read, the innermost first, items reversed; or the whole initializer. -/
inductive CReading where
  | inside (stack : List (List CInit)) (item : CItem) | done (i : CInit)

def cInitStep : CReading → CTok → Option CReading
  | .done _, _ => none
  | _, .directive _ => none
  | .inside st .nothing, .punct '{' => some (.inside ([] :: st) .nothing)
  | .inside (l :: st) item, .punct '}' =>
    let l := match item with | .expr ts => CInit.expr ts.reverse :: l | _ => l
    match st with
    | [] => some (.done (.list l.reverse))
    | l' :: st => some (.inside ((.list l.reverse :: l') :: st) .closed)
  | .inside (l :: st) (.expr ts), .punct ',' => some (.inside ((.expr ts.reverse :: l) :: st) .nothing)
  | .inside (l :: st) .closed, .punct ',' => some (.inside (l :: st) .nothing)
  | _, .punct ',' => none
  | _, .punct '{' => none
  | .inside (l :: st) .nothing, t => some (.inside (l :: st) (.expr [t]))
  | .inside (l :: st) (.expr ts), t => some (.inside (l :: st) (.expr (t :: ts)))
  | _, _ => none

/-- `static TYPE NAME[] = INIT` or `static TYPE NAME = INIT`. -/
structure CDef where
  type : Text
  name : Text
  init : List CInit

def cInit (s type name : Text) (ts : List CTok) : Option CDef :=
  if s = "static".toList then
    match ts.foldlM cInitStep (.inside [] .nothing) with
    | some (.done (.list l)) => some ⟨type, name, l⟩
    | _ => none
  else none

/-- A definition; types are one or two words. -/
def cDef : List CTok → Option CDef
  | .word s :: .word type :: .word name :: .punct '[' :: .punct ']' :: .punct '=' :: ts => cInit s type name ts
  | .word s :: .word type :: .word type' :: .word name :: .punct '[' :: .punct ']' :: .punct '=' :: ts =>
    cInit s (type ++ ' ' :: type') name ts
  | .word s :: .word type :: .word name :: .punct '=' :: ts => cInit s type name ts
  | _ => none

/-- Definitions, each ended by `;`. No name may be defined twice. -/
def cDefs (ts : List CTok) : Option (List CDef) := do
  let parts := ts.splitOn (.punct ';')
  if parts.getLast? ≠ some [] then none
  let defs ← parts.dropLast.mapM cDef
  if (defs.map CDef.name).Nodup then some defs else none

def cFile (t : Text) : Option (List CDef) := do
  let ts ← cTokens t
  cDefs ts

/-! ### What a driver made from the tables does -/

/-- The value of a number. -/
def cNumber (w : Text) : Option Nat :=
  let w := if w.getLast? = some 'u' then w.dropLast else w
  if w.take 2 = ['0', 'x'] then digitsValue 16 hexDigit (w.drop 2) else digitsValue 10 decDigit w

/-- The value of a constant. `WCHAR_NONE` is defined elsewhere in the file. -/
def cConst : CInit → Option Nat
  | .expr [.word w] => if w = "WCHAR_NONE".toList then some 0xF000 else cNumber w
  | _ => none

def defNamed (ds : List CDef) (name : Text) : Option CDef := ds.find? fun d => d.name = name

/-- The first item is this word. -/
def firstIs (w : String) : CInit → Bool
  | .list (.expr [.word v] :: _) => v = w.toList
  | _ => false

/-- The rows of a table, given the row that refers to it: those before the one with key zero. The types `VK_TO_WCHARS1` to
`VK_TO_WCHARS8` exist (`winkbd.py:678-685`). -/
def charRows (ds : List CDef) : CInit → Option (List CInit)
  | .list [.expr [.punct '(', .word p, .punct ')', .word name], .expr [.word n], .expr size] => do
    let d ← defNamed ds name
    if p = "PVK_TO_WCHARS1".toList ∧ n ∈ ["1", "2", "3", "4", "5", "6", "7", "8"].map String.toList ∧ d.type = "VK_TO_WCHARS".toList ++ n ∧
        size = [.word "sizeof".toList, .punct '(', .word name, .punct '[', .word ['0'], .punct ']', .punct ')'] then
      some (d.init.takeWhile fun r => !firstIs "0" r)
    else none
  | _ => none

/-- The number stored for a key and a layer: in the first row for the key in any of the tables. `wchar_t` has 16 bits. -/
def storedChar (ds : List CDef) (vk : Text) (layer : Nat) : Option Nat := do
  let tables ← defNamed ds "aVkToWcharTable".toList
  let rows ← (tables.init.takeWhile fun r => !firstIs "NULL" r).mapM (charRows ds)
  let row ← rows.flatten.find? fun r => firstIs (String.ofList vk) r
  match row with
  | .list [_, _, .list cs] => do
    let c ← cs[layer]?
    let n ← cConst c
    some (n % 65536)
  | _ => none

/-- What Windows makes of a stored number (https://learn.microsoft.com/windows-hardware/drivers, `kbd.h`: `WCH_NONE`, `WCH_DEAD`, `WCH_LGTR`). -/
def typedUnit (n : Nat) : Option Nat := if n = 0xF000 ∨ n = 0xF001 ∨ n = 0xF002 then none else some n

end Lulua.Spec
