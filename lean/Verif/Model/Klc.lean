import Verif.Model.Formats
import Verif.Model.Layout

/-!
# Import of KLC files

Not modelled: writing the result as YAML; `Model/ImportMain.lean` decodes the file. White space, decimal digits outside of ASCII and canonical
decomposition are parameters. Imported texts are lists of code points, because they may be surrogates.
-/

namespace Lulua

/-- The part of a text before the first occurrence of `pat`: `line[:line.index (pat)]`, `none` for the `ValueError`. -/
def upTo (pat : Text) : Text → Option Text
  | [] => if pat = [] then some [] else none
  | c :: cs => if pat.isPrefixOf (c :: cs) then some [] else (upTo pat cs).map (c :: ·)

/-- Removal of comments and `strip` (`layout.py:309-314`). -/
def klcClean (isSpace : Char → Bool) (line : Text) : Text :=
  pyStrip isSpace (match upTo ['/', '/'] line with
    | none => line
    | some l => match upTo [';'] l with
      | none => l
      | some l' => l')

/-- `re.split (r'\s+', line)` (`layout.py:321`); `acc` is the current field in reverse. -/
def splitSpaces (isSpace : Char → Bool) : Text → Text → Bool → List Text
  | [], acc, _ => [acc.reverse]
  | c :: cs, acc, after =>
    if isSpace c then
      if after then splitSpaces isSpace cs acc true else acc.reverse :: splitSpaces isSpace cs [] true
    else splitSpaces isSpace cs (c :: acc) false

/-- Value of a digit for `int (…, 16)`; `dig` has the decimal digits outside of ASCII. -/
def hexDigitValue (dig : Char → Option Nat) (c : Char) : Option Nat :=
  if '0' ≤ c ∧ c ≤ '9' then some (c.toNat - 48)
  else if 'a' ≤ c ∧ c ≤ 'f' then some (c.toNat - 87)
  else if 'A' ≤ c ∧ c ≤ 'F' then some (c.toNat - 55)
  else if c.toNat < 128 then none else dig c

/-- Digits with single underscores between them. `us` says whether an underscore may come next. -/
def hexDigits (dig : Char → Option Nat) : Text → Bool → Nat → Option Nat
  | [], us, n => if us then some n else none
  | c :: cs, us, n =>
    if c = '_' then if us then hexDigits dig cs false n else none
    else match hexDigitValue dig c with
      | some d => hexDigits dig cs true (16 * n + d)
      | none => none

/-- The digits behind the sign, with or without `0x`. Decimal digits outside of ASCII are replaced before python looks for
the prefix, so its zero may be any. -/
def hexBody (dig : Char → Option Nat) (t : Text) : Option Nat :=
  match t with
  | z :: x :: cs =>
    if hexDigitValue dig z = some 0 ∧ (x = 'x' ∨ x = 'X') then if cs = [] then none else hexDigits dig cs true 0
    else hexDigits dig (z :: x :: cs) false 0
  | cs => hexDigits dig cs false 0

/-- `int (c, 16)` of a text without white space; `none` for the `ValueError`. -/
def intHex (dig : Char → Option Nat) (t : Text) : Option Int :=
  match t with
  | '+' :: cs => (hexBody dig cs).map Int.ofNat
  | '-' :: cs => (hexBody dig cs).map fun n : Nat => -(n : Int)
  | cs => (hexBody dig cs).map Int.ofNat

/-- `codeToText` (`layout.py:238-245`). `chr` raises `OverflowError` for numbers of more than 32 bit. -/
def codeToText (dig : Char → Option Nat) (nfd : Nat → List Nat) (c : Text) : Py (Option (List Nat)) :=
  if c = ['%', '%'] then .ok none
  else match intHex dig c with
    | none => .error .valueError
    | some n =>
      if n = -1 then .ok none
      else if n < -2147483648 ∨ 2147483647 < n then .error .otherError
      else if n < 0 ∨ 0x10FFFF < n then .error .valueError
      else .ok (some (nfd n.toNat))

/-- `vkToButton` (`layout.py:247-302`). -/
def vkToButton : Dict Text String :=
  [("OEM_3".toList, "Bl2"), ("1".toList, "Bl2"), ("2".toList, "Bl3"), ("3".toList, "Bl4"), ("4".toList, "Bl5"),
   ("5".toList, "Bl6"), ("6".toList, "Bl7"), ("7".toList, "Br6"), ("8".toList, "Br5"), ("9".toList, "Br4"),
   ("0".toList, "Br3"), ("OEM_MINUS".toList, "Br2"), ("OEM_PLUS".toList, "Br1"), ("Q".toList, "Cl1"), ("W".toList, "Cl2"),
   ("E".toList, "Cl3"), ("R".toList, "Cl4"), ("T".toList, "Cl5"), ("Y".toList, "Cr7"), ("U".toList, "Cr6"),
   ("I".toList, "Cr5"), ("O".toList, "Cr4"), ("P".toList, "Cr3"), ("OEM_4".toList, "Cr2"), ("OEM_6".toList, "Cr1"),
   ("OEM_5".toList, "Cr0"), ("A".toList, "Dl1"), ("S".toList, "Dl2"), ("D".toList, "Dl3"), ("F".toList, "Dl4"),
   ("G".toList, "Dl5"), ("H".toList, "Dr7"), ("J".toList, "Dr6"), ("K".toList, "Dr5"), ("L".toList, "Dr4"),
   ("OEM_1".toList, "Dr3"), ("OEM_7".toList, "Dr2"), ("OEM_102".toList, "El1"), ("Z".toList, "El2"), ("X".toList, "El3"),
   ("C".toList, "El4"), ("V".toList, "El5"), ("B".toList, "El6"), ("N".toList, "Er5"), ("M".toList, "Er4"),
   ("OEM_COMMA".toList, "Er3"), ("OEM_PERIOD".toList, "Er2"), ("OEM_2".toList, "Er1"), ("SPACE".toList, "Fl_space")]

/-- One `dict` for each of the six layers. -/
abbrev KlcLayers := List (Dict String (List Nat))

/-- `for i, c in enumerate (code)` (`layout.py:327-329`), from index `i`. -/
def klcAssign (button : String) : Nat → List (Option (List Nat)) → KlcLayers → Py KlcLayers
  | _, [], ls => .ok ls
  | i, none :: cs, ls => klcAssign button (i + 1) cs ls
  | i, some t :: cs, ls =>
    match ls[i]? with
    | none => .error .indexError
    | some l => klcAssign button (i + 1) cs (ls.set i (l.set button t))

/-- A line in layout mode (`layout.py:320-332`). -/
def klcEntry (isSpace : Char → Bool) (dig : Char → Option Nat) (nfd : Nat → List Nat) (ls : KlcLayers) (line : Text) : Py KlcLayers :=
  match splitSpaces isSpace line [] false with
  | _ :: virtKey :: _ :: code => do
    let code ← code.mapM (codeToText dig nfd)
    match vkToButton.get? virtKey with
    | some button => klcAssign button 0 code ls
    | none => if virtKey = "DECIMAL".toList then .ok ls else .error .assertionError
  | _ => .ok ls

/-- Body of the loop over lines (`layout.py:308-332`); the mode is true for `'layout'`. -/
def klcLine (isSpace : Char → Bool) (dig : Char → Option Nat) (nfd : Nat → List Nat) (s : Bool × KlcLayers) (line : Text) :
    Py (Bool × KlcLayers) :=
  let line := klcClean isSpace line
  if "LAYOUT".toList.isPrefixOf line then .ok (true, s.2)
  else if line = "LIGATURE".toList then .ok (false, s.2)
  else if s.1 then (klcEntry isSpace dig nfd s.2 line).map fun ls => (true, ls)
  else .ok s

/-- The layers of `fromKlc` (`layout.py:304-342`). -/
def fromKlc (isSpace : Char → Bool) (dig : Char → Option Nat) (nfd : Nat → List Nat) (lines : List Text) : Py KlcLayers := do
  let s ← lines.foldlM (klcLine isSpace dig nfd) (false, List.replicate 6 [])
  .ok s.2

/-- `layerSwitches` (`layout.py:334-341`). -/
def klcSwitches : List (List (List String)) :=
  [[[]], [["El_shift"], ["Er_shift"]], [["Fl_ctrl"], ["Fr_ctrl"]], [["El_shift", "Fl_ctrl"], ["Er_shift", "Fr_ctrl"]],
    [["Er_altgr"]], [["El_shift", "Er_altgr"]]]

/-- What `importKlc` writes (`layout.py:346-350`); `val` turns code points into a value of the layout. -/
def importKlc (val : List Nat → LVal) (layers : KlcLayers) : LayoutData :=
  ⟨"None", layers.zipWith (fun l m => ⟨m, l.map fun e => (e.1, val e.2)⟩) klcSwitches⟩

end Lulua
