import Verif.Model.Xmodmap

/-!
# Model of the remaining exporters in `lulua/render.py`: Keyman, AnySoftKeyboard, macOS and Klavaro

The parts of the files that depend on the layout are modelled as records; the XML around them is in `Model/Xml.lean`. Layout values that are no text and not `None` are taken for numbers, which are not iterable.
-/

namespace Lulua

/-! ### Keyman -/

/-- `+ [codes] > text` (`render.py:398-401`). -/
structure KeymanRule where
  codes : List String
  text : List Text
  deriving DecidableEq, Repr

/-- The loop over the buttons of a modifier (`render.py:393-397`): whether it complains. -/
def keymanCheck : List Btn → Py Bool
  | [] => .ok false
  | x :: xs => do
    let v ← x.scancodeAt "keyman"
    match v with
    | .str s => if "K_".toList.isPrefixOf s.toList ∨ s = "CAPS" then .ok true else keymanCheck xs
    | _ => .error .attributeError

/-- An element passed to `' '.join`. -/
def joinable : ScVal → Py String
  | .str s => .ok s
  | _ => .error .typeError

/-- `f'U+{ord (x):04X}' for x in text` (`render.py:400`). -/
def keymanText : LVal → Py (List Text)
  | .str t => .ok (t.map fun c => 'U' :: '+' :: hex4 c.toNat)
  | .other _ => .error .typeError

/-- The body of the loop over a layer (`render.py:398-401`). -/
def keymanRule (kb : PhysicalKeyboard) (m : List Btn) (e : Button × LVal) : Py KeymanRule := do
  let b ← kb.object e.1
  let codes ← (m ++ [b]).mapM fun x => x.scancodeAt "keyman"
  let comb ← codes.mapM joinable
  let text ← keymanText e.2
  .ok ⟨comb, text⟩

/-- The body of the loop over modifiers (`render.py:392-401`). `order` is the iteration order of a set. -/
def keymanModifier (order : FSet → List Button) (kb : PhysicalKeyboard) (l : Layer) (m : FSet) : Py (Bool × List KeymanRule) := do
  let bs ← (order m).mapM kb.object
  let w ← keymanCheck bs
  let rules ← l.layout.mapM (keymanRule kb bs)
  .ok (w, rules)

/-- `renderKeyman` (`render.py:368-401`): for each layer and each of its modifiers, whether there was a complaint, and the
rules. -/
def keyman (order : FSet → List Button) (L : KeyboardLayout) (kb : PhysicalKeyboard) : Py (List (List (Bool × List KeymanRule))) :=
  L.layers.mapM fun l => l.modifier.mapM (keymanModifier order kb l)

/-! ### AnySoftKeyboard -/

/-- `unicodedata.normalize ('NFC', x) if x is not None else ''` (`render.py:442,573`). -/
def composed (nfc : Text → Text) : Option LVal → Py Text
  | none => .ok []
  | some (.str t) => .ok (nfc t)
  | some (.other 0) => .ok []
  | some (.other _) => .error .typeError

structure AskKey where
  codes : List Nat
  label : Text
  popup : Text
  hint : Text
  deriving DecidableEq, Repr

structure AskRow where
  width : Rat
  top : Bool
  keys : List AskKey
  deriving DecidableEq, Repr

/-- The body of the loop over buttons (`render.py:439-453`). -/
def askKey (nfc : Text → Text) (L : KeyboardLayout) (b : Btn) : Py AskKey := do
  let ts ← (L.getButtonText b.i).mapM (composed nfc)
  match ts with
  | [] => .error .indexError
  | t :: ts => .ok ⟨t.map Char.toNat, t, ts.flatten, (ts.take 2).flatten⟩

/-- The body of the loop over rows (`render.py:422-453`), `none` for `continue`. -/
def askRow (nfc : Text → Text) (L : KeyboardLayout) (kb : PhysicalKeyboard) (r : Row Btn) : Py (Option AskRow) := do
  let buttons := (r.1 ++ r.2).filter fun x => x.kind = .letter ∧ L.isModifier (frozenset [x.i]) = false
  match buttons with
  | [] => .ok none
  | b :: _ => do
    let i ← kb.getRow b.i
    if i + 1 = kb.rows.length then .ok none
    else do
      let keys ← buttons.mapM (askKey nfc L)
      .ok (some ⟨100 / buttons.length, i = 0, keys⟩)

/-- The attributes of the keys of the bottom row that the loop goes over (`render.py:457-464`). -/
def askBottomAttribs : List (Dict String String) :=
  [[("ask:isFunctional", "true"), ("android:keyWidth", "25%p"), ("android:codes", "10"), ("android:keyEdgeFlags", "left")],
    [("ask:isFunctional", "true"), ("android:keyWidth", "50%p"), ("android:codes", "32")],
    [("ask:isFunctional", "true"), ("android:keyWidth", "25%p"), ("android:codes", "-5"), ("android:keyEdgeFlags", "right"),
      ("android:isRepeatable", "true")]]

/-- The attributes of the keys of the bottom row in the file: `ET.SubElement (rowelem, 'Key', )` (`render.py:465`). -/
def askBottomRow : List (Dict String String) := askBottomAttribs.map fun _ => []

/-- `renderAsk` (`render.py:403-468`): the rows of the layout and the bottom row. -/
def ask (nfc : Text → Text) (L : KeyboardLayout) (kb : PhysicalKeyboard) : Py (List AskRow × List (Dict String String)) := do
  let rows ← kb.rows.mapM (askRow nfc L kb)
  .ok (rows.filterMap id, askBottomRow)

/-! ### macOS -/

/-- The attributes of `<key>` (`render.py:545-546`); `str` of the code is not modelled. -/
def macKey (kb : PhysicalKeyboard) (e : Button × LVal) : Py (ScVal × LVal) := do
  let b ← kb.object e.1
  let c ← b.scancodeAt "macos"
  .ok (c, e.2)

/-- An attribute passed to `ET.tostring`. -/
def xmlAttrib : LVal → Py Text
  | .str t => .ok t
  | .other _ => .error .typeError

/-- `renderKeylayout` (`render.py:514-556`): code and output of the keys of each `keyMap`. The name of the layout is `none`
for `null`. -/
def keylayout (name : Option String) (L : KeyboardLayout) (kb : PhysicalKeyboard) : Py (List (List (ScVal × Text))) := do
  let maps ← L.layers.mapM fun l => l.layout.mapM (macKey kb)
  match name with
  | none => .error .typeError
  | some _ => maps.mapM fun m => m.mapM fun e => (xmlAttrib e.2).map fun t => (e.1, t)

/-! ### Klavaro -/

/-- `buttonText[i] or ' '` (`render.py:573-578`) for both layers. -/
def klavaroButton (nfc : Text → Text) (L : KeyboardLayout) (b : Btn) : Py (Text × Text) := do
  let ts ← (L.getButtonText b.i).mapM (composed nfc)
  match ts with
  | t :: u :: _ => .ok (if t = [] then [' '] else t, if u = [] then [' '] else u)
  | _ => .error .indexError

/-- The body of the loop over rows (`render.py:564-580`). -/
def klavaroRow (nfc : Text → Text) (L : KeyboardLayout) (r : Row Btn) : Py (Text × Text) := do
  match (r.1 ++ r.2).filter fun x => x.kind = .letter with
  | [] => .ok ([], [])
  | b :: bs => do
    let ts ← (b :: bs).mapM (klavaroButton nfc L)
    .ok ((ts.map Prod.fst).flatten ++ ['\n'], (ts.map Prod.snd).flatten ++ ['\n'])

/-- `t.strip ('\n')`. -/
def stripNewlines (t : Text) : Text := ((t.dropWhile (· = '\n')).reverse.dropWhile (· = '\n')).reverse

/-- `renderKlavaro` (`render.py:558-585`): the content of the file. -/
def klavaro (nfc : Text → Text) (L : KeyboardLayout) (kb : PhysicalKeyboard) : Py Text := do
  let rows ← kb.rows.mapM (klavaroRow nfc L)
  .ok (stripNewlines (rows.map Prod.fst).flatten ++ '\n' :: (stripNewlines (rows.map Prod.snd).flatten ++ ['\n']))

end Lulua
