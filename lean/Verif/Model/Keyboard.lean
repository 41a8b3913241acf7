import Verif.Py.Core
import Verif.Py.FSet

/-!
# Model of `lulua/keyboard.py`
-/

namespace Lulua

/-- A button as seen by `__eq__`/`__hash__` (`keyboard.py:58-64`): its number `i`. -/
abbrev Button := Nat

/-- Class attributes `_idToName`, `_nameToId`, `_nextNameId` (`keyboard.py:31-33`). -/
structure InternTable where
  idToName : Dict Nat String
  nameToId : Dict String Nat
  nextId : Nat
  deriving DecidableEq, Repr

namespace InternTable

/-- The tables right after import of the module (`keyboard.py:31-33`). -/
def initial : InternTable := ⟨[], [], 0⟩

/-- `Button.__init__`, numbering part (`keyboard.py:38-44`): the new tables and `self.i`. -/
def intern (t : InternTable) (name : String) : InternTable × Nat :=
  match t.nameToId.get? name with
  | some i => (t, i)
  | none =>
    ({ idToName := t.idToName.set t.nextId name
       nameToId := t.nameToId.set name t.nextId
       nextId := t.nextId + 1 }, t.nextId)

/-- `Button.name` (`keyboard.py:66-68`). -/
def nameOf (t : InternTable) (b : Button) : Py String := t.idToName.getItem b

/-- Creating buttons one after the other, in the order given (`keyboard.py:36-44`). -/
def internAll (t : InternTable) (names : List String) : InternTable :=
  names.foldl (fun t n => (t.intern n).1) t

end InternTable

/-- Button classes with their `serializedName` (`keyboard.py:34,97,112`). -/
inductive Kind where
  | standard | letter | multi
  deriving DecidableEq, Repr

/-- `serializedName` (`keyboard.py:34,97,112`). -/
def Kind.serializedName : Kind → String
  | .standard => "standard"
  | .letter => "letter"
  | .multi => "multi"

/-- A number or a text. -/
inductive ScAtom where
  | num (n : Nat) | str (s : String)
  deriving DecidableEq, Repr

instance (n : Nat) : OfNat ScAtom n := ⟨.num n⟩

/-- A value in the scancode map: a number, a text, a list or a tuple. -/
inductive ScVal where
  | num (n : Nat) | str (s : String) | list (l : List ScAtom) | tuple (l : List ScAtom)
  deriving DecidableEq, Repr

/-- The elements of a text: its characters, each again a text. -/
def chars (s : String) : List ScAtom := s.toList.map fun c => .str (String.singleton c)

/-- The scancode dict passed to a button, possibly `None`. -/
abbrev Scancode := Option (Dict String ScVal)

/-- `tuple(v)`; a number is not iterable. -/
def ScVal.toTuple : ScVal → Py ScVal
  | .num _ => .error .typeError
  | .str s => .ok (.tuple (chars s))
  | .list l => .ok (.tuple l)
  | .tuple l => .ok (.tuple l)

/-- `list(v)`; a number is not iterable. -/
def ScVal.toList : ScVal → Py ScVal
  | .num _ => .error .typeError
  | .str s => .ok (.list (chars s))
  | .list l => .ok (.list l)
  | .tuple l => .ok (.list l)

/-- `if sc and 'windows' in sc: sc['windows'] = conv (sc['windows'])`, the statement used in
`keyboard.py:52-53` (with `tuple`) and `keyboard.py:88-89` (with `list`). -/
def Scancode.convWindows (conv : ScVal → Py ScVal) (sc : Scancode) : Py Scancode :=
  match sc with
  | none => .ok none
  | some d =>
    match d.get? "windows" with
    | none => .ok (some d)
    | some v => do
      let v' ← conv v
      .ok (some (d.set "windows" v'))

/-- A `Button`, `LetterButton` or `MultiRowButton` object (`keyboard.py:27-124`). `span` is the
attribute of `MultiRowButton`, `none` for the other classes. -/
structure Btn where
  i : Button
  kind : Kind
  width : Rat
  isMarked : Bool
  scancode : Scancode
  span : Option Nat
  deriving DecidableEq, Repr

/-- Serialized form of a button: which keys are present, and their values. Keys that no
constructor knows are not representable. -/
structure ButtonData where
  name : Option String := none
  kind : Option String := none
  width : Option Rat := none
  isMarked : Option Bool := none
  scancode : Option Scancode := none
  span : Option Nat := none
  deriving DecidableEq, Repr

/-- `kindMap[kind]` (`keyboard.py:72-73,79`). -/
def kindMap (s : String) : Py Kind :=
  if s = "standard" then .ok .standard
  else if s = "letter" then .ok .letter
  else if s = "multi" then .ok .multi
  else .error .keyError

/-- `kindMap[kind] (**data)` (`keyboard.py:79`, constructors `36-53`, `99-100`, `114-116`):
defaults width 1, isMarked False, scancode None; a missing name, a missing span of a
`MultiRowButton` and a span for the other classes are `TypeError`s of the call. -/
def construct (t : InternTable) (kind : Kind) (d : ButtonData) : Py (InternTable × Btn) :=
  match d.name with
  | none => .error .typeError
  | some name =>
    match kind, d.span with
    | .multi, none => .error .typeError
    | .standard, some _ => .error .typeError
    | .letter, some _ => .error .typeError
    | _, span => do
      let (t', i) := t.intern name
      let sc ← Scancode.convWindows ScVal.toTuple (d.scancode.getD none)
      .ok (t', { i := i, kind := kind, width := d.width.getD 1, isMarked := d.isMarked.getD false,
                 scancode := sc, span := span })

/-- `Button.deserialize` (`keyboard.py:70-79`). Also returns the argument `data` as it is
afterwards: without `kind` (line 76), its scancode dict changed by the constructor (line 53). -/
def Btn.deserialize (t : InternTable) (d : ButtonData) :
    Py (InternTable × Btn × ButtonData) := do
  let kindName := d.kind.getD "standard"
  let d' := { d with kind := none }
  let kind ← kindMap kindName
  let (t', b) ← construct t kind d'
  .ok (t', b, { d' with scancode := d.scancode.map fun _ => b.scancode })

/-- `Button.serialize` and `MultiRowButton.serialize` (`keyboard.py:81-90,121-124`). Also returns
the button as it is afterwards: lines 82 and 89 write the list into the button's own dict. -/
def Btn.serialize (t : InternTable) (b : Btn) : Py (ButtonData × Btn) := do
  let name ← t.nameOf b.i
  let sc ← Scancode.convWindows ScVal.toList b.scancode
  .ok ({ name := some name
         width := some b.width
         scancode := some sc
         kind := if b.kind = .standard then none else some b.kind.serializedName
         isMarked := if b.isMarked then some true else none
         span := match b.kind with
           | .multi => b.span
           | _ => none },
       { b with scancode := sc })

/-- A row: left and right buttons. -/
abbrev Row (β : Type) := List β × List β

/-- `PhysicalKeyboard` (`keyboard.py:126-137`). -/
structure PhysicalKeyboard where
  name : String
  description : String
  rows : List (Row Btn)
  buttonToRow : Dict Button Nat
  deriving DecidableEq, Repr

namespace PhysicalKeyboard

/-- The loop filling `_buttonToRow` (`keyboard.py:135-137`); `n` is the row number. -/
def rowTable : Nat → List (Row Btn) → Dict Button Nat → Dict Button Nat
  | _, [], acc => acc
  | n, (l, r) :: rows, acc =>
    rowTable (n + 1) rows ((l ++ r).foldl (fun acc b => acc.set b.i n) acc)

/-- `PhysicalKeyboard.__init__` (`keyboard.py:129-137`). -/
def mk' (name description : String) (rows : List (Row Btn)) : PhysicalKeyboard :=
  { name := name, description := description, rows := rows, buttonToRow := rowTable 0 rows [] }

/-- `__len__` (`keyboard.py:145-146`). -/
def len (k : PhysicalKeyboard) : Nat := (k.rows.map fun x => x.1.length + x.2.length).sum

/-- `keys` (`keyboard.py:156-159`). -/
def keys (k : PhysicalKeyboard) : List Btn := k.rows.flatMap fun r => r.1 ++ r.2

/-- The loop of `__getitem__` (`keyboard.py:151-154`). -/
def findLoop (t : InternTable) (name : String) : List Btn → Py Btn
  | [] => .error .keyError
  | k :: ks => do
    let n ← t.nameOf k.i
    if n = name then .ok k else findLoop t name ks

/-- `__getitem__`/`find` (`keyboard.py:148-154,161-162`). -/
def find (t : InternTable) (kb : PhysicalKeyboard) (name : String) : Py Btn :=
  findLoop t name kb.keys

/-- `getRow` (`keyboard.py:164-165`). -/
def getRow (kb : PhysicalKeyboard) (b : Button) : Py Nat := kb.buttonToRow.getItem b

end PhysicalKeyboard

/-- Serialized form of a keyboard. -/
structure KeyboardData where
  name : String
  description : String
  rows : List (Row ButtonData)
  deriving DecidableEq, Repr

/-- A loop over buttons that threads the intern table, as in `keyboard.py:172-175`; collects the
objects and the argument dicts as they are afterwards. -/
def deserializeList (t : InternTable) : List ButtonData → Py (InternTable × List Btn × List ButtonData)
  | [] => .ok (t, [], [])
  | d :: ds => do
    let (t, b, d') ← Btn.deserialize t d
    let (t, bs, ds') ← deserializeList t ds
    .ok (t, b :: bs, d' :: ds')

/-- The loop over rows (`keyboard.py:170-176`). -/
def deserializeRows (t : InternTable) :
    List (Row ButtonData) → Py (InternTable × List (Row Btn) × List (Row ButtonData))
  | [] => .ok (t, [], [])
  | (l, r) :: rows => do
    let (t, bl, dl) ← deserializeList t l
    let (t, br, dr) ← deserializeList t r
    let (t, bs, ds) ← deserializeRows t rows
    .ok (t, (bl, br) :: bs, (dl, dr) :: ds)

/-- `PhysicalKeyboard.deserialize` (`keyboard.py:167-177`), also returning the argument as it is
afterwards. -/
def PhysicalKeyboard.deserialize (t : InternTable) (d : KeyboardData) :
    Py (InternTable × PhysicalKeyboard × KeyboardData) := do
  let (t, rows, drows) ← deserializeRows t d.rows
  .ok (t, PhysicalKeyboard.mk' d.name d.description rows, { d with rows := drows })

/-- Inner loops of `keyboard.py:183-186`; also returns the buttons as they are afterwards. -/
def serializeList (t : InternTable) : List Btn → Py (List ButtonData × List Btn)
  | [] => .ok ([], [])
  | b :: bs => do
    let (d, b') ← b.serialize t
    let (ds, bs') ← serializeList t bs
    .ok (d :: ds, b' :: bs')

/-- Outer loop of `keyboard.py:181-187`. -/
def serializeRows (t : InternTable) : List (Row Btn) → Py (List (Row ButtonData) × List (Row Btn))
  | [] => .ok ([], [])
  | (l, r) :: rows => do
    let (dl, bl) ← serializeList t l
    let (dr, br) ← serializeList t r
    let (ds, bs) ← serializeRows t rows
    .ok ((dl, dr) :: ds, (bl, br) :: bs)

/-- `PhysicalKeyboard.serialize` (`keyboard.py:179-188`), also returning the keyboard as it is
afterwards. -/
def PhysicalKeyboard.serialize (t : InternTable) (kb : PhysicalKeyboard) :
    Py (KeyboardData × PhysicalKeyboard) := do
  let (drows, rows) ← serializeRows t kb.rows
  .ok ({ name := kb.name, description := kb.description, rows := drows }, { kb with rows := rows })

end Lulua
