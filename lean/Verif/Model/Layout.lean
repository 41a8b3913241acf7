import Verif.Model.Keyboard

/-!
# Model of `lulua/layout.py` (without the KLC importer, see `Verif/Model/Klc.lean`)
-/

namespace Lulua

/-- `Direction` (`layout.py:33-40`). -/
inductive Direction where
  | left | right
  deriving DecidableEq, Repr

/-- `FingerType` (`layout.py:42-55`). -/
inductive Finger where
  | little | ring | middle | index | thumb
  deriving DecidableEq, Repr

/-- The `IntEnum` value of a finger (`layout.py:44-48`). -/
def Finger.toNat : Finger → Nat
  | .little => 1 | .ring => 2 | .middle => 3 | .index => 4 | .thumb => 5

/-- `ButtonCombination` (`layout.py:89-118`); the cached hash plays no role. `==` of two
combinations (109-112) is equality of both sets. -/
structure Comb where
  modifier : FSet
  buttons : FSet
  deriving DecidableEq, Repr

/-- `ButtonCombination.__len__` (`layout.py:97-98`). -/
def Comb.len (c : Comb) : Nat := c.modifier.length + c.buttons.length

/-- `ButtonCombination.__iter__` (`layout.py:100-101`). -/
def Comb.iter (c : Comb) : List Button := c.modifier ++ c.buttons

/-- `util.first` (`util.py:27`) of a set. Python's order is the hash order; the sets it is applied
to have one element (`layout.py:144`). -/
def first (s : FSet) : Py Button :=
  match s with
  | [] => .error .stopIteration
  | b :: _ => .ok b

/-- A value of a layer dict: text, or something else a YAML file may contain (numbers, null, …),
told apart by `isinstance (v, str)` (`layout.py:141`). -/
inductive LVal where
  | str (t : Text)
  | other (tag : Nat)
  deriving DecidableEq, Repr

/-- `Layer` (`layout.py:120`) of a specialized layout. -/
structure Layer where
  modifier : List FSet
  layout : Dict Button LVal
  deriving DecidableEq, Repr

/-- `KeyboardLayout` (`layout.py:124-146`). `CharTrie` is represented by its items in insertion
order. -/
structure KeyboardLayout where
  name : String
  layers : List Layer
  keyboard : PhysicalKeyboard
  modToLayer : Dict FSet (Nat × Layer)
  bufferLen : Nat
  trie : Dict Text (List Comb)
  deriving Repr

/-- State of the constructor loop (`layout.py:134-136`). -/
structure BuildState where
  modToLayer : Dict FSet (Nat × Layer)
  bufferLen : Nat
  trie : Dict Text (List Comb)

namespace BuildState

/-- `for m in l.modifier: _modifierToLayer[m] = (i, l)` (`layout.py:138-139`). -/
def addModifiers (i : Nat) (l : Layer) (s : BuildState) : BuildState :=
  { s with modToLayer := l.modifier.foldl (fun d m => d.set m (i, l)) s.modToLayer }

/-- `t.setdefault (v, [])` (`layout.py:142`). -/
def setDefault (t : Dict Text (List Comb)) (v : Text) : Dict Text (List Comb) :=
  if t.contains v then t else t.set v []

/-- `t[v].append (comb)` (`layout.py:145`). -/
def appendComb (t : Dict Text (List Comb)) (v : Text) (c : Comb) : Dict Text (List Comb) :=
  t.set v ((t.get? v).getD [] ++ [c])

/-- Body of `for button, v in l.layout.items ()` (`layout.py:141-146`). -/
def addEntry (l : Layer) (s : BuildState) (e : Button × LVal) : BuildState :=
  match e.2 with
  | .other _ => s
  | .str v =>
    { s with
      trie := l.modifier.foldl
        (fun t m => appendComb t v { modifier := m, buttons := frozenset [e.1] })
        (setDefault s.trie v)
      bufferLen := max v.length s.bufferLen }

/-- Body of `for i, l in enumerate (layers)` (`layout.py:138-146`). -/
def addLayer (i : Nat) (s : BuildState) (l : Layer) : BuildState :=
  l.layout.foldl (addEntry l) (s.addModifiers i l)

/-- `for i, l in enumerate (layers)` (`layout.py:137`). -/
def addLayers : Nat → BuildState → List Layer → BuildState
  | _, s, [] => s
  | i, s, l :: ls => addLayers (i + 1) (s.addLayer i l) ls

end BuildState

/-- `==` of two dictionaries: the order of entries does not matter. -/
def eqDict {κ : Type} [DecidableEq κ] (a b : Dict κ LVal) : Bool := a.length == b.length && a.all fun e => b.get? e.1 == some e.2

/-- `==` of two lists of layers, that is of pairs of a list of sets and a dictionary. -/
def eqLayers : List Layer → List Layer → Bool
  | [], [] => true
  | l :: ls, m :: ms => l.modifier == m.modifier && eqDict l.layout m.layout && eqLayers ls ms
  | _, _ => false

namespace KeyboardLayout

/-- `KeyboardLayout.__init__` (`layout.py:129-146`). -/
def mk' (name : String) (layers : List Layer) (keyboard : PhysicalKeyboard) : KeyboardLayout :=
  let s := BuildState.addLayers 0 ⟨[], 0, []⟩ layers
  { name := name, layers := layers, keyboard := keyboard,
    modToLayer := s.modToLayer, bufferLen := s.bufferLen, trie := s.trie }

/-- `CharTrie.longest_prefix` (pygtrie, used in `layout.py:150`): the longest stored key that is
a prefix of `buf`, with its value. Tries the prefixes of `buf` of length `n`, `n-1`, …, 0. -/
def longestPrefix (t : Dict Text (List Comb)) (buf : Text) : Nat → Option (Text × List Comb)
  | 0 => (t.get? []).map fun v => ([], v)
  | n + 1 =>
    match t.get? (buf.take (n + 1)) with
    | some v => some (buf.take (n + 1), v)
    | none => longestPrefix t buf n

/-- `KeyboardLayout.__call__` (`layout.py:148-153`). -/
def call (L : KeyboardLayout) (buf : Text) : Py (Text × List Comb) :=
  match longestPrefix L.trie buf buf.length with
  | some r => .ok r
  | none => .error .keyError

/-- `modifierToLayer` (`layout.py:177-181`). -/
def modifierToLayer (L : KeyboardLayout) (m : FSet) : Py (Nat × Layer) := L.modToLayer.getItem m

/-- `isModifier` (`layout.py:183-185`). -/
def isModifier (L : KeyboardLayout) (m : FSet) : Bool := L.modToLayer.contains m

/-- `getText` (`layout.py:168-170`). -/
def getText (L : KeyboardLayout) (c : Comb) : Py LVal := do
  let l ← L.modifierToLayer c.modifier
  let b ← first c.buttons
  l.2.layout.getItem b

/-- `getButtonText` (`layout.py:172-175`). -/
def getButtonText (L : KeyboardLayout) (b : Button) : List (Option LVal) :=
  L.layers.map fun l => l.layout.get? b

/-- `copy` (`layout.py:164-166`): the constructor is called without its third argument. -/
def copy (_L : KeyboardLayout) : Py KeyboardLayout := .error .typeError

/-- `__eq__` (`layout.py:158-159`). -/
def eq (L M : KeyboardLayout) : Bool := eqLayers L.layers M.layers

end KeyboardLayout

/-- Layer of a generic layout (`layout.py:120,212`): the modifier sets hold button names.
A frozenset of names is represented by its members in some iteration order. -/
structure GLayer where
  modifier : List (List String)
  layout : Dict String LVal
  deriving DecidableEq, Repr

/-- `GenericLayout` (`layout.py:187-194`). -/
structure GenericLayout where
  name : String
  layers : List GLayer
  deriving DecidableEq, Repr

/-- Serialized generic layout (`layout.py:208-220`): modifiers are lists of lists of names. -/
structure LayoutData where
  name : String
  layout : List GLayer
  deriving DecidableEq, Repr

/-- `frozenset (x)` of a list of names: duplicates removed. -/
def nameSet : List String → List String
  | [] => []
  | x :: xs => if x ∈ xs then nameSet xs else x :: nameSet xs

namespace GenericLayout

/-- `==` of two lists of sets of names. -/
def eqSets : List (List String) → List (List String) → Bool
  | [], [] => true
  | a :: as, b :: bs => (a.all fun x => decide (x ∈ b)) && (b.all fun x => decide (x ∈ a)) && eqSets as bs
  | _, _ => false

/-- `==` of two lists of layers. -/
def eqGLayers : List GLayer → List GLayer → Bool
  | [], [] => true
  | l :: ls, m :: ms => eqSets l.modifier m.modifier && eqDict l.layout m.layout && eqGLayers ls ms
  | _, _ => false

/-- `__eq__` (`layout.py:196-197`). -/
def eq (g h : GenericLayout) : Bool := eqGLayers g.layers h.layers

/-- `__len__` (`layout.py:199-200`). -/
def len (g : GenericLayout) : Nat := (g.layers.map fun l => l.layout.length).sum

/-- `buttons` (`layout.py:202-205`). -/
def buttons (g : GenericLayout) : List (String × LVal) := g.layers.flatMap fun l => l.layout

/-- `deserialize` (`layout.py:207-213`). -/
def deserialize (d : LayoutData) : GenericLayout :=
  { name := d.name
    layers := d.layout.map fun l => { modifier := l.modifier.map nameSet, layout := l.layout } }

/-- `serialize` (`layout.py:215-220`). `list (x)` of a frozenset (line 217) lists the members in
hash order, modelled by the arbitrary function `order`. -/
def serialize (order : List String → List String) (g : GenericLayout) : LayoutData :=
  { name := g.name
    layout := g.layers.map fun l => { modifier := l.modifier.map order, layout := l.layout } }

/-- `keyboard.find (x) for x in m` (`layout.py:231`), stopping at the first `KeyError`. -/
def findAll (t : InternTable) (kb : PhysicalKeyboard) : List String → Py (List Button)
  | [] => .ok []
  | x :: xs => do
    let b ← kb.find t x
    let bs ← findAll t kb xs
    .ok (b.i :: bs)

/-- Lines 229-231 of `layout.py`. -/
def specModifiers (t : InternTable) (kb : PhysicalKeyboard) : List (List String) → Py (List FSet)
  | [] => .ok []
  | m :: ms => do
    let bs ← findAll t kb m
    let rest ← specModifiers t kb ms
    .ok (frozenset bs :: rest)

/-- `map (findButton, l.layout.items ())` (`layout.py:224-226,232`). -/
def specEntries (t : InternTable) (kb : PhysicalKeyboard) :
    List (String × LVal) → Py (List (Button × LVal))
  | [] => .ok []
  | (n, v) :: es => do
    let b ← kb.find t n
    let rest ← specEntries t kb es
    .ok ((b.i, v) :: rest)

/-- Loop body of `specialize` (`layout.py:229-232`). -/
def specLayer (t : InternTable) (kb : PhysicalKeyboard) (l : GLayer) : Py Layer := do
  let ms ← specModifiers t kb l.modifier
  let es ← specEntries t kb l.layout
  .ok { modifier := ms, layout := Dict.ofPairs es }

/-- `for l in self.layers` (`layout.py:228-232`). -/
def specLayers (t : InternTable) (kb : PhysicalKeyboard) : List GLayer → Py (List Layer)
  | [] => .ok []
  | l :: ls => do
    let l' ← specLayer t kb l
    let ls' ← specLayers t kb ls
    .ok (l' :: ls')

/-- `specialize` (`layout.py:222-233`). -/
def specialize (t : InternTable) (g : GenericLayout) (kb : PhysicalKeyboard) :
    Py KeyboardLayout := do
  let layers ← specLayers t kb g.layers
  .ok (KeyboardLayout.mk' g.name layers kb)

end GenericLayout
end Lulua
