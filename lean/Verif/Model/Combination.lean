import Verif.Model.Keyboard

/-!
# Button combinations as objects

`ButtonCombination` (`lulua/layout.py:89-118`) with its stored hash, pickling between processes and the dictionaries the
statistics use them in. The other files take combinations for pairs of sorted lists and dictionaries for association lists
that compare keys with `==` only; this file has what that rests on.

Simplified: a frozenset is the list of its members in the order in which it is iterated, without duplicates. The hash of a
pair of frozensets is a parameter of the process (Python's specification asks only that it respects equality). A dictionary
is the list of its entries with the hash stored for them; probing is a search for an entry with the same hash and an equal key
(the shortcut for identical keys agrees with it).
-/

namespace Lulua.Combination

/-- `frozenset.__eq__`: the same members. -/
def sameSet (a b : List Button) : Bool := a.all (b.contains ·) && b.all (a.contains ·)

/-- The slots of a combination (`layout.py:90`). -/
structure Obj where
  modifier : List Button
  buttons : List Button
  hash : Int
  deriving DecidableEq

/-- The hash of a pair of frozensets in a process. -/
abbrev PairHash := List Button → List Button → Int

/-- `__init__` (`layout.py:92-95`). -/
def Obj.init (H : PairHash) (modifier buttons : List Button) : Obj := ⟨modifier, buttons, H modifier buttons⟩

/-- `__len__` (`layout.py:97-98`). -/
def Obj.len (c : Obj) : Nat := c.modifier.length + c.buttons.length

/-- `__iter__` (`layout.py:100-101`). -/
def Obj.iter (c : Obj) : List Button := c.modifier ++ c.buttons

/-- `__eq__` of two combinations (`layout.py:109-112`). -/
def Obj.eq (c d : Obj) : Bool := sameSet c.buttons d.buttons && sameSet c.modifier d.modifier

/-- `__getstate__` (`layout.py:114-115`). -/
def Obj.getstate (c : Obj) : List Button × List Button := (c.modifier, c.buttons)

/-- `__setstate__` (`layout.py:117-118`). -/
def Obj.setstate (H : PairHash) (s : List Button × List Button) : Obj := Obj.init H s.1 s.2

/-- `pickle.load` of what `pickle.dump` wrote of a combination, in a process with pair hash `H`. The frozensets of the state
are made anew from their members there, `order` is how that process iterates them. -/
def reload (H : PairHash) (order : List Button → List Button) (c : Obj) : Obj :=
  Obj.setstate H (order c.getstate.1, order c.getstate.2)

/-- What pickling without `__getstate__` and `__setstate__` does: all slots are kept. Not in the code, for comparison. -/
def reloadSlots (order : List Button → List Button) (c : Obj) : Obj := ⟨order c.modifier, order c.buttons, c.hash⟩

/-- A dictionary with combinations as keys: stored hash, key, value. -/
abbrev Table (α : Type) := List (Int × Obj × α)

/-- Whether probing for a key stops at an entry. -/
def hit {α : Type} (k : Obj) (e : Int × Obj × α) : Bool := e.1 == k.hash && e.2.1.eq k

/-- `d.get (k)`. -/
def Table.get {α : Type} (d : Table α) (k : Obj) : Option α := (d.find? (hit k)).map (·.2.2)

/-- `d[k] = v`: the value of the entry found is replaced (its key stays), or an entry is added at the end. -/
def Table.set {α : Type} : Table α → Obj → α → Table α
  | [], k, v => [(k.hash, k, v)]
  | e :: d, k, v => if hit k e then (e.1, e.2.1, v) :: d else e :: Table.set d k v

/-- The assignments of a program, from an empty dictionary. -/
def Table.run {α : Type} (as : List (Obj × α)) : Table α := as.foldl (fun d a => Table.set d a.1 a.2) []

end Lulua.Combination
