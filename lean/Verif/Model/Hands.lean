import Verif.Model.Layout

/-!
# Model of `Hand` and `Finger` (`lulua/layout.py`) and of the hands of a `Writer` (`lulua/writer.py`)

Objects refer to each other, so they are numbers here: those of fingers and those of hands, in the order they are created.
-/

namespace Lulua

/-- `Finger` (`layout.py:77-85`): `number` and the number of `hand`. -/
structure FingerObj where
  number : Finger
  hand : Option Nat
  deriving DecidableEq

/-- `Hand` (`layout.py:57-75`): `position` and the numbers of `fingers`. -/
structure HandObj where
  position : Direction
  fingers : List Nat
  deriving DecidableEq

/-- All objects. -/
structure HandHeap where
  fingers : List FingerObj
  hands : List HandObj
  deriving DecidableEq

namespace HandHeap

/-- `Finger (number)` (`layout.py:80-82`). -/
def newFinger (s : HandHeap) (k : Finger) : HandHeap := { s with fingers := s.fingers ++ [⟨k, none⟩] }

/-- `h.addFinger (f)` (`layout.py:73-75`). Nothing happens for numbers that stand for no object. -/
def addFinger (s : HandHeap) (h f : Nat) : HandHeap :=
  if h < s.hands.length ∧ f < s.fingers.length then
    ⟨s.fingers.modify f fun x => { x with hand := some h }, s.hands.modify h fun x => { x with fingers := x.fingers ++ [f] }⟩
  else s

/-- `Hand (position, fingers)` (`layout.py:60-65`). -/
def newHand (s : HandHeap) (p : Direction) (fs : List Nat) : HandHeap :=
  fs.foldl (fun t f => t.addFinger s.hands.length f) { s with hands := s.hands ++ [⟨p, []⟩] }

/-- `h[k]` (`layout.py:70-71`). -/
def getitem (s : HandHeap) (h : Nat) (k : Finger) : Py Nat :=
  match s.hands[h]? with
  | none => .error .keyError
  | some x =>
    match x.fingers.find? fun f => (s.fingers[f]?.map (·.number)) = some k with
    | none => .error .stopIteration
    | some f => .ok f

/-- `Writer.__init__` (`writer.py:132-136`): the fingers of the left hand are objects 0 to 4, those of the right 5 to 9. -/
def writerHands : HandHeap :=
  let order := [Finger.little, .ring, .middle, .index, .thumb]
  let left := (order.foldl newFinger ⟨[], []⟩).newHand .left [0, 1, 2, 3, 4]
  (order.reverse.foldl newFinger left).newHand .right [5, 6, 7, 8, 9]

/-- `w[d]` (`writer.py:139-140`): the number of the hand. -/
def writerHand : Direction → Nat
  | .left => 0
  | .right => 1

end HandHeap

end Lulua
