import Verif.Model.Hands

/-! # `__repr__` of fingers and hands (`lulua/layout.py`) -/

namespace Lulua

/-- `FingerType.….name` (`layout.py:43-48`). -/
def Finger.pyName : Finger → String
  | .little => "LITTLE"
  | .ring => "RING"
  | .middle => "MIDDLE"
  | .index => "INDEX"
  | .thumb => "THUMB"

/-- `Direction.….name` (`layout.py:34-36`). -/
def Direction.pyName : Direction → String
  | .left => "LEFT"
  | .right => "RIGHT"

namespace HandHeap

/-- `Finger.__repr__` (`layout.py:84-85`); `None` has no `position`. -/
def fingerRepr (s : HandHeap) (f : Nat) : Py String :=
  match s.fingers[f]? with
  | none => .error .keyError
  | some x =>
    match x.hand with
    | none => .error .attributeError
    | some h =>
      match s.hands[h]? with
      | none => .error .keyError
      | some y => .ok ("Finger(" ++ x.number.pyName ++ ") # " ++ y.position.pyName)

/-- `Hand.__repr__` (`layout.py:67-68`); a list is shown with the `__repr__` of its members. -/
def handRepr (s : HandHeap) (h : Nat) : Py String :=
  match s.hands[h]? with
  | none => .error .keyError
  | some y => do
    let fs ← y.fingers.mapM s.fingerRepr
    .ok ("Hand(" ++ y.position.pyName ++ ", [" ++ ", ".intercalate fs ++ "])")

end HandHeap

end Lulua
