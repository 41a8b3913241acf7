import Verif.Conformance.Base
import Verif.Model.Hands

/-! # `lulua/test_writer.py` -/

namespace Lulua.Conformance

/-- `test_writer` (`test_writer.py:33-40`). -/
example : (HandHeap.writerHands.getitem (HandHeap.writerHand .left) .ring).toOption.bind (fun f => HandHeap.writerHands.fingers[f]?) =
      some ⟨.ring, some 0⟩ ∧ (HandHeap.writerHands.hands[0]?).map (·.position) = some .left := by
  decide +kernel

/-- `test_writer_type`: `none` is a `SkipEvent`. -/
def writes (text : String) (expect : List (String × Option (List String × List String))) : Py Bool := do
  let (t, kb, L) ← load Data.arLinux
  let evs ← expect.mapM fun e => match e.2 with
    | some c => do
      let c ← toComb t kb c
      .ok (Event.typed e.1.toList c)
    | none => .ok (Event.skip (e.1.toList.headD ' '))
  .ok (decide (typeText (fingers t) L none text.toList = (evs, .finished)))

/-- `typeData` (`test_writer.py:42-54`). -/
example : passes (writes "شسضص"
    [("ش", some ([], ["Dl1"])), ("س", some ([], ["Dl2"])), ("ض", some ([], ["Cl1"])), ("ص", some ([], ["Cl2"]))]) = true := by
  decide +kernel

example : passes (writes "aصb" [("a", none), ("ص", some ([], ["Cl2"])), ("b", none)]) = true := by decide +kernel

/-- `test_writer_chooseComb` (`test_writer.py:111-125`); the second component of a result is the assertion at the end. -/
def chooses (combs : List (List String × List String)) (expect : Nat) (prev : Option (List String × List String)) :
    Py Bool := do
  let (t, kb, _) ← load Data.arLinux
  let prev ← match prev with
    | some p => do
      let p ← toComb t kb p
      .ok (some p)
    | none => .ok none
  let combs ← combs.mapM (toComb t kb)
  let result ← chooseCombination (fingers t) prev combs
  let hands ← if result.len = 2 then do
      let m ← first result.modifier
      let b ← first result.buttons
      let x ← fingers t m
      let y ← fingers t b
      .ok (decide (x.1 ≠ y.1))
    else .ok true
  .ok (decide (some result = combs[expect]?) && hands)

/-- `testCombs` (`test_writer.py:75-109`). -/
def testCombs : List (List (List String × List String) × Nat × Option (List String × List String)) :=
  [([(["El_shift"], ["Dr7"]), (["Er_shift"], ["Dr7"])], 0, none),
   ([(["El_shift"], ["Dl5"]), (["Er_shift"], ["Dl5"])], 1, none),
   ([([], ["Fl_space"]), ([], ["Fr_space"])], 0, some ([], ["Dr7"])),
   ([([], ["Fl_space"]), ([], ["Fr_space"])], 1, some ([], ["Dl5"])),
   ([([], ["Fl_space"]), ([], ["Fr_space"])], 1, some (["El_shift"], ["Dr7"])),
   ([([], ["Fl_space"]), ([], ["Fr_space"])], 0, some (["Er_shift"], ["Dl5"])),
   ([([], ["CD_ret"]), (["Er_shift"], ["CD_ret"]), (["El_shift"], ["CD_ret"])], 0, none),
   ([(["El_shift"], ["Cl4"]), (["Er_shift"], ["Cl4"])], 1, some ([], ["Fr_space"]))]

example : (testCombs.all fun x => passes (chooses x.1 x.2.1 x.2.2)) = true := by decide +kernel

end Lulua.Conformance
