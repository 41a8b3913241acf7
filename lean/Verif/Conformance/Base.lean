import Verif.Model.Layout
import Verif.Model.Writer
import Verif.Data.Keyboards
import Verif.Data.Layouts
import Verif.Data.Tables

/-!
# The project's own tests, run on the model

The modules `Verif/Conformance` repeat the tests of `lulua/test_*.py` with the model in place of the code, evaluated by
the kernel. They are evidence that the model behaves like the code, not proofs of properties.
-/

namespace Lulua.Conformance

/-- `defaultKeyboards['ibmpc105']` in a fresh process. -/
def board : Py (InternTable × PhysicalKeyboard) := do
  let (t, kb, _) ← PhysicalKeyboard.deserialize .initial Data.ibmpc105
  .ok (t, kb)

/-- `defaultLayouts[…].specialize (keyboard)`. -/
def load (d : LayoutData) : Py (InternTable × PhysicalKeyboard × KeyboardLayout) := do
  let (t, kb) ← board
  let L ← (GenericLayout.deserialize d).specialize t kb
  .ok (t, kb, L)

/-- `toButtonComb` (`test_writer.py:29-31`). -/
def toComb (t : InternTable) (kb : PhysicalKeyboard) (c : List String × List String) : Py Comb := do
  let m ← c.1.mapM fun n => do let b ← kb.find t n; .ok b.i
  let b ← c.2.mapM fun n => do let b ← kb.find t n; .ok b.i
  .ok ⟨frozenset m, frozenset b⟩

/-- `Writer.getHandFinger`. -/
def fingers (t : InternTable) : HandFinger := getHandFinger Data.fingermap t

/-- The test runs without an exception and its assertions hold. -/
def passes (x : Py Bool) : Bool :=
  match x with
  | .ok b => b
  | .error _ => false

/-- `pytest.raises`. -/
def raises {α : Type} (e : PyErr) (x : Py α) : Bool :=
  match x with
  | .ok _ => false
  | .error e' => decide (e' = e)

end Lulua.Conformance
