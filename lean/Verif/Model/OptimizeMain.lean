import Verif.Model.Optimize
import Verif.Model.RenderMain
import Verif.Data.Tables

/-!
# `lulua-optimize` as a whole: from the words of the command line to the layout printed
-/

namespace Lulua

/-- What `lulua-optimize` depends on besides the disk, standard input and random numbers. -/
structure OptimizeWorld extends LoadWorld where
  fnmatch : String → String → Bool
  enum : List Nat → List Nat

/-- `models[args.model]` (`optimize.py:338`, `carpalx.py:46-234`). -/
def argModel : Option ArgVal → Py ModelParams
  | some (.text t) =>
    if t = "mod01".toList then .ok Data.mod01 else if t = "salvo".toList then .ok Data.salvo else .error .keyError
  | _ => .error .keyError

/-- A number that is used if it is positive. -/
def argNat : Option ArgVal → Nat
  | some (.int n) => n.toNat
  | _ => 0

/-- `args.pin`. -/
def argPins : Option ArgVal → List (Int × Option String)
  | some (.pins ps) => ps.map fun p => (p.1, p.2.map String.ofList)
  | _ => []

/-- `args.mutate`. -/
def argMutations : Option ArgVal → List ((Int × String) × (Int × String))
  | some (.mutations ms) => ms.map fun m => ((m.1.1, String.ofList m.1.2), (m.2.1, String.ofList m.2.2))
  | _ => []

/-- `optimize` (`optimize.py:284-295`) up to the first use of the arguments; `triads` is what the pickle on standard input has, or the
exception of reading it. -/
def optimizeArgs (w : OptimizeWorld) (d : Disk) (triads : Py (List (Triad × Rat))) (ns : Dict String ArgVal) : Py OptArgs := do
  let ts ← triads
  let (t, kb, L) ← loadNamed w.toLoadWorld d ns
  let model ← argModel (ns.get? "model")
  .ok {
    table := t, keyboard := kb, layout := L, env := ⟨model, getHandFinger Data.fingermap t, t.nameOf, kb.getRow⟩, triads := ts
    triadLimit := argNat (ns.get? "triadLimit"), steps := argNat (ns.get? "steps")
    randomize := ns.get? "randomize" = some (.flag true), pin := argPins (ns.get? "pin")
    mutations := argMutations (ns.get? "mutate"), fnmatch := w.fnmatch, enum := w.enum }

/-- `optimize` (`optimize.py:269-383`) with the random draws `ds`. -/
def optimizeMain (w : OptimizeWorld) (d : Disk) (triads : Py (List (Triad × Rat))) (ds : List (Pos × Pos)) (argv : List Text) :
    Except ArgStop (Rnd OptResult) := do
  let ns ← optimizeProgram.start w.args argv
  match optimizeArgs w d triads ns with
  | .error e => .ok (.error (.raised e))
  | .ok x => .ok (optimize x ds)

end Lulua
