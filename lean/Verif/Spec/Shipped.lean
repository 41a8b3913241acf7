import Verif.Spec.Keyboard
import Verif.Spec.Typing
import Verif.Spec.Carpalx
import Verif.Data.Keyboards
import Verif.Data.Layouts
import Verif.Data.Tables

/-!
# What the shipped data is expected to look like

Only button names are mentioned here: the conditions can be checked by looking at the files.
-/

namespace Lulua.Spec
open Lulua

/-- The names of the buttons in a row of a keyboard file. -/
def rowNames (r : Row ButtonData) : List String := (r.1 ++ r.2).filterMap ButtonData.name

/-- The names of all buttons of a keyboard file. -/
def boardNames (d : KeyboardData) : List String := d.rows.flatMap rowNames

/-- The names of the letter buttons of a keyboard file. -/
def letterNames (d : KeyboardData) : List String :=
  ((d.rows.flatMap fun r => r.1 ++ r.2).filter fun b => decide (b.kind = some "letter")).filterMap ButtonData.name

/-- The same names. -/
def sameNames (a b : List String) : Bool := a.all (fun n => decide (n ∈ b)) && b.all fun n => decide (n ∈ a)

/-- A layer for a keyboard with these buttons: no button twice, reachable, no empty text, nothing but buttons
of the keyboard. -/
def goodLayer (board : List String) (l : GLayer) : Bool :=
  decide (l.layout.map Prod.fst).Nodup && !l.modifier.isEmpty &&
  l.layout.all (fun e => decide (e.2 ≠ LVal.str [])) && (layerNames l).all (fun n => decide (n ∈ board))

/-- No two layers have the same modifier. -/
def distinctModifiers : List GLayer → Bool
  | [] => true
  | l :: ls => ls.all (fun l' => l.modifier.all fun m => l'.modifier.all fun m' => !sameNames m m') &&
      distinctModifiers ls

/-- A well formed layout file. -/
def goodLayout (board : List String) (d : LayoutData) : Bool :=
  d.layout.all (goodLayer board) && distinctModifiers d.layout

/-- A button description in canonical form, see `Canonical`. -/
def canonical (d : ButtonData) : Bool :=
  d.name.isSome && d.width.isSome && decide (d.isMarked ≠ some false) &&
  (decide (d.kind = none) || decide (d.kind = some "letter") || decide (d.kind = some "multi")) &&
  (d.span.isSome == decide (d.kind = some "multi")) && d.scancode.isSome &&
  match d.scancode with
  | some (some s) =>
    match s.get? "windows" with
    | some (.list _) => true
    | none => true
    | _ => false
  | _ => true

/-- What an effort model must contain for a button: its base effort and the penalties of its finger. -/
def ratedName (p : ModelParams) (fm : Dict String (Direction × Finger)) (n : String) : Bool :=
  p.baselineEffort.contains n &&
  match fm.get? n with
  | some f =>
    p.pHand.contains f.1 &&
    match p.pFinger.get? f.1 with
    | some d => d.contains f.2
    | none => false
  | none => false

/-- The environment of a `Carpalx` object for a model, a keyboard and the shipped finger map. -/
def shippedEnv (p : ModelParams) (t : InternTable) (kb : PhysicalKeyboard) : CarpalxEnv where
  params := p
  hf := getHandFinger Data.fingermap t
  nameOf := t.nameOf
  getRow := kb.getRow

end Lulua.Spec
