import Verif.Model.RenderMain
import Verif.Spec.Argparse

/-!
# Specification: using `lulua-render`
-/

namespace Lulua.Spec
open Lulua

/-- The text a name stands for: that of the file of this name, or else of the packaged file of this name with `.yaml`, or else of the
packaged file of this name. -/
def Found (res d : Text → Option Text) (dir : String) (k t : Text) : Prop :=
  d k = some t ∨ d k = none ∧ (res (pathJoin dir (String.ofList k ++ ".yaml")).toList = some t ∨
    res (pathJoin dir (String.ofList k ++ ".yaml")).toList = none ∧ res (pathJoin dir (String.ofList k)).toList = some t)

/-- The name stands for nothing. -/
def Unknown (res d : Text → Option Text) (dir : String) (k : Text) : Prop :=
  d k = none ∧ res (pathJoin dir (String.ofList k ++ ".yaml")).toList = none ∧ res (pathJoin dir (String.ofList k)).toList = none

/-- The layout a person means by the names of a keyboard and a layout. -/
def Means (w : LoadWorld) (d : Disk) (k l : Text) (x : InternTable × PhysicalKeyboard × KeyboardLayout) : Prop :=
  ∃ kt lt kd ld kd', Found w.resource d "data/keyboards" k kt ∧ w.keyboard kt = .ok kd ∧
    PhysicalKeyboard.deserialize w.table kd = .ok (x.1, x.2.1, kd') ∧
    Found w.resource d "data/layouts" l lt ∧ w.layout lt = .ok ld ∧ (GenericLayout.deserialize ld).specialize x.1 x.2.1 = .ok x.2.2

/-- The file a person expects for each format. -/
def formatFiles (w : RenderWorld) (now l : Text) (x : InternTable × PhysicalKeyboard × KeyboardLayout) : List (String × FileResult) :=
  [("xmodmap", xmodmapFile w.ct now w.truthy x.1 x.2.2 x.2.1), ("keyman", keymanFile now w.order x.2.2 x.2.1),
    ("ask", askFile w.nfc w.fmt x.2.2 x.2.1), ("winkbd", winKbdFile w.printable w.orderNat w.keys l x.2.2 x.2.1),
    ("keylayout", keylayoutFile w.ct (if x.2.2.name = "None" then none else some x.2.2.name) x.2.2 x.2.1),
    ("klavaro", klavaroFile w.nfc x.2.2 x.2.1)]

/-- The words of a command. -/
def renderWords (os : List CommonOpt) (c : String) (out : Text) : List Text := os.flatMap (·.words) ++ [c.toList, out]

/-- The keyboard meant: the last one given, or else the usual one. -/
def keyboardOf (os : List CommonOpt) : Text := (lastOf CommonOpt.keyboard? os).getD "ibmpc105".toList

end Lulua.Spec
