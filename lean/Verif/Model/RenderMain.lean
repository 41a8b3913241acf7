import Verif.Model.Argparse
import Verif.Model.Output
import Verif.Model.Util

/-!
# `lulua-render` as a whole: from the words of the command line to the disk
-/

namespace Lulua

/-- What all programs depend on besides the disk: what `argparse` needs, the files of the package, the YAML parser (its result is
the content of a keyboard or layout, or the exception, also that of content of the wrong kind), and names interned already. -/
structure LoadWorld where
  args : ArgWorld
  resource : Text → Option Text
  keyboard : Text → Py KeyboardData
  layout : Text → Py LayoutData
  table : InternTable

/-- What `lulua-render` depends on in addition: the parameters of the formats and the command for pictures. -/
structure RenderWorld extends LoadWorld where
  ct : ScVal → Text
  fmt : Rat → Text
  nfc : Text → Text
  truthy : Nat → Bool
  order : FSet → List Button
  printable : Char → Bool
  orderNat : List Nat → List Nat
  keys : Dict (List Nat) (List VkVal)
  svg : Dict String ArgVal → InternTable × PhysicalKeyboard × KeyboardLayout → FileResult

/-- `open (k, 'r')`; a file that is there can be read. -/
def openText (f : Text → Option Text) (k : String) : Py Text :=
  match f k.toList with
  | some t => .ok t
  | none => .error .fileNotFound

/-- `defaultKeyboards` (`keyboard.py:191`). -/
def keyboardLoader (w : LoadWorld) (d : Disk) : YamlWorld Text KeyboardData (InternTable × PhysicalKeyboard) where
  openFile := openText d
  openResource := openText w.resource
  listdir _ := .ok []
  load := w.keyboard
  deserialize x := (PhysicalKeyboard.deserialize w.table x).map fun r => (r.1, r.2.1)

/-- `defaultLayouts` (`layout.py:344`). -/
def layoutLoader (w : LoadWorld) (d : Disk) : YamlWorld Text LayoutData GenericLayout where
  openFile := openText d
  openResource := openText w.resource
  listdir _ := .ok []
  load := w.layout
  deserialize x := .ok (GenericLayout.deserialize x)

/-- `loader[args.x]`; `open (None)` raises `TypeError`. -/
def byArg {σ ψ α : Type} (l : YamlWorld σ ψ α) (dir : String) : Option ArgVal → Py α
  | some (.text k) => l.getitem dir (String.ofList k) false
  | _ => .error .typeError

/-- The first two lines of all commands (`render.py:262-263,303-304,373-374,414-415,471-472,525-526,559-560`, `text.py:410-411`). -/
def loadNamed (w : LoadWorld) (d : Disk) (ns : Dict String ArgVal) : Py (InternTable × PhysicalKeyboard × KeyboardLayout) := do
  let (t, kb) ← byArg (keyboardLoader w d) "data/keyboards" (ns.get? "keyboard")
  let g ← byArg (layoutLoader w d) "data/layouts" (ns.get? "layout")
  let L ← g.specialize t kb
  .ok (t, kb, L)

/-- A text argument. -/
def argText (ns : Dict String ArgVal) (n : String) : Text :=
  match ns.get? n with
  | some (.text t) => t
  | _ => []

/-- The rest of the command. A layout without a name is called `None` here. -/
def renderFormat (w : RenderWorld) (now : Text) (ns : Dict String ArgVal) (x : InternTable × PhysicalKeyboard × KeyboardLayout) : FileResult :=
  match ns.get? "func" with
  | some (.func f) =>
    if f = "renderXmodmap" then xmodmapFile w.ct now w.truthy x.1 x.2.2 x.2.1
    else if f = "renderKeyman" then keymanFile now w.order x.2.2 x.2.1
    else if f = "renderAsk" then askFile w.nfc w.fmt x.2.2 x.2.1
    else if f = "renderWinKbd" then winKbdFile w.printable w.orderNat w.keys (argText ns "layout") x.2.2 x.2.1
    else if f = "renderKeylayout" then keylayoutFile w.ct (if x.2.2.name = "None" then none else some x.2.2.name) x.2.2 x.2.1
    else if f = "renderKlavaro" then klavaroFile w.nfc x.2.2 x.2.1
    else w.svg ns x
  | _ => ⟨none, .error .attributeError⟩

/-- How a program ends: `argparse` stops it, or the function returns or raises an exception. -/
inductive ProgramEnd where
  | stopped (s : ArgStop)
  | finished (r : Py Unit)

/-- `render` (`render.py:594-630`): the disk afterwards and the end; `now` is the time. -/
def renderMain (w : RenderWorld) (now : Text) (d : Disk) (argv : List Text) : Disk × ProgramEnd :=
  match renderProgram.start w.args argv with
  | .error s => (d, .stopped s)
  | .ok ns =>
    let r := afterLoading (loadNamed w.toLoadWorld d ns) (renderFormat w now ns)
    (r.after (argText ns "output") d, .finished r.result)

end Lulua
