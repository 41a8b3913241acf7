import Verif.Model.Argparse
import Verif.Model.Mediawiki

/-!
# `lulua-extract-mediawiki` as a whole, with the events of `iterparse`

Unlike `Model/Mediawiki.lean` this is about what the parser has seen so far, so a dump may break off anywhere. Decompression and the parser
are a parameter: the events before the end of the file or the first error.
-/

namespace Lulua

/-- What the parser comes across; comments and instructions are left out by `TreeBuilder`. -/
inductive XEvent where
  | start (name : Text)
  | data (d : Text)
  | stop
  deriving DecidableEq

/-- The elements that are open, the innermost first, with the text (`itertext`) read so far. -/
abbrev OpenElems := List (Text × Text)

/-- Text goes to the innermost element. -/
def addText (d : Text) : OpenElems → OpenElems
  | [] => []
  | (n, t) :: r => (n, t ++ d) :: r

/-- The loop of `extractMediawiki` (`text.py:473-477`): the texts written, in order. -/
def streamTexts : OpenElems → List XEvent → List Text
  | _, [] => []
  | st, .start n :: es => streamTexts ((n, []) :: st) es
  | st, .data d :: es => streamTexts (addText d st) es
  | [], .stop :: es => streamTexts [] es
  | (n, t) :: st, .stop :: es =>
    if n = mwTag then t :: streamTexts (addText t st) es
    else streamTexts (addText t st) es

/-- What `lulua-extract-mediawiki` depends on: the events in a file, and how reading it ends. -/
structure ExtractWorld where
  args : ArgWorld
  dump : Text → Option (List XEvent × Py Unit)

/-- `extractMediawiki` (`text.py:467-477`): what is written, and how the program ends. -/
def extractMain (w : ExtractWorld) (argv : List Text) : Except ArgStop (Text × Py Unit) := do
  let ns ← extractProgram.start w.args argv
  match ns.get? "file" with
  | some (.text f) =>
    match w.dump f with
    | none => .ok ([], .error .fileNotFound)
    | some (es, r) => .ok ((streamTexts [] es).flatMap fun t => jsonDump t ++ ['\n'], r)
  | _ => .ok ([], .error .typeError)

end Lulua
