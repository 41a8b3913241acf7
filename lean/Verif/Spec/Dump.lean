import Verif.Model.ExtractMain

/-!
# Specification for dumps that are read in pieces
-/

namespace Lulua.Spec
open Lulua

mutual
/-- What a parser comes across in a node. -/
def nodeEvents : XNode → List XEvent
  | .text d => [.data d]
  | .element n cs => .start n :: (docEvents cs ++ [.stop])
  | .other => []
/-- What a parser comes across in a document. -/
def docEvents : List XNode → List XEvent
  | [] => []
  | n :: ns => nodeEvents n ++ docEvents ns
end

/-- A document that breaks off: nodes that are complete, then the elements still open, each with the nodes complete inside. -/
structure Broken where
  before : List XNode
  opened : List (Text × List XNode)

/-- What a parser comes across in it. -/
def Broken.events (b : Broken) : List XEvent :=
  docEvents b.before ++ b.opened.flatMap fun x => .start x.1 :: docEvents x.2

/-- The complete nodes. -/
def Broken.complete (b : Broken) : List XNode := b.before ++ b.opened.flatMap Prod.snd

end Lulua.Spec
