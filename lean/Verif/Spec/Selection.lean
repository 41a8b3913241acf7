import Verif.Spec.Formats

/-!
# What is left of selected elements that contain selected elements
-/

namespace Lulua.Spec
open Lulua

mutual
/-- Some selected element occurs. -/
def hasSelected (f : Text → Attrs → Bool) : HNode → Bool
  | .text _ => false
  | .space _ => false
  | .comment _ => false
  | .void _ _ => false
  | .element n a cs => f n a || hasSelectedAny f cs
def hasSelectedAny (f : Text → Attrs → Bool) : List HNode → Bool
  | [] => false
  | n :: ns => hasSelected f n || hasSelectedAny f ns
end

mutual
/-- The tokens of a node that are kept; `on` says whether it is part of what is kept so far. The end of a selected element
ends everything, so what follows it in the elements around it is not kept, nor are their end tags. -/
def keptTokens (f : Text → Attrs → Bool) (on : Bool) : HNode → List Token
  | .text d => if on then [.characters d] else []
  | .space d => if on then [.spaceCharacters d] else []
  | .comment d => if on then [.comment d] else []
  | .void n a => if on then [.emptyTag n a] else []
  | .element n a cs =>
    if IsScript n then []
    else
      (if on || f n a then [.startTag n a] else []) ++ keptTokensAll f (on || f n a) cs ++
        if (on || f n a) && !hasSelectedAny f cs then [.endTag n] else []
def keptTokensAll (f : Text → Attrs → Bool) (on : Bool) : List HNode → List Token
  | [] => []
  | n :: ns => keptTokens f on n ++ keptTokensAll f (on && !hasSelected f n) ns
end

end Lulua.Spec
