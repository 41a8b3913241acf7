import Verif.Model.AnalyzeMain
import Verif.Spec.RenderMain
import Verif.Spec.Shipped

/-!
# Specification: using `lulua-analyze`
-/

namespace Lulua.Spec
open Lulua

/-- The words of a command. -/
def analyzeWords (os : List CommonOpt) (c : String) (ts : List TriadOpt) : List Text :=
  os.flatMap (·.words) ++ c.toList :: ts.flatMap (·.words)

/-- The order of triads meant. -/
def sortOf (ts : List TriadOpt) : SortBy :=
  match lastOf TriadOpt.sort? ts with
  | none => .weight
  | some t => if t = "effort".toList then .effort else if t = "combined".toList then .combined else .weight

/-- The figures a person expects from each command, with the layout `x` they named by `l`. -/
def expectedFigures (w : AnalyzeWorld) (ts : List TriadOpt) (l : Text) (x : InternTable × PhysicalKeyboard × KeyboardLayout) (s : AllStats) :
    List (String × Py Analysis) :=
  [("pretty", (pretty w.display x.2.2 (shippedEnv Data.mod01 x.1 x.2.1) s).map fun r => .pretty r.1 r.2),
    ("keyheatmap", (heatFigures x.1 s.simple.buttons).map fun r => .heat r.1 r.2),
    ("layoutstats", (layoutstats (getHandFinger Data.fingermap x.1) x.2.2 s.simple).map (.figures l)),
    ("letterfreq", (letterfreq x.2.2 w.letterOther s.simple.combinations).map .letters),
    ("triadeffortdata", (triadEffortCurve x.2.2 (shippedEnv Data.mod01 x.1 x.2.1) s.triads.triads).map .curve),
    ("triadfreq", (triadfreq x.2.2 (shippedEnv Data.mod01 x.1 x.2.1) s.triads.triads ((lastOf TriadOpt.cutoff? ts).getD (1 / 2)) (sortOf ts)
      (lastOf TriadOpt.reverse? ts).isSome ((lastOf TriadOpt.limit? ts).getD 0 : Nat)).map .triads)]

/-- The commands for which `-k` has a meaning. -/
def usesKeyboard (c : String) : Prop := c = "pretty" ∨ c = "keyheatmap" ∨ c = "layoutstats"

instance (c : String) : Decidable (usesKeyboard c) := inferInstanceAs (Decidable (_ ∨ _ ∨ _))

end Lulua.Spec
