import Verif.Spec.Argparse
import Verif.Spec.NinjaLines

/-!
# Specification: the command lines of the build file are accepted
-/

namespace Lulua.Spec
open Lulua

/-- Names the shell does not take apart. -/
def TidyNames (g : GenWorld) : Prop :=
  (∀ f ∈ g.winkbd, ' ' ∉ f.toList) ∧ (∀ c ∈ g.corpora, ' ' ∉ c.toList) ∧
  ∀ p ∈ g.bbcarabic ++ g.aljazeera ++ g.un ++ g.opensubtitles ++ g.hindawi, ' ' ∉ pathText p ∧ '/' ∈ pathText p

/-- If this is one of our programs, then it accepts its arguments. -/
def Accepted (w : ArgWorld) (st : List Text) : Prop :=
  ∀ prog args p, st = prog :: args → (programs w).get? prog = some p → ∃ ns, p.start w (plainArgs args) = .ok ns

/-- A file is there; if it ends in `.yaml`, it can be read as such. -/
def Ready (w : ArgWorld) (t : Text) : Prop := w.opens t = true ∧ (".yaml".toList <:+ t → w.yaml t = .ok ())

end Lulua.Spec
