import Verif.Spec.Argparse
import Verif.Spec.Page
import Verif.Model.ReportMain

/-!
# Specification for `lulua-report` as a whole
-/

namespace Lulua.Spec
open Lulua

/-- The words of the command line. -/
def reportWords (os : List ReportOpt) : List Text := os.flatMap (·.words)

/-- All files of corpora that are named. -/
def namedCorpora (os : List ReportOpt) : List Text := (os.filterMap ReportOpt.corpus?).flatten

/-- All files of statistics that are named. -/
def namedStats (os : List ReportOpt) : List Text := (os.filterMap ReportOpt.layoutstats?).flatten

/-- Both options are given, and each of them once. -/
def OnceEach (os : List ReportOpt) : Prop :=
  (os.filterMap ReportOpt.corpus?).length = 1 ∧ (os.filterMap ReportOpt.layoutstats?).length = 1

/-- The contents of files, in order. -/
def Contents {α : Type} (file : Text → Option (Py α)) (names : List Text) (xs : List α) : Prop :=
  List.Forall₂ (fun n x => file n = some (.ok x)) names xs

/-- There is a page for these files. -/
def CanRender (corpora : List (List (Option CorpusDoc))) (stats : List (String × LayoutStats)) : Prop :=
  (∀ f ∈ corpora, ∀ d, some d ∈ f → HasMetadata d) ∧
  (2 ≤ (corpora.flatMap fun f => f.filterMap id).length → ∀ f ∈ corpora, ∀ d, some d ∈ f → englishName d ≠ none) ∧
  sumOf Prod.fst (corpora.flatMap fun f => f.filterMap id) < 10 ^ 27 ∧
  sumOf Prod.snd (corpora.flatMap fun f => f.filterMap id) < 10 ^ 27 ∧
  ∀ name ∈ genLayouts, ∃ s, LastOf stats name s ∧ AllFingers s

end Lulua.Spec
