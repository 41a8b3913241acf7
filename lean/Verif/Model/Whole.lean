import Verif.Model.Pipeline
import Verif.Model.Page

/-!
# Model of the part of `gen.sh` that makes the page of the report from the corpora
-/

namespace Lulua

/-- What is typed with a layout: all corpora. -/
structure LayoutRuns where
  setup : Setup
  runs : List CorpusRun

/-- `$tempdir/${l}-layoutstats.pickle` (`gen.sh:96-97,238-239`): `lulua-analyze layoutstats` of `all.pickle`, with the name of
the layout (`stats.py:361-362`). -/
def LayoutRuns.layoutFile (l : LayoutRuns) : Py (String × LayoutStats) := do
  let f ← allPickle l.setup l.runs
  let r ← layoutstats l.setup.hf l.setup.layout f.simple
  .ok (l.setup.layout.name, r)

/-- `$tempdir/metadata-$c.yaml` (`gen.sh:99-100,259-261`): the metadata of a corpus, with the figures of its statistics. -/
def LayoutRuns.corpusFile (l : LayoutRuns) (m : Option (Nat × Nat) → CorpusDoc) (r : CorpusRun) : Py (List (Option CorpusDoc)) := do
  let f ← r.pickle l.setup
  .ok [some (m (some (corpusTotals f)))]

/-- `$reportdir/index.html` (`gen.sh:111-112,276-278`). The figures of the corpora are those of one layout, `ar-lulua`. -/
def buildPage (lower : Text → Text) (metas : List (Option (Nat × Nat) → CorpusDoc)) (lulua : LayoutRuns)
    (layouts : List LayoutRuns) : Py Page := do
  let corpora ← (metas.zip lulua.runs).mapM fun x => lulua.corpusFile x.1 x.2
  let stats ← layouts.mapM LayoutRuns.layoutFile
  renderPage lower corpora stats

end Lulua
