import Verif.Model.Ninja
import Mathlib.Logic.Relation

/-!
# Specification: what a build file has to fulfil
-/

namespace Lulua.Spec
open Lulua

/-- A path is there or can be made: it is a source, or all a statement with this output waits for can be made. -/
inductive Made (src : Path → Prop) (bs : List Build) : Path → Prop
  | source {p : Path} (h : src p) : Made src bs p
  | built {p : Path} (b : Build) (hb : b ∈ bs) (hd : ∀ d ∈ b.deps, Made src bs d) (hp : p ∈ b.outs) : Made src bs p

/-- No file is made by two statements. -/
def OneRule (bs : List Build) : Prop := (bs.flatMap (·.outs)).Nodup

/-- `d` must be there before `p` is made. -/
def WaitsFor (bs : List Build) (p d : Path) : Prop := ∃ b ∈ bs, p ∈ b.outs ∧ d ∈ b.deps

/-- Nothing waits for itself. -/
def NoCycle (bs : List Build) : Prop := ∀ p, ¬ Relation.TransGen (WaitsFor bs) p p

/-- The output `p` is made again after `s` has changed. Dependencies that only concern the order do not count. -/
inductive Rebuilt (bs : List Build) (s : Path) : Path → Prop
  | direct {p : Path} (b : Build) (hb : b ∈ bs) (hs : s ∈ b.ins ++ b.implicit) (hp : p ∈ b.outs) : Rebuilt bs s p
  | via {p d : Path} (b : Build) (hb : b ∈ bs) (hr : Rebuilt bs s d) (hd : d ∈ b.ins ++ b.implicit) (hp : p ∈ b.outs) :
    Rebuilt bs s p

/-- The variables of a command. -/
def cmdVars (c : Text) : List String := (cmdParts c).filterMap fun | .var n => some n | .text _ => none

/-- The eight corpora with a rule. -/
def knownCorpora : List String :=
  ["aljazeera", "arwiki", "bbcarabic", "hindawi", "opensubtitles-2018", "osm", "tanzil-quaran", "un-v1.0-tei"]

/-- Files which must have been provided. -/
def neededSources (w : GenWorld) : List Path :=
  [["lulua", "data", "report", "style.css"], ["lulua", "data", "report", "lulua-logo.svg"], ["lulua", "data", "winkbd"],
    ["3rdparty", "osmctools"],
    ["3rdparty", "plex", "IBM-Plex-Sans-Arabic", "fonts", "complete", "woff2", "IBMPlexSansArabic-Regular.woff2"],
    ["3rdparty", "plex", "IBM-Plex-Sans-Arabic", "fonts", "complete", "woff2", "IBMPlexSansArabic-Thin.woff2"],
    ["corpus", "tanzil-quaran", "plain.txt"], ["corpus", "arwiki", "arwiki-20190701-pages-articles.xml.bz2"],
    ["corpus", "osm", "planet-191104.osm.pbf"]] ++
    w.winkbd.map (fun f => ["lulua", "data", "winkbd", f]) ++ w.corpora.map (fun c => ["corpus", c, "metadata.yaml"]) ++
    w.bbcarabic ++ w.aljazeera ++ w.un ++ w.opensubtitles ++ w.hindawi

/-- `find` lists files below `corpus`. -/
def FoundBelow (w : GenWorld) : Prop :=
  ∀ p ∈ w.bbcarabic ++ w.aljazeera ++ w.un ++ w.opensubtitles ++ w.hindawi, p.head? = some "corpus"

/-- What follows the name of a layout in the name of a file. -/
def layoutEndings : List String :=
  [".svg", ".pdf", ".xmodmap", "-heat.svg", "-heat.yaml", "-triadeffort.pickle", "-print.svg", "-layoutstats.pickle"]

/-- A file made for a layout. -/
def FileOf (l : String) (p : Path) : Prop :=
  (∃ f, p = ["_build", "_stats", l, f]) ∨
    ∃ e ∈ layoutEndings, p = ["_build", "report", l ++ e] ∨ p = ["_build", "_temp", l ++ e]

/-- Lower case of a path, for Windows. -/
def lowerPath (p : Path) : List (List Char) := p.map fun s => s.toList.map Char.toLower

end Lulua.Spec
