import Verif.Model.Filters
import Verif.Spec.Formats
import Verif.Spec.Text
import Verif.Spec.Json

/-!
# Specification vocabulary for the filters of the corpora
-/

namespace Lulua.Spec
open Lulua

/-! ### What fits together -/

/-- The kinds of things between filters. -/
inductive FilterKind where
  | str | file | doc
  deriving DecidableEq, Repr

/-- The kind of a thing. -/
def kindOf : FilterItem → FilterKind
  | .str _ => .str
  | .file _ => .file
  | .doc _ => .doc

/-- What a filter is made for, and what it yields then. -/
inductive FilterFits : FilterName → FilterKind → FilterKind → Prop
  | aljazeeraText : FilterFits .aljazeera .str .str
  | aljazeera : FilterFits .aljazeera .file .str
  | bbcarabicText : FilterFits .bbcarabic .str .str
  | bbcarabic : FilterFits .bbcarabic .file .str
  | text : FilterFits .text .file .str
  | json : FilterFits .json .str .str
  | epub : FilterFits .epub .str .str
  | tei2 : FilterFits .tei2 .doc .str
  | opensubtitles : FilterFits .opensubtitles .doc .str
  | lines (k) : FilterFits .lines k k
  | xmlName : FilterFits .xml .str .doc
  | xml : FilterFits .xml .file .doc
  | file : FilterFits .file .str .file
  | tar : FilterFits .tar .file .file
  | mediawikimarkdown : FilterFits .mediawikimarkdown .str .str
  | brotli : FilterFits .brotli .file .file

/-- Filters each of which is made for what the one before it yields. -/
inductive PipelineFits : List FilterName → FilterKind → FilterKind → Prop
  | nil (k) : PipelineFits [] k k
  | cons {f fs k k' k''} : FilterFits f k k' → PipelineFits fs k' k'' → PipelineFits (f :: fs) k k''

/-- Failures that are not due to the choice of filters: files that cannot be opened or read, or are not what they should
be. -/
inductive DataError (w : FilterWorld) : PyErr → Prop
  | cannotOpen {n e} : w.openFile n = .error e → DataError w e
  | brotli {b e} : (w.unbrotli b).2 = .corrupt e → DataError w e
  | brokenOff : DataError w .otherError
  | notTar : DataError w .assertionError
  | tarSize : DataError w .valueError
  | htmlBytes {b e} : w.parseHtmlBytes b = .error e → DataError w e
  | htmlText {t e} : w.parseHtmlText t = .error e → DataError w e
  | encoding {b e} : w.decode b = .error e → DataError w e
  | epub {n e} : w.readEpub n = .error e → DataError w e
  | json {t e} : jsonLoads w.jsonOther t = .error e → DataError w e
  | pandoc {t e} : w.pandoc t = .error e → DataError w e

/-! ### Intact corpora -/

/-- A line with the name of a file, as written by `find`. The name does not end with white space. -/
def NameLine (w : FilterWorld) (line name : Text) : Prop :=
  (∃ blank, line = name ++ blank ∧ ∀ c ∈ blank, w.isSpace c = true) ∧ ∀ c, name.getLast? = some c → w.isSpace c = false

/-- A compressed tar archive and its non-empty members. -/
def ArchiveFile (w : FilterWorld) (name : Text) (members : List Bytes) : Prop :=
  ∃ file content es tail, w.openFile name = .ok file ∧ w.unbrotli file = (content, .finished) ∧
    (∀ e ∈ es, TarEntry.Ok e) ∧ content = archive es ++ tail ∧
    (tail = [] ∨ ∃ junk, tail = List.replicate 512 0 ++ junk) ∧
    members = (es.map TarEntry.content).filter (fun c => decide (c ≠ []))

/-- What counts as the article of a page. -/
def IsArticle (attr value : String) (name : Text) (attrs : Attrs) : Bool :=
  name == "div".toList && Dict.get? attrs (none, attr.toList) == some value.toList

/-- A page of a news site whose articles are not inside of each other, and the text of its articles. Scripts have no
elements inside. -/
def PageText (w : FilterWorld) (attr value : String) (page : Bytes) (t : Text) : Prop :=
  ∃ document, w.parseHtmlBytes page = .ok document ∧ ScriptsOkAll (IsArticle attr value) document ∧
    NotNestedAll (IsArticle attr value) document ∧
    t = nodesText true (selectedElementsAll (IsArticle attr value) document)

/-- A document of an ebook and its text. -/
def BookText (w : FilterWorld) (content : Bytes) (t : Text) : Prop :=
  ∃ s document, w.decode content = .ok s ∧ w.parseHtmlText s = .ok document ∧ t = nodesText false document

/-- The sentences of a document of the United Nations, paragraph by paragraph. -/
def TeiText (doc : List XNode) (t : Text) : Prop :=
  (∀ tag ∈ ["text", "body", "p", "s"], XNotNestedAll (String.toList tag) doc) ∧ t = joinWith ['\n'] (readAll .outside doc)

/-- The stripped sentences of subtitles, in document order. -/
def SubtitleText (w : FilterWorld) (doc : List XNode) (t : Text) : Prop :=
  ∃ positions : List (List Nat), positions.Pairwise DocBefore ∧
    (∀ p, p ∈ positions ↔ ∃ cs, nodeAt doc p = some (.element "s".toList cs)) ∧
    ∃ sentences : List Text, List.Forall₂ (fun p s => ∃ cs, nodeAt doc p = some (.element "s".toList cs) ∧
        s = pyStrip w.isSpace (directTexts cs).flatten) positions sentences ∧ t = joinWith ['\n'] sentences

/-- An XML document and the texts taken from it: one, or none if it is not valid. -/
def XmlTexts (w : FilterWorld) (text : List XNode → Text → Prop) (member : Bytes) (ts : List Text) : Prop :=
  (∃ e, w.parseXml member = .error e ∧ ts = []) ∨ ∃ doc t, w.parseXml member = .ok doc ∧ text doc t ∧ ts = [t]

/-- What is in a line of the input for a corpus: the texts of an intact file, a JSON string, or the line itself. -/
inductive LineTexts (w : FilterWorld) : String → Text → List Text → Prop
  | bbcarabic {line name members ts} : NameLine w line name → ArchiveFile w name members →
      List.Forall₂ (PageText w "property" "articleBody") members ts → LineTexts w "bbcarabic" line ts
  | aljazeera {line name members ts} : NameLine w line name → ArchiveFile w name members →
      List.Forall₂ (PageText w "id" "DynamicContentContainer") members ts → LineTexts w "aljazeera" line ts
  | tanzil {line name b t} : NameLine w line name → w.openFile name = .ok b → w.decode b = .ok t →
      LineTexts w "tanzil-quaran" line [t]
  | arwiki {before enc after t} : JsonBlank before → JsonBlank after → JsonEncodes enc t →
      LineTexts w "arwiki" (before ++ '"' :: enc ++ '"' :: after) [t]
  | osm (line) : LineTexts w "osm" line [line]
  | hindawi {line name docs ts} : NameLine w line name → w.readEpub name = .ok docs →
      List.Forall₂ (BookText w) docs ts → LineTexts w "hindawi" line ts
  | un {line name members tss} : NameLine w line name → ArchiveFile w name members →
      List.Forall₂ (XmlTexts w TeiText) members tss → LineTexts w "un-v1.0-tei" line tss.flatten
  | subtitles {line name members tss} : NameLine w line name → ArchiveFile w name members →
      List.Forall₂ (XmlTexts w (SubtitleText w)) members tss → LineTexts w "opensubtitles-2018" line tss.flatten

/-- The filters a user can choose. -/
def filterNames : List (String × FilterName) :=
  [ ("aljazeera", .aljazeera), ("bbcarabic", .bbcarabic), ("brotli", .brotli), ("epub", .epub), ("file", .file),
    ("json", .json), ("lines", .lines), ("mediawikimarkdown", .mediawikimarkdown), ("opensubtitles", .opensubtitles),
    ("tar", .tar), ("tei2", .tei2), ("text", .text), ("xml", .xml) ]

end Lulua.Spec
