import Verif.Model.Page

/-!
# The metadata of the corpora

`corpus/…/metadata.yaml`, as far as the report uses it.
-/

namespace Lulua.Data

/-- `corpus/aljazeera/metadata.yaml` with figures added by `corpusstats`. -/
def corpusAljazeera (stats : Option (Nat × Nat)) : CorpusDoc :=
  ⟨some ⟨some ⟨some "Al-Jazeera".toList, some "الجزيرة".toList⟩, some "https://www.aljazeera.net/".toList⟩, some ⟨some 547110, some ⟨some "articles".toList, some "مقالة".toList⟩⟩, stats⟩

/-- `corpus/arwiki/metadata.yaml` with figures added by `corpusstats`. -/
def corpusArwiki (stats : Option (Nat × Nat)) : CorpusDoc :=
  ⟨some ⟨some ⟨some "Arabic Wikipedia".toList, some "ويكيبيديا العربية".toList⟩, some "https://ar.wikipedia.org/".toList⟩, some ⟨some 857386, some ⟨some "articles".toList, some "مقالة".toList⟩⟩, stats⟩

/-- `corpus/bbcarabic/metadata.yaml` with figures added by `corpusstats`. -/
def corpusBbcarabic (stats : Option (Nat × Nat)) : CorpusDoc :=
  ⟨some ⟨some ⟨some "BBC Arabic".toList, some "بي بي سي العربية".toList⟩, some "http://www.bbc.com/arabic".toList⟩, some ⟨some 149901, some ⟨some "articles".toList, some "مقالة".toList⟩⟩, stats⟩

/-- `corpus/hindawi/metadata.yaml` with figures added by `corpusstats`. -/
def corpusHindawi (stats : Option (Nat × Nat)) : CorpusDoc :=
  ⟨some ⟨some ⟨some "hindawi.org".toList, some "هنداوي".toList⟩, some "https://www.hindawi.org/books".toList⟩, some ⟨some 2227, some ⟨some "books".toList, some "كتاب".toList⟩⟩, stats⟩

/-- `corpus/opensubtitles-2018/metadata.yaml` with figures added by `corpusstats`. -/
def corpusOpensubtitles2018 (stats : Option (Nat × Nat)) : CorpusDoc :=
  ⟨some ⟨some ⟨some "ORPUS OpenSubtitles 2018".toList, some "ORPUS OpenSubtitles 2018".toList⟩, some "http://opus.nlpl.eu/OpenSubtitles-v2018.php".toList⟩, some ⟨some 94093, some ⟨some "movies".toList, some "فيلم".toList⟩⟩, stats⟩

/-- `corpus/osm/metadata.yaml` with figures added by `corpusstats`. -/
def corpusOsm (stats : Option (Nat × Nat)) : CorpusDoc :=
  ⟨some ⟨some ⟨some "OpenStreetMap Arabic Labels".toList, some "خريطة الشارع المفتوحة Arabic Labels".toList⟩, some "https://planet.openstreetmap.org/".toList⟩, some ⟨some 376148, some ⟨some "labels".toList, some "labels".toList⟩⟩, stats⟩

/-- `corpus/tanzil-quaran/metadata.yaml` with figures added by `corpusstats`. -/
def corpusTanzilQuaran (stats : Option (Nat × Nat)) : CorpusDoc :=
  ⟨some ⟨some ⟨some "tanzil.net Quran".toList, some "القرآن (من tanzil.net)".toList⟩, some "http://tanzil.net/docs/download".toList⟩, none, stats⟩

/-- `corpus/un-v1.0-tei/metadata.yaml` with figures added by `corpusstats`. -/
def corpusUnV10Tei (stats : Option (Nat × Nat)) : CorpusDoc :=
  ⟨some ⟨some ⟨some "United Nations Parallel Corpus v1.0".toList, some "الأمم المتحدة Parallel Corpus v1.0".toList⟩, some "https://conferences.unite.un.org/UNCorpus/en/DownloadOverview".toList⟩, some ⟨some 116754, some ⟨some "documents".toList, some "ملف".toList⟩⟩, stats⟩

/-- The corpora in the order of `gen.sh:7,257`. -/
def corpora : List (Option (Nat × Nat) → CorpusDoc) :=
  [corpusAljazeera, corpusArwiki, corpusBbcarabic, corpusHindawi, corpusOpensubtitles2018, corpusOsm, corpusTanzilQuaran, corpusUnV10Tei]

end Lulua.Data
