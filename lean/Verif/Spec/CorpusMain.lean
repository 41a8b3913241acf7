import Verif.Spec.AnalyzeMain
import Verif.Spec.Figures
import Verif.Model.CorpusMain

/-!
# Specification: sizes of corpora and dictionaries
-/

namespace Lulua.Spec
open Lulua

/-- The words of `lulua-analyze … corpusstats f`. -/
def corpusWords (os : List CommonOpt) (f : Text) : List Text := os.flatMap (·.words) ++ ["corpusstats".toList, f]

/-- How often buttons are pressed at once for the texts. -/
def pressesIn (su : Setup) (texts : List Text) : Nat := (texts.map fun t => (presses (typedFor su t)).length).sum

/-- The words of a text that are followed by something else. -/
def wordsOf (su : Setup) (t : Text) : List Text := (stretches (typedFor su t)).flatMap fun x => delimitedWords su.letter (eventsText x)

/-- The words of all texts. -/
def wordsIn (su : Setup) (texts : List Text) : List Text := texts.flatMap (wordsOf su)

/-- On the scale of the dictionaries, `f` is the number nearest to a share. -/
def NearestF (share : Rat) (f : Int) : Prop :=
  ((23 : Rat) / 20) ^ (2 * (f - 255) - 1) < share ^ 2 ∧ share ^ 2 < ((23 : Rat) / 20) ^ (2 * (f - 255) + 1)

/-- The dictionary has each word of the texts once, the most frequent ones first, with the number for its share. -/
structure DictionaryOf (su : Setup) (texts : List Text) (lines : List (Text × Int)) : Prop where
  once : (lines.map Prod.fst).Nodup
  words : ∀ w, w ∈ lines.map Prod.fst ↔ w ∈ wordsIn su texts
  order : lines.Pairwise fun a b => (wordsIn su texts).count b.1 ≤ (wordsIn su texts).count a.1
  nearest : ∀ l ∈ lines, NearestF ((wordsIn su texts).count l.1 / (wordsIn su texts).length) l.2

end Lulua.Spec
