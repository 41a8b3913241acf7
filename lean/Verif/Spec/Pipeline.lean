import Verif.Model.Pipeline
import Verif.Spec.Merge
import Verif.Spec.Pool
import Verif.Spec.Text

/-!
# Specification vocabulary for the statistics of whole corpora
-/

namespace Lulua.Spec
open Lulua

/-- A layout every text can be typed with, on a keyboard whose buttons all have a finger, and statistics nothing was added
to. -/
structure Usable (su : Setup) (layers : List Layer) : Prop where
  layout : ∃ name kb, su.layout = KeyboardLayout.mk' name layers kb
  fingered : Fingered su.hf layers
  unknownButton : ∀ b e, su.hf b = .error e → e = .keyError
  unambiguous : UnambiguousModifiers layers
  dicts : ∀ l ∈ layers, Dict.WF l.layout
  reachable : Reachable layers
  noEmptyText : NoEmptyText layers
  fresh : Fresh su.fresh
  noTriad : su.fresh.triads.triad = []

/-- What is typed for a text of the corpus: its characters are replaced first. -/
def typedFor (su : Setup) (t : Text) : List Event :=
  (typeText su.hf su.layout none (replaceCRLF (mapChars t charMap))).1

/-- How often a button is pressed, as modifier or not. -/
def buttonPresses (b : Button) (evs : List Event) : Nat :=
  ((presses evs).map fun c => (c.modifier ++ c.buttons).count b).sum

/-- The hand that makes a press, if it is known. -/
def handOf (hf : HandFinger) (c : Comb) : Option Direction :=
  match c.buttons.head? with
  | none => none
  | some b => match hf b with
    | .ok p => some p.1
    | .error _ => none

/-- The statistics are those of typing each of the texts on its own. -/
structure CountsOf (su : Setup) (texts : List Text) (s : AllStats) : Prop where
  buttons : ∀ b, s.simple.buttons.count b = (texts.map fun t => buttonPresses b (typedFor su t)).sum
  combinations : ∀ c, s.simple.combinations.count c = (texts.map fun t => (presses (typedFor su t)).count c).sum
  unknown : ∀ c, s.simple.unknown.count c = (texts.map fun t => (skips (typedFor su t)).count c).sum
  hands : ∀ h n, recorded s.runlen.perHand h n =
    (texts.map fun t => runCount (handOf su.hf) (typedFor su t) (some h) n).sum
  triads : ∀ k, s.triads.triads.count k = (texts.map fun t => triadCount su.fresh.triads.ignored (typedFor su t) k).sum
  words : ∀ w, s.words.words.count w = (texts.map fun t => wordCount su.letter (typedFor su t) w).sum

/-- No count is larger than if the texts were typed each on its own. -/
structure AtMost (su : Setup) (texts : List Text) (s : AllStats) : Prop where
  buttons : ∀ b, s.simple.buttons.count b ≤ (texts.map fun t => buttonPresses b (typedFor su t)).sum
  combinations : ∀ c, s.simple.combinations.count c ≤ (texts.map fun t => (presses (typedFor su t)).count c).sum
  unknown : ∀ c, s.simple.unknown.count c ≤ (texts.map fun t => (skips (typedFor su t)).count c).sum
  hands : ∀ h n, recorded s.runlen.perHand h n ≤
    (texts.map fun t => runCount (handOf su.hf) (typedFor su t) (some h) n).sum
  triads : ∀ k, s.triads.triads.count k ≤ (texts.map fun t => triadCount su.fresh.triads.ignored (typedFor su t) k).sum
  words : ∀ w, s.words.words.count w ≤ (texts.map fun t => wordCount su.letter (typedFor su t) w).sum

/-- The texts of a corpus, in order. -/
def corpusTexts (r : CorpusRun) : List Text := r.lines.flatMap fun l => (r.extract l).items

/-- An execution of `lulua-write` that starts with the lines of the corpus and ends, by returning or by raising an
exception. Either way the rule has succeeded once `lulua-analyze` has. -/
structure Built (su : Setup) (r : CorpusRun) : Prop where
  reachable : PoolReachable r.jobs r.lines (fun l => ¬ ItemOk su r.extract l) False False r.final
  ended : Ended r.final

end Lulua.Spec
