import Verif.Spec.Pipeline
import Verif.Spec.Analyze
import Verif.Spec.Page
import Verif.Model.Whole

/-!
# What C122 is about
-/

namespace Lulua.Spec
open Lulua

/-- Nothing is counted that did not occur. -/
structure Positive (s : AllStats) : Prop where
  buttons : ∀ e ∈ s.simple.buttons, 0 < e.2
  combinations : ∀ e ∈ s.simple.combinations, 0 < e.2
  unknown : ∀ e ∈ s.simple.unknown, 0 < e.2
  triads : ∀ e ∈ s.triads.triads, 0 < e.2
  words : ∀ e ∈ s.words.words, 0 < e.2

/-- The statistics are those of typing each of the texts on its own, and have nothing else. -/
structure Whole (su : Setup) (texts : List Text) (s : AllStats) : Prop where
  ok : StatsOk s
  positive : Positive s
  counts : CountsOf su texts s

/-- Everything typed for the texts. -/
def allTyped (su : Setup) (texts : List Text) : List Event := texts.flatMap (typedFor su)

/-- The same figures: tables may list them in another order. -/
structure SameFigures (a b : LayoutStats) : Prop where
  hands : ∀ d, a.hands.get? d = b.hands.get? d
  fingers : ∀ p, a.fingers.get? p = b.fingers.get? p
  buttonPresses : a.buttonPresses = b.buttonPresses
  asymmetry : a.asymmetry = b.asymmetry
  hamzaImpact : a.hamzaImpact = b.hamzaImpact
  hamzaOnAlef : a.hamzaOnAlef = b.hamzaOnAlef

/-- The buttons pressed, in order; those of a combination one after the other. -/
def pressed (evs : List Event) : List Button := (presses evs).flatMap fun c => c.modifier ++ c.buttons

/-- Presses by a hand. -/
def handPresses (hf : HandFinger) (d : Direction) (evs : List Event) : Nat :=
  (pressed evs).countP fun b => match hf b with
    | .ok p => decide (p.1 = d)
    | .error _ => false

/-- Presses by a finger. -/
def fingerPresses (hf : HandFinger) (d : Direction) (f : Finger) (evs : List Event) : Nat :=
  (pressed evs).countP fun b => match hf b with
    | .ok p => decide (p = (d, f))
    | .error _ => false

/-- All corpora were typed with a layout, and nothing failed. -/
structure AllTyped (l : LayoutRuns) : Prop where
  built : ∀ r ∈ l.runs, Built l.setup r
  done : ∀ r ∈ l.runs, 0 < r.jobs ∧ r.final.main = .done

/-- The texts of all corpora. -/
def LayoutRuns.texts (l : LayoutRuns) : List Text := l.runs.flatMap corpusTexts

/-- The texts use some form of alef and every finger. -/
structure Varied (l : LayoutRuns) : Prop where
  alef : ∃ t ∈ LayoutRuns.texts l, ∃ x ∈ typedTexts (typedFor l.setup t), x = alefLetter ∨ x = alefAbove ∨ x = alefBelow
  fingers : ∀ d f, ∃ t ∈ LayoutRuns.texts l, 0 < fingerPresses l.setup.hf d f (typedFor l.setup t)

/-- A figure per text, summed up. -/
def overTexts (l : LayoutRuns) (f : List Event → Nat) : Nat := ((LayoutRuns.texts l).map fun t => f (typedFor l.setup t)).sum

/-- The table of hands and fingers has the shares of the presses for all texts, in percent. -/
def BarsOf (l : LayoutRuns) (bars : List HandBar) : Prop :=
  bars.map HandBar.hand = [.left, .right] ∧ ∀ b ∈ bars,
    b.pct * overTexts l (fun e => (pressed e).length) = 100 * overTexts l (handPresses l.setup.hf b.hand) ∧
    b.fingers.map FingerBar.finger = (match b.hand with
      | .left => [.little, .ring, .middle, .index, .thumb]
      | .right => [.thumb, .index, .middle, .ring, .little]) ∧
    ∀ f ∈ b.fingers, f.pct * overTexts l (fun e => (pressed e).length) =
      100 * overTexts l (fingerPresses l.setup.hf b.hand f.finger)

end Lulua.Spec
