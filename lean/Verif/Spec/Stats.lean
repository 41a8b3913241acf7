import Verif.Model.Stats
import Verif.Spec.Typing
import Mathlib.Data.List.SplitBy

/-!
# Specification vocabulary for statistics

Everything here is about the list of events: what a person would count by hand.
-/

namespace Lulua.Spec
open Lulua

/-- A character that could not be typed. -/
def isSkip : Event → Bool
  | .skip _ => true
  | .typed _ _ => false

/-- The combination pressed. -/
def press? : Event → Option Comb
  | .typed _ c => some c
  | .skip _ => none

/-- The character skipped. -/
def skipped? : Event → Option Char
  | .skip c => some c
  | .typed _ _ => none

/-- All combinations pressed, in order. -/
def presses (evs : List Event) : List Comb := evs.filterMap press?

/-- All characters skipped, in order. -/
def skips (evs : List Event) : List Char := evs.filterMap skipped?

/-- The stretches of events between skipped characters. -/
def stretches (evs : List Event) : List (List Event) := evs.splitOnP isSkip

/-- How often `w` occurs as a contiguous part of `s` (possibly overlapping): the number of
positions of `s` at which `w` starts. -/
def occurrences {α : Type} [DecidableEq α] (w s : List α) : Nat :=
  s.tails.countP (fun t => decide (w <+: t))

/-- A press of a button that is not in the list. -/
def notOn (ignored : List Button) (c : Comb) : Bool := c.buttons.all (fun b => decide (b ∉ ignored))

/-- How often the three presses of `k` follow each other without a skipped character in between,
presses of ignored buttons being disregarded. -/
def triadCount (ignored : List Button) (evs : List Event) (k : Triad) : Nat :=
  ((stretches evs).map fun s =>
    occurrences [k.1, k.2.1, k.2.2] ((presses s).filter (notOn ignored))).sum

/-- Maximal runs of equal elements. -/
def runs {α : Type} [DecidableEq α] (l : List α) : List (List α) := l.splitBy (fun a b => decide (a = b))

/-- The runs that were ended by something else: all but the last. -/
def completedRuns {α : Type} [DecidableEq α] (l : List α) : List (List α) := (runs l).dropLast

/-- How often a run of exactly `n` times `x` was completed, in all stretches; `f` says what is
looked at. -/
def runCount {α : Type} [DecidableEq α] (f : Comb → α) (evs : List Event) (x : α) (n : Nat) : Nat :=
  ((stretches evs).map fun s =>
    (completedRuns ((presses s).map f)).count (List.replicate n x)).sum

/-- How often a completed run of length `n`, of whatever element, was followed by `x`. -/
def runBefore {α : Type} [DecidableEq α] (f : Comb → α) (evs : List Event) (x : α) (n : Nat) : Nat :=
  ((stretches evs).map fun s =>
    let r := runs ((presses s).map f)
    (r.zip r.tail).countP (fun p => decide (p.1.length = n ∧ p.2.head? = some x))).sum

/-- The number recorded for `k` and length `n` in a dict of counters. -/
def recorded {κ : Type} [DecidableEq κ] (d : Dict κ (Dict Nat Nat)) (k : κ) (n : Nat) : Nat :=
  ((d.get? k).getD []).count n

/-- How many runs of length `n` were completed, in all stretches, by whatever element. -/
def completedOfLength {α : Type} [DecidableEq α] (f : Comb → α) (evs : List Event) (n : Nat) : Nat :=
  ((stretches evs).map fun s =>
    (completedRuns ((presses s).map f)).countP (fun r => decide (r.length = n))).sum

/-- All ten fingers. -/
def allFingers : List (Direction × Finger) :=
  [.left, .right].flatMap fun h => [.little, .ring, .middle, .index, .thumb].map fun f => (h, f)

/-- Length of the text a combination stands for in a layout. -/
def textLength (L : KeyboardLayout) (c : Comb) : Nat :=
  match L.getText c with
  | .ok (.str t) => t.length
  | _ => 0

/-- Presses of the buttons whose position satisfies `P`. -/
def pressesWhere (hf : HandFinger) (P : Direction × Finger → Bool) (buttons : Dict Button Nat) : Nat :=
  ((buttons.filter fun e => match hf e.1 with
    | .ok p => P p
    | .error _ => false).map Prod.snd).sum

/-- The words of a piece of text that are followed by a delimiter: the non-empty pieces between
delimiters, without the last one. -/
def delimitedWords (letter : Char → Bool) (text : Text) : List Text :=
  ((text.splitOnP (fun c => !letter c)).dropLast).filter (fun w => !w.isEmpty)

/-- How often the word `w` is typed and delimited, in all stretches. -/
def wordCount (letter : Char → Bool) (evs : List Event) (w : Text) : Nat :=
  ((stretches evs).map fun s => (delimitedWords letter (eventsText s)).count w).sum

/-- `pos` tells the hand and finger of every press in `evs`, each of a single button. -/
def Presses (hf : HandFinger) (pos : Comb → Direction × Finger) (evs : List Event) : Prop :=
  ∀ t c, Event.typed t c ∈ evs → ∃ b, c.buttons = [b] ∧ hf b = .ok (pos c)

/-- Every press in `evs` is of a single button. -/
def SingleButtons (evs : List Event) : Prop := ∀ t c, Event.typed t c ∈ evs → ∃ b, c.buttons = [b]

/-- The layout agrees with the events about the text of every press. -/
def TextsOf (L : KeyboardLayout) (evs : List Event) : Prop :=
  ∀ t c, Event.typed t c ∈ evs → L.getText c = .ok (.str t)

/-- Two dicts are equal in the sense of python's `==`: same keys, same values. -/
def DictEq {κ ν : Type} [DecidableEq κ] (a b : Dict κ ν) : Prop := ∀ k, a.get? k = b.get? k

/-- The same for dicts of dicts. -/
def DictEq2 {κ μ ν : Type} [DecidableEq κ] [DecidableEq μ] (a b : Dict κ (Dict μ ν)) : Prop :=
  (∀ k, (a.get? k).isSome ↔ (b.get? k).isSome) ∧
  ∀ k x y, a.get? k = some x → b.get? k = some y → DictEq x y

/-- Equality of statistics as defined by their `__eq__` methods. -/
structure StatsEq (a b : AllStats) : Prop where
  buttons : DictEq a.simple.buttons b.simple.buttons
  combinations : DictEq a.simple.combinations b.simple.combinations
  unknown : DictEq a.simple.unknown b.simple.unknown
  runlen : DictEq2 a.runlen.perHand b.runlen.perHand
  triads : DictEq a.triads.triads b.triads.triads
  words : DictEq a.words.words b.words.words

end Lulua.Spec
