import Verif.Spec.Argparse

/-!
# Specification: all the ways to write an option
-/

namespace Lulua.Spec
open Lulua

/-- One dash and a character, or two dashes and more. -/
def flagShape : Text → Bool
  | ['-', c] => c ≠ '-'
  | '-' :: '-' :: _ :: _ => true
  | _ => false

/-- Flags of a parser are all different, look like flags and contain no `=`. -/
def TidyFlags (acts : List ArgAction) : Prop :=
  (acts.flatMap (·.flags)).Nodup ∧ ∀ f ∈ acts.flatMap (·.flags), '=' ∉ f ∧ flagShape f = true

/-- `p` is enough of the flag to know which one is meant. -/
def Enough (acts : List ArgAction) (f p : Text) : Prop :=
  p <+: f ∧ 3 ≤ p.length ∧ ∀ g ∈ acts.flatMap (·.flags), p <+: g → g = f

/-- An option that has one value. -/
def OneValue (a : ArgAction) : Prop := (a.kind = .store ∨ a.kind = .append) ∧ a.many = false

/-- The words for an option with a value: `--option value`, `--option=value`, `-ovalue`, `--opt value`, `--opt=value`. -/
inductive ValueSpelling (acts : List ArgAction) (a : ArgAction) (v : Text) : List Text → Prop
  | apart (f : Text) (hf : f ∈ a.flags) (hv : PlainWord v) : ValueSpelling acts a v [f, v]
  | equals (f : Text) (hf : f ∈ a.flags) : ValueSpelling acts a v [f ++ '=' :: v]
  | stuck (f : Text) (hf : f ∈ a.flags) (hl : f.length = 2) (hv : v ≠ []) (he : v.head? ≠ some '=') : ValueSpelling acts a v [f ++ v]
  | short (f p : Text) (hf : f ∈ a.flags) (hp : Enough acts f p) (hv : PlainWord v) : ValueSpelling acts a v [p, v]
  | shortEquals (f p : Text) (hf : f ∈ a.flags) (hp : Enough acts f p) : ValueSpelling acts a v [p ++ '=' :: v]

/-- The words for an option without value. -/
inductive FlagSpelling (acts : List ArgAction) (a : ArgAction) : List Text → Prop
  | whole (f : Text) (hf : f ∈ a.flags) : FlagSpelling acts a [f]
  | short (f p : Text) (hf : f ∈ a.flags) (hp : Enough acts f p) : FlagSpelling acts a [p]

/-- Two ways to write the same option. -/
inductive SameOption (acts : List ArgAction) : List Text → List Text → Prop
  | value (a : ArgAction) (ha : a ∈ acts) (h1 : OneValue a) (v : Text) (hv : v ≠ ['-', '-']) (x y : List Text)
    (hx : ValueSpelling acts a v x) (hy : ValueSpelling acts a v y) : SameOption acts x y
  | flag (a : ArgAction) (ha : a ∈ acts) (h1 : a.kind = .storeTrue) (x y : List Text) (hx : FlagSpelling acts a x)
    (hy : FlagSpelling acts a y) : SameOption acts x y

/-- No parser has the option: it is no number, contains no blank, and no flag begins like this. -/
def UnknownOption (u : UniNum) (acts : List ArgAction) (t : Text) : Prop :=
  ∃ c r, t = '-' :: c :: r ∧ ' ' ∉ t ∧ u.digit c = none ∧ c ≠ '.' ∧
    (c = '-' → r ≠ [] ∧ ∀ f ∈ acts.flatMap (·.flags), ¬ t.takeWhile (· ≠ '=') <+: f) ∧
    (c ≠ '-' → ['-', c] ∉ acts.flatMap (·.flags))

/-- The parser has no commands. -/
def NoCommands (acts : List ArgAction) : Prop := ∀ a ∈ acts, a.kind ≠ .command

/-- The program does not go on. -/
def Refused (r : Except ArgStop (Dict String ArgVal)) : Prop := ∀ ns, r ≠ .ok ns

/-- Words that are not `--`, with or without a value. -/
def Proper (t : Text) : Prop := t ≠ ['-', '-'] ∧ ¬ ['-', '-', '='] <+: t

end Lulua.Spec
