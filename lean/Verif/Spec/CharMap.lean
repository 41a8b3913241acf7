import Verif.Py.Core

/-!
# What Unicode says about the characters replaced on import
-/

namespace Lulua.Spec
open Lulua

/-- Decompositions according to `UnicodeData.txt` (field 5, without the kind) of the characters of the Arabic block, of the
ligatures of lam and alef, and of the space that does not break. -/
def decompositions : List (Char × Text) :=
  [('\u00a0', [' ']),
    ('\u0622', ['\u0627', '\u0653']), ('\u0623', ['\u0627', '\u0654']), ('\u0624', ['\u0648', '\u0654']),
    ('\u0625', ['\u0627', '\u0655']), ('\u0626', ['\u064a', '\u0654']),
    ('\u0675', ['\u0627', '\u0674']), ('\u0676', ['\u0648', '\u0674']), ('\u0677', ['\u06c7', '\u0674']), ('\u0678', ['\u064a', '\u0674']),
    ('\u06c0', ['\u06d5', '\u0654']), ('\u06c2', ['\u06c1', '\u0654']), ('\u06d3', ['\u06d2', '\u0654']),
    ('\ufef5', ['\u0644', '\u0622']), ('\ufef6', ['\u0644', '\u0622']), ('\ufef7', ['\u0644', '\u0623']), ('\ufef8', ['\u0644', '\u0623']),
    ('\ufef9', ['\u0644', '\u0625']), ('\ufefa', ['\u0644', '\u0625']), ('\ufefb', ['\u0644', '\u0627']), ('\ufefc', ['\u0644', '\u0627'])]

/-- One step of decomposing. -/
def decomposeStep (text : Text) : Text := text.flatMap fun c =>
  match decompositions.find? fun x => x.1 = c with
  | some x => x.2
  | none => [c]

/-- The text with nothing left to decompose: two steps are enough. -/
def decomposed (text : Text) : Text := decomposeStep (decomposeStep text)

/-- ARABIC COMMA, SEMICOLON, QUESTION MARK and PERCENT SIGN and what they are in Latin. -/
def arabicMarks : List (Char × Char) := [(',', '\u060c'), (';', '\u061b'), ('?', '\u061f'), ('%', '\u066a')]

/-- A digit or mark and what it is in Arabic. -/
def Arabic (c a : Char) : Prop := (∃ n < 10, c = Char.ofNat (48 + n) ∧ a = Char.ofNat (0x660 + n)) ∨ (c, a) ∈ arabicMarks

/-- The characters whose decomposition importing knows: alef, waw and yeh with hamza or madda, three ligatures, and the space
that does not break. -/
def known (c : Char) : Prop := (0x622 ≤ c.toNat ∧ c.toNat ≤ 0x626) ∨ c.toNat ∈ [0xA0, 0xFEF7, 0xFEF9, 0xFEFB]

instance : DecidablePred known := fun c => by unfold known; infer_instance

end Lulua.Spec
