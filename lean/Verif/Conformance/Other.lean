import Verif.Conformance.Base
import Verif.Model.Optimize
import Verif.Model.Report
import Verif.Model.Formats
import Verif.Model.Util
import Verif.Proofs.Text

/-! # `lulua/test_optimize.py`, `lulua/test_report.py`, `lulua/test_text.py` and `lulua/test_util.py` -/

namespace Lulua.Conformance

/-- `NullAnnealer.mutate` (`test_optimize.py:28-31`). -/
def nullMutate (s : List Int) (r : Unit) : Rnd (Rat × List Int × Unit) :=
  let s' := s.map (· - 1)
  .ok ((s'.sum - s.sum : Int), s', r)

/-- `test_null_annealer` (`test_optimize.py:33-38`). -/
example : (match Anneal.run nullMutate 1 [1, 2, 3] () with
    | .ok (x, _) => decide (x.best = ([0, 1, 2], (0 + 1 + 2) - (1 + 2 + 3))) && decide (x.state = [0, 1, 2])
    | .error _ => false) = true := by decide +kernel

/-- The value of a decimal number is `n / 10`. -/
def isTenths (x : Py (Dec × String)) (n : Nat) (unit : String) : Bool :=
  match x with
  | .ok (d, u) => decide (d = ⟨false, n, -1⟩) && u == unit
  | .error _ => false

/-- `test_approx` (`test_report.py:25-38`). Floats are given by their exact decimal expansion. -/
example :
    isTenths (approx ⟨false, 0, 0⟩ "en") 0 "" = true ∧
    isTenths (approx ⟨false, 1000000000000000020816681711721685132943093776702880859375, -59⟩ "en") 0 "" = true ∧
    isTenths (approx ⟨false, 5000000000000000277555756156289135105907917022705078125, -56⟩ "en") 1 "" = true ∧
    isTenths (approx ⟨false, 1, 0⟩ "en") 10 "" = true ∧
    isTenths (approx ⟨false, 100, 0⟩ "en") 1000 "" = true ∧
    isTenths (approx ⟨false, 9998999999999999772626324556767940521240234375, -43⟩ "en") 9999 "" = true ∧
    isTenths (approx ⟨false, 9999099999999999681676854379475116729736328125, -43⟩ "en") 9999 "" = true ∧
    isTenths (approx ⟨false, 999990000000000009094947017729282379150390625, -42⟩ "en") 10 "thousand" = true ∧
    isTenths (approx ⟨false, 10 ^ 3, 0⟩ "en") 10 "thousand" = true ∧
    isTenths (approx ⟨false, 10 ^ 6, 0⟩ "en") 10 "million" = true ∧
    isTenths (approx ⟨false, 10 ^ 9, 0⟩ "en") 10 "billion" = true ∧
    isTenths (approx ⟨false, 10 ^ 12, 0⟩ "en") 10000 "billion" = true := by decide +kernel

/-- `test_map_chars_mapped` (`test_text.py:27-38`). -/
example : mapChars (charMap.map Prod.fst) charMap = charMap.flatMap Prod.snd := by decide +kernel

/-- `test_map_chars_not_mapped` (`test_text.py:40-53`). -/
example : mapChars (charMap.flatMap Prod.snd ++ ['a']) charMap = charMap.flatMap Prod.snd ++ ['a'] := by decide +kernel

/-- A decompressor that passes on what it gets and is finished after `n` bytes. -/
def plain (n : Nat) : Decompressor Nat where
  isFinished s := decide (n ≤ s)
  process s b := (s + b.length, b)

/-- `test_brotlifile` (`test_text.py:55-62`) with that decompressor; the chunk sizes are those of the test, `None` is
1024 times 1024. -/
example :
    let hello : Bytes := [104, 101, 108, 108, 111, 32, 119, 111, 114, 108, 100]
    ([1, 2, 3, 1024, 1048576].all fun chunk =>
      match BrotliFile.reads (plain 11) chunk 20 ⟨0, hello, []⟩ [some 1, none] with
      | some (r, _) => decide (r = [[104], [101, 108, 108, 111, 32, 119, 111, 114, 108, 100]])
      | none => false) = true := by decide +kernel

/-- `test_htmlserialized` (`test_text.py:64-71`): the tokens html5lib makes of the document. -/
example : serialize [] (walkAll [.element "html".toList [] [.element "head".toList [] [],
      .element "body".toList [] [.space ['\n'],
        .element "p".toList [] [.text "Hello & ".toList, .comment " comment ".toList, .text "Wörld! ♣ ∖".toList],
        .space ['\n']]]]) = .ok " Hello & Wörld! ♣ ∖\n\n ".toList := by decide +kernel

/-- `test_apply` (`test_text.py:73-84`). -/
example : (applyFilters [fun x => .ofList [x * 3], fun x => .ofList [x * 5, x * 7]] (.ofList [1, 2])).items =
    [1 * 3 * 5, 1 * 3 * 7, 2 * 3 * 5, 2 * 3 * 7] := by decide +kernel

/-- `test_iterchar` (`test_text.py:86-90`), with a batch that does not divide the length. -/
example : let s := (List.replicate 5 "Hello World!".toList).flatten; iterchar 7 s = s := by
  intro s
  exact iterchar_eq (by decide) s

/-- The part of the Unicode database the test needs. -/
def testUni : UniData where
  combining c := if c = 'ّ' then 33 else if c = 'َ' then 30 else 0
  format _ := false
  name _ := none
  word c := c.isAlphanum

/-- `test_displayTextCombining` (`test_util.py:26-36`). -/
example : ([("foobar", false), ("ّ", true), ("َّ", true), ("يّ", false)].all fun x =>
    match displayText testUni (some x.1.toList) with
    | .ok (some t) => decide (t.head? = some '◌') == x.2
    | _ => false) = true := by decide +kernel

/-- `list (limit (l, n))`. -/
def limited (n : Int) (l : List Nat) : Nat → Option Nat × List Nat → List Nat
  | 0, _ => []
  | k + 1, s =>
    match limit listIter s with
    | (.item a, s') => a :: limited n l k s'
    | _ => []

/-- `test_limit` (`test_util.py:38-46`). -/
example : ([([], 1, []), (List.range 3, 0, []), (List.range 3, 3, List.range 3), (List.range 1, 100, List.range 1),
    (List.range 1000, 3, List.range 3)].all fun (x : List Nat × Int × List Nat) =>
      decide (limited x.2.1 x.1 200 (limitStart x.2.1 x.1) = x.2.2)) = true := by decide +kernel

/-- `test_first` (`test_util.py:48-51`). -/
example : first [1, 2, 3] = .ok 1 ∧ first (List.range 5) = .ok 0 ∧ raises .stopIteration (first []) = true := by decide +kernel

end Lulua.Conformance
