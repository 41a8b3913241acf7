import Verif.Spec.Figures
import Verif.Spec.Keyboard
import Verif.Data.Tables
import Verif.Data.Layouts
import Verif.Data.Keyboards

/-!
# Corpora used as examples for C122
-/

namespace Lulua.Spec
open Lulua

/-- A corpus of one line with one text. -/
def oneText (text : Text) : CorpusRun :=
  ⟨[['x']], fun _ => ⟨[text], none⟩, 1, ⟨.done, [], [], [.exited], [[['x']]]⟩⟩

/-- Eight corpora with the same text, typed on a shipped layout loaded first thing in a process. -/
def eightTimes (text : Text) (n : String) : Option LayoutRuns :=
  match Data.layouts.find? (·.name = n) with
  | none => none
  | some d => match PhysicalKeyboard.deserialize (tableAfter []) Data.ibmpc105 with
    | .error _ => none
    | .ok (t, kb, _) => match (GenericLayout.deserialize d).specialize t kb with
      | .error _ => none
      | .ok L => match AllStats.init t kb with
        | .error _ => none
        | .ok fresh =>
          some ⟨⟨getHandFinger Data.fingermap t, fun c => decide (0x600 ≤ c.toNat), L, fresh⟩, List.replicate 8 (oneText text)⟩

/-- Check of `Varied`. -/
def variedCheck (text : Text) (l : LayoutRuns) : Bool :=
  let evs := typedFor l.setup text
  (typedTexts evs).any (fun x => x == alefLetter) &&
  Direction.all.all fun d => Finger.all.all fun f => decide (0 < fingerPresses l.setup.hf d f evs)

/-- All letters, with spaces in between. -/
def demoLetters : Text := "ا ل ب ت ي م ن و ر د س ع ه ك ق ف ح ج ط ظ ض ص ش ذ ز خ غ ث ة ى ئ ء".toList

/-- The same after a quotation mark. -/
def demoText : Text := '«' :: demoLetters

end Lulua.Spec
