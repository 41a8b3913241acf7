import Verif.Spec.FiguresDemo

/-!
# What is typed for the examples of C122, part 2
-/

namespace Lulua
open Spec

theorem varied_phonetic : (eightTimes demoText "ar-phonetic").any (variedCheck demoText) = true := by decide +kernel

theorem varied_osman : (eightTimes demoText "ar-osman").any (variedCheck demoText) = true := by decide +kernel

theorem varied_khorshid : (eightTimes demoText "ar-khorshid").any (variedCheck demoText) = true := by decide +kernel

theorem varied_osx : (eightTimes demoText "ar-osx").any (variedCheck demoText) = true := by decide +kernel

/-- Without the quotation mark the right thumb is not used on `ar-phonetic`, where it has no key for the space. -/
theorem phonetic_thumb : (eightTimes demoLetters "ar-phonetic").any
    (fun l => decide (fingerPresses l.setup.hf .right .thumb (typedFor l.setup demoLetters) = 0)) = true := by decide +kernel

end Lulua
