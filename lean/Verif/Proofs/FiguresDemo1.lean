import Verif.Spec.FiguresDemo

/-!
# What is typed for the examples of C122, part 1
-/

namespace Lulua
open Spec

theorem varied_lulua : (eightTimes demoText "ar-lulua").any (variedCheck demoText) = true := by decide +kernel

theorem varied_asmo663 : (eightTimes demoText "ar-asmo663").any (variedCheck demoText) = true := by decide +kernel

theorem varied_linux : (eightTimes demoText "ar-linux").any (variedCheck demoText) = true := by decide +kernel

theorem varied_malas : (eightTimes demoText "ar-malas").any (variedCheck demoText) = true := by decide +kernel

/-- There are not too many words. -/
theorem demo_small : (eightTimes demoText "ar-lulua").any (fun l =>
    decide ((presses (typedFor l.setup demoText)).length < 10 ^ 26 ∧ ((stretches (typedFor l.setup demoText)).flatMap fun x =>
      delimitedWords l.setup.letter (eventsText x)).length < 10 ^ 26)) = true := by decide +kernel

end Lulua
