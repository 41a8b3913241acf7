import Verif.Spec.FiguresDemo

/-!
# What is typed for the examples of C122, part 3
-/

namespace Lulua
open Spec

theorem varied_idlebi : (eightTimes demoText "ar-idlebi").any (variedCheck demoText) = true := by decide +kernel

theorem varied_alramly : (eightTimes demoText "ar-alramly").any (variedCheck demoText) = true := by decide +kernel

theorem varied_ergoarabic : (eightTimes demoText "ar-ergoarabic").any (variedCheck demoText) = true := by decide +kernel

theorem varied_qtaish : (eightTimes demoText "ar-qtaish").any (variedCheck demoText) = true := by decide +kernel

end Lulua
