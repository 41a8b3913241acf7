import Verif.Props.Output

/-!
# C129: The file for Klavaro
-/

namespace Lulua.Props
open Lulua Spec

/-- **C129** (Klavaro, partial: if all texts of the first two layers are at most one character): the file has the lines of the first layer
and then those of the second, with one character for each button. -/
theorem C129_klavaro_partial (nfc : Text → Text) (L : KeyboardLayout) (kb : PhysicalKeyboard) (hl : typingRows kb.rows ≠ [])
    (hc : ∀ bs ∈ typingRows kb.rows, ∀ b ∈ bs, (2 ≤ L.layers.length ∧ ∀ l ∈ L.layers, Composable (l.layout.get? b.i)) ∧
      ∀ i ≤ 1, ∀ t, IsCell nfc L.layers i b t → t.length ≤ 1 ∧ '\n' ∉ t) :
    ∃ text, klavaroFile nfc L kb = ⟨some text, .ok ()⟩ ∧ KlavaroFile nfc L.layers kb.rows text := by
  obtain ⟨out, h⟩ := (C85_works nfc L kb).2 fun bs hbs b hb => (hc bs hbs b hb).1
  exact ⟨out, by simp only [klavaroFile, h], (C85_partial nfc L kb hl out h).2 fun bs hbs b hb => (hc bs hbs b hb).2⟩

/-- **C129** (Klavaro, what is written in any case). -/
theorem C129_klavaro_text (nfc : Text → Text) (L : KeyboardLayout) (kb : PhysicalKeyboard) (text : Text) :
    klavaroFile nfc L kb = ⟨some text, .ok ()⟩ ↔ klavaro nfc L kb = .ok text := by
  unfold klavaroFile
  split <;> simp_all

example : klavaroFile id (KeyboardLayout.mk' "" keymanLayers askKb) askKb = ⟨some "ax𝄞\n  \n \nA \n  \n \n".toList, .ok ()⟩ :=
  (C129_klavaro_text _ _ _ _).2 (by decide +kernel)

end Lulua.Props
