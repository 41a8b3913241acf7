import Verif.Props.Optimize

/-!
# C41: Layouts the optimizer does not print correctly
-/

namespace Lulua.Props
open Lulua Spec

/-- Two layers with the same modifiers. -/
def sharedLayers : List Layer := [⟨[[]], [(0, .str ['a'])]⟩, ⟨[[]], [(0, .str ['A'])]⟩]

/-- **C41** (why unambiguous): even if no text is moved, the text of the first layer is lost and that of the second is
printed twice (`getText` looks at the last layer with these modifiers). -/
theorem C41_ambiguous_lost : ∃ (t : InternTable) (kb : PhysicalKeyboard) (layers : List Layer) (d : LayoutData), Named t kb.keys ∧
    Reachable layers ∧ emit t (KeyboardLayout.mk' "demo" layers kb) kb [] = .ok d ∧
    ∃ p v, textAt layers p = some v ∧ p.2 ∈ kb.keys.map Btn.i ∧ ∀ j n, gTextAt d.layout j n ≠ some v := by
  refine ⟨optTable, optKb, sharedLayers, ⟨"demo-new", [⟨[[]], [("Bl1", .str ['A'])]⟩, ⟨[[]], [("Bl1", .str ['A'])]⟩]⟩, optKb_named,
    by simp [Reachable, sharedLayers], by decide +kernel, (0, 0), .str ['a'], by decide +kernel, by rw [optKb_keys]; simp [demoBtn], ?_⟩
  intro j n h
  rcases j with _ | _ | j
  · simp only [gTextAt, List.getElem?_cons_zero, Option.bind_some] at h
    have := Dict.mem_of_get? h
    simp at this
  · simp only [gTextAt, List.getElem?_cons_succ, List.getElem?_cons_zero, Option.bind_some] at h
    have := Dict.mem_of_get? h
    simp at this
  · simp [gTextAt] at h

/-- **C41** (why reachable): if the first layer has no modifiers nothing is printed, whatever the button map, as soon as the keyboard has a button
(`IndexError`). -/
theorem C41_unreachable_fails (t : InternTable) (name : String) (l : Layer) (rest : List Layer) (kb : PhysicalKeyboard) (bm : ButtonMap)
    (hl : l.modifier = []) (hk : kb.keys ≠ []) : emit t (KeyboardLayout.mk' name (l :: rest) kb) kb bm = .error .indexError := by
  have hlen : (KeyboardLayout.mk' name (l :: rest) kb).layers = l :: rest := rfl
  obtain ⟨b, bs, hbs⟩ := List.exists_cons_of_ne_nil hk
  unfold emit
  rw [hlen, List.map_cons, emitLayers, hl]
  simp only [listIndex, List.getElem?_cons_zero, List.mapM_nil, pure, Except.pure, bind, Except.bind, hbs, List.map_cons, emitKeys]
  cases (List.set _ 0 _)[((bm.get? (0, b.i)).getD (0, b.i)).1]? with
  | none => rfl
  | some g => simp [emittedEntry, listIndex, hl, bind, Except.bind]

end Lulua.Props
