import Verif.Spec.CharMap
import Verif.Props.Import

/-!
# What importing a text does to its meaning

* C115 `C115_decomposed`, `C115_exactly`, `C115_equivalent_partial`, `C115_false`, `C115_skipped`
-/

namespace Lulua.Props
open Spec

/-! ### C115 -/

/-- Nothing is left to decompose after two steps. -/
theorem C115_decomposed (text : Text) : decomposeStep (decomposed text) = decomposed text := by
  have h : ∀ x ∈ decompositions, decomposeStep (decomposeStep x.2) = decomposeStep x.2 := by decide +kernel
  have app : ∀ a b, decomposeStep (a ++ b) = decomposeStep a ++ decomposeStep b := fun a b => List.flatMap_append
  unfold decomposed
  induction text with
  | nil => rfl
  | cons c t ih =>
    rw [show c :: t = [c] ++ t from rfl, app, app, app, ih]
    congr 1
    cases hf : decompositions.find? fun x => x.1 = c with
    | none =>
      have e : decomposeStep [c] = [c] := by simp [decomposeStep, hf]
      rw [e, e, e]
    | some x =>
      have e : decomposeStep [c] = x.2 := by simp [decomposeStep, hf]
      rw [e]
      exact h x (List.mem_of_find?_eq_some hf)

/-- **C115**: a character is replaced exactly if it is a digit or mark with an Arabic form, by this form, or one of the known
characters, by its decomposition. -/
theorem C115_exactly (c : Char) (r : Text) : (c, r) ∈ charMap ↔ (∃ a, Arabic c a ∧ r = [a]) ∨ (known c ∧ r = decomposed [c]) := by
  constructor
  · intro h
    have hall : ∀ x ∈ charMap, (∃ n ∈ List.range 10, x = (Char.ofNat (48 + n), [Char.ofNat (0x660 + n)])) ∨
        (∃ m ∈ arabicMarks, x = (m.1, [m.2])) ∨ (known x.1 ∧ x.2 = decomposed [x.1]) := by decide +kernel
    rcases hall _ h with ⟨n, hn, he⟩ | ⟨m, hm, he⟩ | hk
    · cases he
      exact .inl ⟨_, .inl ⟨n, List.mem_range.1 hn, rfl, rfl⟩, rfl⟩
    · cases he
      exact .inl ⟨_, .inr hm, rfl⟩
    · exact .inr hk
  · rintro (⟨a, ⟨n, hn, rfl, rfl⟩ | hm, rfl⟩ | ⟨hk, rfl⟩)
    · have : ∀ n < 10, (Char.ofNat (48 + n), [Char.ofNat (0x660 + n)]) ∈ charMap := by decide +kernel
      exact this n hn
    · have : ∀ m ∈ arabicMarks, (m.1, [m.2]) ∈ charMap := by decide +kernel
      exact this _ hm
    · have hn : c.toNat ∈ [0x622, 0x623, 0x624, 0x625, 0x626, 0xA0, 0xFEF7, 0xFEF9, 0xFEFB] := by
        unfold known at hk
        simp only [List.mem_cons, List.not_mem_nil, or_false] at hk ⊢
        omega
      have : ∀ n ∈ [0x622, 0x623, 0x624, 0x625, 0x626, 0xA0, 0xFEF7, 0xFEF9, 0xFEFB],
          (Char.ofNat n, decomposed [Char.ofNat n]) ∈ charMap := by decide +kernel
      have := this _ hn
      rwa [Char.ofNat_toNat] at this

theorem charMap_decomposed {c : Char} (h : ∀ x ∈ decompositions, x.1 = c → known c) : mapChars (decomposeStep [c]) charMap = mapChars [c] charMap := by
  cases hf : decompositions.find? fun x => x.1 = c with
  | none => simp [decomposeStep, hf]
  | some x =>
    have hm := List.mem_of_find?_eq_some hf
    have hx : x.1 = c := by simpa using List.find?_some hf
    have e : decomposeStep [c] = x.2 := by simp [decomposeStep, hf]
    have hall : ∀ x ∈ decompositions, known x.1 → mapChars x.2 charMap = mapChars [x.1] charMap := by decide +kernel
    rw [e, hall x hm (hx ▸ h x hm hx), hx]

theorem decomposeStep_known {text : Text} (h : ∀ c ∈ text, ∀ x ∈ decompositions, x.1 = c → known c) :
    ∀ c ∈ decomposeStep text, ∀ x ∈ decompositions, x.1 = c → known c := by
  have hall : ∀ x ∈ decompositions, known x.1 → ∀ c ∈ x.2, ∀ y ∈ decompositions, y.1 = c → known c := by decide +kernel
  intro c hc
  obtain ⟨b, hb, hcb⟩ := List.mem_flatMap.1 hc
  split at hcb
  · rename_i x hf
    have hm := List.mem_of_find?_eq_some hf
    have hx : x.1 = b := by simpa using List.find?_some hf
    exact hall x hm (hx ▸ h b hb x hm hx) c hcb
  · rw [List.mem_singleton.1 hcb]
    exact h b hb

theorem mapChars_step {text : Text} (h : ∀ c ∈ text, ∀ x ∈ decompositions, x.1 = c → known c) :
    mapChars (decomposeStep text) charMap = mapChars text charMap := by
  induction text with
  | nil => rfl
  | cons c t ih =>
    have app : decomposeStep (c :: t) = decomposeStep [c] ++ decomposeStep t := List.flatMap_append (xs := [c])
    rw [app, C45_append, charMap_decomposed (h c List.mem_cons_self), ih fun b hb => h b (List.mem_cons_of_mem _ hb), ← C45_append]
    rfl

/-- **C115**, true part: if no character has a decomposition importing does not know, then a text and its decomposition
are the same once imported. -/
theorem C115_equivalent_partial (text : Text) (h : ∀ c ∈ text, ∀ x ∈ decompositions, x.1 = c → known c) :
    imported (decomposed text) = imported text := by
  unfold imported decomposed
  rw [mapChars_step (decomposeStep_known h), mapChars_step h]

/-- The word for mirror, with alef and madda as one character. -/
example : (∀ c ∈ "مرآة".toList, ∀ x ∈ decompositions, x.1 = c → known c) ∧ decomposed "مرآة".toList ≠ "مرآة".toList := by decide +kernel

/-- **C115** is false: a text with U+FEF5, the ligature of lam and alef with madda, is not the same as its decomposition
once imported, and neither is one with the form for the end of a word of any of these ligatures. -/
theorem C115_false : ∀ c ∈ ['\ufef5', '\ufef6', '\ufef8', '\ufefa', '\ufefc'], imported [c] = [c] ∧
    imported (decomposed [c]) = decomposed [c] ∧ decomposed [c] ≠ [c] := by decide +kernel

/-- What is left out of a text with the shipped layout. -/
def leftOut (text : Text) : Py (List Char) := do
  let (t, _, L) ← loadFirst Data.arLulua
  .ok ((typeText (getHandFinger Data.fingermap t) L none (imported text)).1.filterMap fun e => match e with
    | .skip c => some c
    | .typed _ _ => none)

/-- **C115**: it matters. With `ar-lulua` nothing is left out of the decompositions, but the ligatures are. -/
theorem C115_skipped : ∀ c ∈ ['\ufef5', '\ufef6', '\ufef8', '\ufefa', '\ufefc'],
    leftOut [c] = .ok [c] ∧ leftOut (decomposed [c]) = .ok [] := by decide +kernel

end Lulua.Props
