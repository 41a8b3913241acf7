import Verif.Proofs.Report

/-!
# C58, C59, C76: numbers in reports
-/

namespace Lulua.Props
open Lulua Spec

/-! ### C58 -/

/-- The units of the two languages, for 1, 1000, 1000² and 1000³. -/
def reportUnits (lang : String) : List String :=
  if lang = "ar" then ["", "ألف", "مليون", "مليار"] else ["", "thousand", "million", "billion"]

/-- **C58** (partial): for every number below 10²⁷ with at most 28 digits: the number returned has one decimal, is below
1000 unless the unit is the largest one, and times the unit is within 0.05 units. No smaller unit would do. -/
theorem C58_accurate_partial (lang : String) (hl : lang = "en" ∨ lang = "ar") (i : Dec) (hn : i.neg = false)
    (hc : i.coeff < 10 ^ 28) (hv : decVal i < 10 ^ 27 - 1 / 20) :
    ∃ j c, ∃ hj : j < (reportUnits lang).length, approx i lang = .ok (⟨false, c, -1⟩, (reportUnits lang)[j]) ∧
      |decVal ⟨false, c, -1⟩ * 1000 ^ j - decVal i| ≤ 1 / 20 * 1000 ^ j ∧ (c < 10000 ∨ j = 3) ∧ (0 < j → 10 ≤ c) := by
  obtain ⟨j, c, hj, h1, h2, h3, h4⟩ := approxLoop_short (reportUnits lang) (by unfold reportUnits; split <;> simp) i hn hc.le hv
  have hlen : (reportUnits lang).length = 4 := by unfold reportUnits; split <;> rfl
  refine ⟨j, c, hj, ?_, ?_, by omega, h4⟩
  · have : approxUnits lang = .ok (reportUnits lang) := by rcases hl with rfl | rfl <;> decide +kernel
    unfold approx
    rw [this]
    exact h1
  · have hp : (0 : Rat) < 1000 ^ j := by positivity
    have hd : decVal ⟨false, c, -1⟩ = (c : Rat) / 10 := by simp [decVal]; ring
    rw [hd]
    have : (c : Rat) / 10 * 1000 ^ j - decVal i = ((c : Rat) / 10 - decVal i / 1000 ^ j) * 1000 ^ j := by field_simp
    rw [this, abs_mul, abs_of_pos hp]
    exact mul_le_mul_of_nonneg_right h2 hp.le

/-- **C58** (partial): with more digits the division rounds, too; the additional error is at most one part in 2·10²⁷. -/
theorem C58_long_partial (lang : String) (hl : lang = "en" ∨ lang = "ar") (i : Dec) (hn : i.neg = false)
    (hv : decVal i < 10 ^ 27 - 1 / 20) :
    ∃ j c, ∃ hj : j < (reportUnits lang).length, approx i lang = .ok (⟨false, c, -1⟩, (reportUnits lang)[j]) ∧
      |decVal ⟨false, c, -1⟩ * 1000 ^ j - decVal i| ≤ 1 / 20 * 1000 ^ j + decVal i * (1 / (2 * 10 ^ 27)) ∧
      (c < 10000 ∨ j = 3) ∧ (0 < j → 10 ≤ c) := by
  have key : ∀ u u' us, us.length = 2 → approxUnits lang = .ok (u :: u' :: us) → reportUnits lang = u :: u' :: us →
      ∃ j c, ∃ hj : j < (reportUnits lang).length, approx i lang = .ok (⟨false, c, -1⟩, (reportUnits lang)[j]) ∧
      |decVal ⟨false, c, -1⟩ * 1000 ^ j - decVal i| ≤ 1 / 20 * 1000 ^ j + decVal i * (1 / (2 * 10 ^ 27)) ∧
      (c < 10000 ∨ j = 3) ∧ (0 < j → 10 ≤ c) := by
    intro u u' us hlen hu he
    obtain ⟨j, c, hj, h1, h2, h3, h4⟩ := approxLoop_long u u' us i hn hv
    simp only [he]
    simp only [List.length_cons, hlen] at h3
    refine ⟨j, c, hj, ?_, ?_, by omega, h4⟩
    · unfold approx
      rw [hu]
      exact h1
    · have hp : (0 : Rat) < 1000 ^ j := by positivity
      have hd : decVal ⟨false, c, -1⟩ = (c : Rat) / 10 := by simp [decVal]; ring
      rw [hd]
      have : (c : Rat) / 10 * 1000 ^ j - decVal i = ((c : Rat) / 10 - decVal i / 1000 ^ j) * 1000 ^ j := by field_simp
      rw [this, abs_mul, abs_of_pos hp]
      have h5 := mul_le_mul_of_nonneg_right h2 hp.le
      have h6 : (1 / 20 + decVal i / 1000 ^ j * (1 / (2 * 10 ^ 27))) * 1000 ^ j =
          1 / 20 * 1000 ^ j + decVal i * (1 / (2 * 10 ^ 27)) := by field_simp
      rw [h6] at h5
      exact h5
  rcases hl with rfl | rfl
  · exact key "" "thousand" ["million", "billion"] rfl (by decide +kernel) (by decide +kernel)
  · exact key "" "ألف" ["مليون", "مليار"] rfl (by decide +kernel) (by decide +kernel)

/-- **C58** (false): every number from 10²⁷ on is an error. -/
theorem C58_huge_fails (lang : String) (hl : lang = "en" ∨ lang = "ar") (i : Dec) (hn : i.neg = false)
    (hv : (10 : Rat) ^ 27 ≤ decVal i) : approx i lang = .error .invalidOperation := by
  obtain ⟨c, h1, h2⟩ := roundTenth_spec i hn
  have hc : 10 ^ 28 ≤ c := by
    have := (abs_le.1 h1).1
    have : (10 : Rat) ^ 28 - 1 < c := by linarith
    have h3 : (10 : Rat) ^ 28 < c + 1 := by linarith
    have : 10 ^ 28 < c + 1 := by exact_mod_cast h3
    omega
  rw [if_pos hc] at h2
  unfold approx
  rcases hl with rfl | rfl
  · rw [show approxUnits "en" = .ok ["", "thousand", "million", "billion"] by decide +kernel]
    simp only [bind, Except.bind]
    rw [approxLoop_cons, h2]
    rfl
  · rw [show approxUnits "ar" = .ok ["", "ألف", "مليون", "مليار"] by decide +kernel]
    simp only [bind, Except.bind]
    rw [approxLoop_cons, h2]
    rfl

/-- **C58** (false): the error can be more than 0.05 units. -/
theorem C58_long_refuted : ∃ i c, i.neg = false ∧ decVal i < 1051 ∧ approx i "en" = .ok (⟨false, c, -1⟩, "thousand") ∧
    1 / 20 * 1000 < |decVal ⟨false, c, -1⟩ * 1000 - decVal i| := by
  refine ⟨⟨false, 10500000000000000000000000001, -25⟩, 10, rfl, ?_, by decide +kernel, ?_⟩
  · norm_num [decVal]
  · norm_num [decVal]

example : decVal ⟨false, 99999, -2⟩ = 999.99 ∧ approx ⟨false, 99999, -2⟩ "en" = .ok (⟨false, 10, -1⟩, "thousand") ∧
    approx ⟨false, 1, 12⟩ "ar" = .ok (⟨false, 10000, -1⟩, "مليار") ∧ approx ⟨false, 25, -2⟩ "en" = .ok (⟨false, 2, -1⟩, "") ∧
    approx ⟨false, 1, 0⟩ "de" = .error .keyError := by
  refine ⟨by norm_num [decVal], ?_, ?_, ?_, ?_⟩ <;> decide +kernel

/-! ### C59 -/

/-- **C59** (`arabnum`): the length stays, character by character those of the two tables are exchanged and all others
kept, and no western digit, comma or dot is left. -/
theorem C59_arabnum (s : Text) :
    List.Forall₂ (fun c c' => (c ∉ western ∧ c' = c) ∨
      ∃ i : Nat, western[i]? = some c ∧ arabic[i]? = some c') s (arabnum s) ∧ ∀ c ∈ arabnum s, c ∉ western := by
  have h1 : ∀ c, (c ∉ western ∧ (Dict.get? arabTable c).getD c = c) ∨
      ∃ i : Nat, western[i]? = some c ∧ arabic[i]? = some ((Dict.get? arabTable c).getD c) := by
    intro c
    by_cases hc : c ∈ western
    · right
      simp only [western, List.mem_cons, List.not_mem_nil, or_false] at hc
      rcases hc with rfl | rfl | rfl | rfl | rfl | rfl | rfl | rfl | rfl | rfl | rfl | rfl
      · exact ⟨0, by decide +kernel⟩
      · exact ⟨1, by decide +kernel⟩
      · exact ⟨2, by decide +kernel⟩
      · exact ⟨3, by decide +kernel⟩
      · exact ⟨4, by decide +kernel⟩
      · exact ⟨5, by decide +kernel⟩
      · exact ⟨6, by decide +kernel⟩
      · exact ⟨7, by decide +kernel⟩
      · exact ⟨8, by decide +kernel⟩
      · exact ⟨9, by decide +kernel⟩
      · exact ⟨10, by decide +kernel⟩
      · exact ⟨11, by decide +kernel⟩
    · left
      refine ⟨hc, ?_⟩
      have : Dict.get? arabTable c = none := by
        rw [Dict.get?_eq_none_iff]
        exact hc
      rw [this]; rfl
  constructor
  · unfold arabnum
    rw [List.forall₂_map_right_iff]
    exact List.forall₂_same.2 fun c _ => h1 c
  · intro c hc
    obtain ⟨x, _, rfl⟩ := List.mem_map.1 hc
    rcases h1 x with ⟨h, e⟩ | ⟨i, _, h⟩
    · rw [e]; exact h
    · have : ∀ y ∈ arabic, y ∉ western := by decide +kernel
      exact this _ (List.mem_of_getElem? h)

/-- **C59** (`arabnum` can be undone): on texts without Arabic-Indic digits. -/
theorem C59_reversible (s : Text) (h : ∀ c ∈ s, c ∉ arabic) : (arabnum s).map toWestern = s := by
  unfold arabnum
  rw [List.map_map]
  conv_rhs => rw [← List.map_id s]
  refine List.map_congr_left fun c hc => ?_
  simp only [Function.comp, id]
  by_cases hw : c ∈ western
  · have : ∀ c ∈ western, toWestern ((Dict.get? arabTable c).getD c) = c := by decide +kernel
    exact this c hw
  · have h1 : Dict.get? arabTable c = none := by
      rw [Dict.get?_eq_none_iff]
      exact hw
    rw [h1]
    simp only [Option.getD_none, toWestern]
    have h2 : arabic.idxOf c = arabic.length := List.idxOf_eq_length_iff.2 (h c hc)
    rw [h2]
    rfl

/-- **C59** (`numspace`): exactly the spaces are replaced, by figure spaces (U+2007). -/
theorem C59_numspace (s : Text) :
    List.Forall₂ (fun c c' => if c = ' ' then c' = Char.ofNat 0x2007 else c' = c) s (numspace s) := by
  unfold numspace
  rw [List.forall₂_map_right_iff]
  refine List.forall₂_same.2 fun c _ => ?_
  split
  · decide
  · rfl

example : arabnum "1,234.5 kg".toList = "١٬٢٣٤٫٥ kg".toList ∧ (∀ c ∈ "1,234.5 kg".toList, c ∉ arabic) ∧
    numspace "  7 x".toList = ['\u2007', '\u2007', '7', '\u2007', 'x'] := by
  refine ⟨?_, ?_, ?_⟩ <;> decide +kernel

/-! ### C76 -/

/-- **C76**: `fraction` writes the fraction nearest to the number among all with a denominator up to the limit. -/
theorem C76_nearest (n : Rat) (m : Int) (hm : 1 ≤ m) :
    ∃ f : Rat, fraction n m = .ok ((toString f.num).toList ++ Char.ofNat 0x2044 :: (toString f.den).toList) ∧
      (f.den : Int) ≤ m ∧ ∀ p q : Int, 0 < q → q ≤ m → |f - n| ≤ |(p : Rat) / q - n| := by
  obtain ⟨f, h1, h2, h3⟩ := limitDenominator_spec n m hm
  refine ⟨f, ?_, h2, h3⟩
  unfold fraction
  rw [h1]
  rfl

/-- **C76** (exact): a fraction with a small denominator is written as it is. -/
theorem C76_exact (n : Rat) (m : Int) (h : (n.den : Int) ≤ m) :
    fraction n m = .ok ((toString n.num).toList ++ Char.ofNat 0x2044 :: (toString n.den).toList) := by
  have hm : 1 ≤ m := by have := n.den_pos; omega
  unfold fraction limitDenominator
  rw [if_neg (by omega), if_pos h]
  rfl

/-- **C76** (limit): a limit below one is an error. -/
theorem C76_limit (n : Rat) (m : Int) (h : m < 1) : fraction n m = .error .valueError := by
  unfold fraction limitDenominator
  rw [if_pos h]
  rfl

example : fraction (31 / 100) 10 = .ok "3⁄10".toList ∧ fraction (-314159 / 100000) 10 = .ok "-22⁄7".toList ∧
    fraction (1 / 21) 10 = .ok "0⁄1".toList := by
  refine ⟨?_, ?_, ?_⟩ <;> decide +kernel

end Lulua.Props
