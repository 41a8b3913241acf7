import Verif.Model.LatinIme
import Verif.Proofs.OptArgs
import Mathlib.Data.List.SplitBy
import Mathlib.NumberTheory.Padics.PadicVal.Basic
import Mathlib.Tactic.NormNum.Prime

/-!
# Proofs about the LatinIME dictionary
-/

namespace Lulua

theorem ratBase_pos : (0 : ℝ) < 23 / 20 := by norm_num
theorem ratBase_one : (1 : ℝ) < 23 / 20 := by norm_num

/-- An odd power of 23/20 is not the square of a rational number. -/
theorem odd_pow_ne_sq (p : ℚ) (k : ℤ) : p ^ 2 ≠ ((23 : ℚ) / 20) ^ (2 * k + 1) := by
  intro h
  haveI : Fact (Nat.Prime 23) := ⟨by norm_num⟩
  have h1 := congrArg (padicValRat 23) h
  rw [padicValRat.pow, padicValRat.zpow, padicValRat.div (by norm_num) (by norm_num)] at h1
  have h2 : padicValRat 23 (23 : ℚ) = 1 := by
    have := padicValRat.self (p := 23) (by norm_num)
    exact_mod_cast this
  have h3 : padicValRat 23 (20 : ℚ) = 0 := by
    have : padicValRat 23 ((20 : ℕ) : ℚ) = (padicValNat 23 20 : ℤ) := padicValRat.of_nat
    rw [padicValNat.eq_zero_of_not_dvd (by norm_num)] at this
    exact_mod_cast this
  rw [h2, h3] at h1
  push_cast at h1
  omega

theorem two_logb (p : ℚ) : 2 * Real.logb (23 / 20) p = Real.logb (23 / 20) ((p : ℝ) ^ 2) := by
  rw [Real.logb_pow]; push_cast; ring

/-- There is nothing to round to even. -/
theorem no_tie (p : ℚ) (hp : 0 < p) : Int.fract (Real.logb (23 / 20) p) ≠ 1 / 2 := by
  intro h
  have h1 : Real.logb (23 / 20) p = ⌊Real.logb (23 / 20) (p : ℝ)⌋ + 1 / 2 := by
    have := Int.floor_add_fract (Real.logb (23 / 20) (p : ℝ))
    rw [h] at this
    exact this.symm
  generalize ⌊Real.logb (23 / 20) (p : ℝ)⌋ = k at h1
  have hp' : (0 : ℝ) < p := by exact_mod_cast hp
  have h2 : Real.logb (23 / 20) ((p : ℝ) ^ 2) = ((2 * k + 1 : ℤ) : ℝ) := by
    rw [← two_logb, h1]; push_cast; ring
  have h3 : (p : ℝ) ^ 2 = (23 / 20 : ℝ) ^ (2 * k + 1 : ℤ) := by
    rw [Real.logb_eq_iff_rpow_eq ratBase_pos (by norm_num) (by positivity), Real.rpow_intCast] at h2
    exact h2.symm
  refine odd_pow_ne_sq p k ((Rat.cast_inj (α := ℝ)).1 ?_)
  push_cast
  exact h3

/-- What `f` is: the exponent of the power of 23/20 that is nearest on the logarithmic scale. -/
theorem imeF_iff (p : ℚ) (hp : 0 < p) (n : ℤ) :
    imeF p = n ↔ ((23 : ℚ) / 20) ^ (2 * (n - 255) - 1) < p ^ 2 ∧ p ^ 2 < ((23 : ℚ) / 20) ^ (2 * (n - 255) + 1) := by
  have hp' : (0 : ℝ) < p := by exact_mod_cast hp
  have hlow : ∀ k : ℤ, ((23 : ℚ) / 20) ^ (2 * k + 1) < p ^ 2 ↔ (k : ℝ) + 1 / 2 < Real.logb (23 / 20) p := by
    intro k
    have e1 : (k : ℝ) + 1 / 2 < Real.logb (23 / 20) p ↔ ((2 * k + 1 : ℤ) : ℝ) < Real.logb (23 / 20) ((p : ℝ) ^ 2) := by
      rw [← two_logb]; push_cast
      constructor <;> intro h <;> linarith
    rw [e1, Real.lt_logb_iff_rpow_lt ratBase_one (by positivity), Real.rpow_intCast, ← Rat.cast_lt (K := ℝ)]
    push_cast
    rfl
  have hupp : ∀ k : ℤ, p ^ 2 < ((23 : ℚ) / 20) ^ (2 * k + 1) ↔ Real.logb (23 / 20) p < (k : ℝ) + 1 / 2 := by
    intro k
    have e1 : Real.logb (23 / 20) p < (k : ℝ) + 1 / 2 ↔ Real.logb (23 / 20) ((p : ℝ) ^ 2) < ((2 * k + 1 : ℤ) : ℝ) := by
      rw [← two_logb]; push_cast
      constructor <;> intro h <;> linarith
    rw [e1, Real.logb_lt_iff_lt_rpow ratBase_one (by positivity), Real.rpow_intCast, ← Rat.cast_lt (K := ℝ)]
    push_cast
    rfl
  have e2 : 2 * (n - 255) - 1 = 2 * (n - 256) + 1 := by ring
  rw [e2, hlow, hupp]
  unfold imeF pyRound
  rw [if_neg (no_tie p hp)]
  have hr : round (Real.logb (23 / 20) (p : ℝ)) = n - 255 ↔
      (n : ℝ) - 255 - 1 / 2 ≤ Real.logb (23 / 20) p ∧ Real.logb (23 / 20) (p : ℝ) < n - 255 + 1 / 2 := by
    rw [round_eq, Int.floor_eq_iff]
    push_cast
    constructor
    · rintro ⟨h1, h2⟩; constructor <;> linarith
    · rintro ⟨h1, h2⟩; constructor <;> linarith
  have hne : (n : ℝ) - 255 - 1 / 2 ≠ Real.logb (23 / 20) p := by
    intro h
    refine no_tie p hp ?_
    rw [← h]
    have : (n : ℝ) - 255 - 1 / 2 = ((n - 256 : ℤ) : ℝ) + 1 / 2 := by push_cast; ring
    rw [this, Int.fract_intCast_add]
    rw [Int.fract_eq_self]
    constructor <;> norm_num
  have : 255 + round (Real.logb (23 / 20) (p : ℝ)) = n ↔ round (Real.logb (23 / 20) (p : ℝ)) = n - 255 := by
    constructor <;> intro h <;> omega
  rw [this, hr]
  push_cast
  constructor
  · rintro ⟨h1, h2⟩
    have := lt_of_le_of_ne h1 hne
    constructor <;> linarith
  · rintro ⟨h1, h2⟩
    constructor <;> linarith

theorem imeF_spec (p : ℚ) (hp : 0 < p) : ((23 : ℚ) / 20) ^ (2 * (imeF p - 255) - 1) < p ^ 2 ∧
    p ^ 2 < ((23 : ℚ) / 20) ^ (2 * (imeF p - 255) + 1) := (imeF_iff p hp _).1 rfl

theorem zpow_lt_iff {a b : ℤ} : ((23 : ℚ) / 20) ^ a < ((23 : ℚ) / 20) ^ b ↔ a < b :=
  zpow_lt_zpow_iff_right₀ (by norm_num)

/-- Lower bounds for `f`. -/
theorem le_imeF_iff (p : ℚ) (hp : 0 < p) (n : ℤ) : n ≤ imeF p ↔ ((23 : ℚ) / 20) ^ (2 * (n - 255) - 1) < p ^ 2 := by
  obtain ⟨h1, h2⟩ := imeF_spec p hp
  constructor
  · intro h
    refine lt_of_le_of_lt ?_ h1
    exact zpow_le_zpow_right₀ (by norm_num) (by omega)
  · intro h
    have := zpow_lt_iff.1 (h.trans h2)
    omega

theorem imeF_mono {p q : ℚ} (hp : 0 < p) (h : p ≤ q) : imeF p ≤ imeF q := by
  rw [le_imeF_iff q (hp.trans_le h)]
  refine lt_of_lt_of_le (imeF_spec p hp).1 ?_
  gcongr

theorem imeF_le {p : ℚ} (hp : 0 < p) (h : p ≤ 1) : imeF p ≤ 255 := by
  have h1 := (imeF_spec p hp).1
  have h2 : p ^ 2 ≤ 1 := by nlinarith
  have h3 : ((23 : ℚ) / 20) ^ (2 * (imeF p - 255) - 1) < ((23 : ℚ) / 20) ^ (0 : ℤ) := by
    rw [zpow_zero]; exact lt_of_lt_of_le h1 h2
  have := zpow_lt_iff.1 h3
  omega

theorem alpha_not_digit {c : Char} (hc : c.isAlpha) : c.isDigit = false := by
  by_contra h
  simp only [Char.isDigit, Char.isAlpha, Char.isUpper, Char.isLower, Bool.and_eq_true, Bool.or_eq_true,
    decide_eq_true_eq, Bool.not_eq_false] at h hc
  have h2 : c.val.toNat ≤ 57 := UInt32.le_iff_toNat_le.1 h.2
  rcases hc with hc | hc
  · have : 65 ≤ c.val.toNat := UInt32.le_iff_toNat_le.1 hc.1
    omega
  · have : 97 ≤ c.val.toNat := UInt32.le_iff_toNat_le.1 hc.1
    omega

theorem decimal_injective {f f' : Int} (h : Spec.decimal f = Spec.decimal f') : f = f' := by
  let u : UniNum := ⟨fun _ => false, fun c => if c.isDigit then some (c.toNat - 48) else none⟩
  have hu : Spec.PlainNum u :=
    ⟨fun c hc => ⟨by simp [u, hc], rfl⟩, fun c hc => ⟨by simp [u, alpha_not_digit hc], rfl⟩, rfl⟩
  have h1 := pyInt_decimal hu f
  rw [h, pyInt_decimal hu f'] at h1
  simpa using h1.symm

theorem splitOnP_mem {α : Type} (P : α → Bool) (l s : List α) (h : s ∈ l.splitOnP P) (c : α) (hc : c ∈ s) :
    P c = false := by
  induction l generalizing s with
  | nil =>
    simp only [List.splitOnP_nil, List.mem_singleton] at h
    simp [h] at hc
  | cons x l ih =>
    rw [List.splitOnP_cons_eq_if_modifyHead] at h
    by_cases hx : P x
    · rw [if_pos hx] at h
      rcases List.mem_cons.1 h with rfl | h
      · simp at hc
      · exact ih s h hc
    · rw [if_neg hx] at h
      cases hs : l.splitOnP P with
      | nil => simp [hs] at h
      | cons y ys =>
        rw [hs] at h ih
        simp only [List.modifyHead_cons, List.mem_cons] at h
        rcases h with rfl | h
        · rcases List.mem_cons.1 hc with rfl | hc
          · simpa using hx
          · exact ih y (by simp) hc
        · exact ih s (by simp [h]) hc

end Lulua
