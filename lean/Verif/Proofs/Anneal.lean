import Verif.Model.Optimize
import Mathlib.Analysis.SpecialFunctions.Pow.Real

/-!
# Proofs about simulated annealing
-/

namespace Lulua
open Anneal

variable {σ ρ : Type} {accept : Nat → Rat → Bool} {mutate : σ → ρ → Rnd (Rat × σ × ρ)}

theorem loop_succ_ok {x : Anneal σ × ρ} {n : Nat} {z : Anneal σ × ρ} :
    loop accept mutate x (n + 1) = .ok z ↔
      ∃ y, loop accept mutate x n = .ok y ∧ step accept mutate n y = .ok z := by
  rw [loop]
  cases h : loop accept mutate x n with
  | error e => simp
  | ok y => simp

theorem step_ok {n : Nat} {y z : Anneal σ × ρ} : step accept mutate n y = .ok z ↔
    ∃ d s r, mutate y.1.state y.2 = .ok (d, s, r) ∧ z = (judge (accept n) y.1 s d, r) := by
  unfold step
  cases h : mutate y.1.state y.2 with
  | error e => simp
  | ok w =>
    obtain ⟨d, s, r⟩ := w
    simp only [Except.ok.injEq, Prod.mk.injEq]
    constructor
    · rintro rfl; exact ⟨d, s, r, ⟨rfl, rfl, rfl⟩, rfl⟩
    · rintro ⟨_, _, _, ⟨rfl, rfl, rfl⟩, h⟩; exact h.symm

theorem loop_le {x : Anneal σ × ρ} {n : Nat} {z : Anneal σ × ρ} (h : loop accept mutate x n = .ok z) {k : Nat}
    (hk : k ≤ n) : ∃ y, loop accept mutate x k = .ok y := by
  induction n generalizing z with
  | zero => obtain rfl := Nat.le_zero.1 hk; exact ⟨z, h⟩
  | succ n ih =>
    obtain ⟨y, h1, _⟩ := loop_succ_ok.1 h
    rcases Nat.lt_or_eq_of_le hk with h2 | rfl
    · exact ih h1 (by omega)
    · exact ⟨z, h⟩

theorem loop_inv (I : σ → Prop) (E : σ → Rat)
    (hm : ∀ s r d s' r', I s → mutate s r = .ok (d, s', r') → I s' ∧ d = E s' - E s) {s0 : σ} (h0 : I s0) (r0 : ρ)
    (n : Nat) (x : Anneal σ) (r : ρ) (h : loop accept mutate (start s0, r0) n = .ok (x, r)) :
    I x.state ∧ x.energy = E x.state - E s0 ∧ I x.best.1 ∧ x.best.2 = E x.best.1 - E s0 ∧ x.best.2 ≤ x.energy ∧
      x.best.2 ≤ 0 := by
  induction n generalizing x r with
  | zero =>
    simp only [loop, Except.ok.injEq, Prod.mk.injEq] at h
    obtain ⟨rfl, rfl⟩ := h
    simp [start, h0]
  | succ n ih =>
    obtain ⟨⟨y, ry⟩, h1, h2⟩ := loop_succ_ok.1 h
    obtain ⟨d, s, r', h3, h4⟩ := step_ok.1 h2
    obtain ⟨hI, hE, hb, hbE, hle, h0'⟩ := ih y ry h1
    obtain ⟨hs, rfl⟩ := hm _ _ _ _ _ hI h3
    simp only [Prod.mk.injEq] at h4
    obtain ⟨rfl, rfl⟩ := h4
    unfold judge
    simp only
    split_ifs with hc hlt
    · refine ⟨hs, by simp only [hE]; ring, hs, by simp only [hE]; ring, le_refl _, ?_⟩
      exact le_of_lt (lt_of_lt_of_le hlt h0')
    · exact ⟨hs, by simp only [hE]; ring, hb, hbE, not_lt.1 hlt, h0'⟩
    · exact ⟨hI, hE, hb, hbE, hle, h0'⟩

/-- The best state is one of the states after `k` steps, and none of these has a lower energy. -/
theorem loop_best {s0 : σ} {r0 : ρ} (n : Nat) (x : Anneal σ) (r : ρ)
    (h : loop accept mutate (start s0, r0) n = .ok (x, r)) :
    (∃ k ≤ n, ∃ y ry, loop accept mutate (start s0, r0) k = .ok (y, ry) ∧ x.best = (y.state, y.energy)) ∧
      ∀ k ≤ n, ∀ y ry, loop accept mutate (start s0, r0) k = .ok (y, ry) → x.best.2 ≤ y.energy := by
  induction n generalizing x r with
  | zero =>
    simp only [loop, Except.ok.injEq, Prod.mk.injEq] at h
    obtain ⟨rfl, rfl⟩ := h
    refine ⟨⟨0, le_refl _, start s0, r0, rfl, rfl⟩, ?_⟩
    intro k hk y ry hy
    obtain rfl := Nat.le_zero.1 hk
    simp only [loop, Except.ok.injEq, Prod.mk.injEq] at hy
    obtain ⟨rfl, rfl⟩ := hy
    exact le_refl _
  | succ n ih =>
    have hx := h
    obtain ⟨⟨y, ry⟩, h1, h2⟩ := loop_succ_ok.1 h
    obtain ⟨d, s, r', h3, h4⟩ := step_ok.1 h2
    obtain ⟨⟨k, hk, z, rz, hz, hbz⟩, hmin⟩ := ih y ry h1
    simp only [Prod.mk.injEq] at h4
    obtain ⟨hx', rfl⟩ := h4
    have hcase : (x.best = (x.state, x.energy) ∧ x.best.2 ≤ y.best.2) ∨ (x.best = y.best ∧ y.best.2 ≤ x.energy) := by
      rw [hx']
      unfold judge
      simp only
      split_ifs with hc hlt
      · exact .inl ⟨rfl, le_of_lt hlt⟩
      · exact .inr ⟨rfl, not_lt.1 hlt⟩
      · exact .inr ⟨rfl, hmin n (le_refl _) y ry h1⟩
    have hlast : ∀ y' ry', loop accept mutate (start s0, r0) (n + 1) = .ok (y', ry') → y' = x := by
      intro y' ry' hy'
      rw [hx] at hy'
      simp only [Except.ok.injEq, Prod.mk.injEq] at hy'
      exact hy'.1.symm
    rcases hcase with ⟨hb, hle⟩ | ⟨hb, hle⟩
    · refine ⟨⟨n + 1, le_refl _, x, r, hx, hb⟩, ?_⟩
      intro k' hk' y' ry' hy'
      rcases Nat.lt_or_eq_of_le hk' with h5 | rfl
      · exact le_trans hle (hmin k' (by omega) y' ry' hy')
      · rw [hlast y' ry' hy', hb]
    · refine ⟨⟨k, by omega, z, rz, hz, by rw [hb, hbz]⟩, ?_⟩
      intro k' hk' y' ry' hy'
      rcases Nat.lt_or_eq_of_le hk' with h5 | rfl
      · rw [hb]; exact hmin k' (by omega) y' ry' hy'
      · rw [hlast y' ry' hy', hb]; exact hle

/-- The largest change so far. -/
theorem loop_diffMax {s0 : σ} {r0 : ρ} (n : Nat) (x : Anneal σ) (r : ρ)
    (h : loop accept mutate (start s0, r0) n = .ok (x, r)) :
    (∀ k < n, ∀ y ry d s r', loop accept mutate (start s0, r0) k = .ok (y, ry) → mutate y.state ry = .ok (d, s, r') →
      |d| ≤ x.energyDiffMax) ∧
    (x.energyDiffMax = 0 ∨ ∃ k < n, ∃ y ry d s r', loop accept mutate (start s0, r0) k = .ok (y, ry) ∧
      mutate y.state ry = .ok (d, s, r') ∧ x.energyDiffMax = |d|) := by
  induction n generalizing x r with
  | zero =>
    simp only [loop, Except.ok.injEq, Prod.mk.injEq] at h
    obtain ⟨rfl, rfl⟩ := h
    exact ⟨by simp, .inl rfl⟩
  | succ n ih =>
    obtain ⟨⟨y, ry⟩, h1, h2⟩ := loop_succ_ok.1 h
    obtain ⟨d, s, r', h3, h4⟩ := step_ok.1 h2
    obtain ⟨hall, hex⟩ := ih y ry h1
    simp only [Prod.mk.injEq] at h4
    obtain ⟨hx, rfl⟩ := h4
    have hm : x.energyDiffMax = max |d| y.energyDiffMax := by
      rw [hx]; unfold judge; simp only; split_ifs <;> rfl
    rw [hm]
    constructor
    · intro k hk y' ry' d' s' r'' hl hmut
      rcases Nat.lt_or_eq_of_le (Nat.le_of_lt_succ hk) with h5 | rfl
      · exact le_max_of_le_right (hall k h5 y' ry' d' s' r'' hl hmut)
      · rw [h1] at hl
        simp only [Except.ok.injEq, Prod.mk.injEq] at hl
        obtain ⟨rfl, rfl⟩ := hl
        rw [h3] at hmut
        simp only [Except.ok.injEq, Prod.mk.injEq] at hmut
        rw [hmut.1]
        exact le_max_left _ _
    · rcases le_total |d| y.energyDiffMax with h5 | h5
      · rw [max_eq_right h5]
        rcases hex with h6 | ⟨k, hk, z, rz, d', s', r'', h6, h7, h8⟩
        · exact .inl h6
        · exact .inr ⟨k, by omega, z, rz, d', s', r'', h6, h7, h8⟩
      · rw [max_eq_left h5]
        exact .inr ⟨n, by omega, y, ry, d, s, r, h1, h3, rfl⟩

/-- What `acceptable` means: the relative difference is below `10 ^ -(i / steps * 6)`. -/
theorem acceptable_iff {steps i : Nat} (hs : 0 < steps) {r : Rat} (hr : 0 ≤ r) :
    acceptable steps i r = true ↔ (r : ℝ) < (10 : ℝ) ^ (-((i : ℝ) / (steps : ℝ) * 6)) := by
  unfold acceptable
  rw [decide_eq_true_eq]
  have hs' : (0 : ℝ) < steps := by exact_mod_cast hs
  have h1 : ((10 : ℝ) ^ (-((i : ℝ) / (steps : ℝ) * 6))) ^ steps = ((10 : ℝ) ^ (6 * i))⁻¹ := by
    rw [← Real.rpow_natCast, ← Real.rpow_mul (by norm_num)]
    have : -((i : ℝ) / (steps : ℝ) * 6) * (steps : ℝ) = -((6 * i : ℕ) : ℝ) := by
      push_cast
      field_simp
    rw [this, Real.rpow_neg (by norm_num), Real.rpow_natCast]
  have h2 : (r : ℝ) < (10 : ℝ) ^ (-((i : ℝ) / (steps : ℝ) * 6)) ↔
      (r : ℝ) ^ steps < ((10 : ℝ) ^ (-((i : ℝ) / (steps : ℝ) * 6))) ^ steps :=
    (pow_lt_pow_iff_left₀ (by exact_mod_cast hr) (Real.rpow_nonneg (by norm_num) _) (by omega)).symm
  rw [h2, h1, inv_eq_one_div, lt_div_iff₀ (by positivity)]
  have h3 : ((r ^ steps * 10 ^ (6 * i) : ℚ) : ℝ) = (r : ℝ) ^ steps * (10 : ℝ) ^ (6 * i) := by push_cast; rfl
  rw [← h3]
  constructor
  · intro h; exact_mod_cast h
  · intro h; exact_mod_cast h

end Lulua
