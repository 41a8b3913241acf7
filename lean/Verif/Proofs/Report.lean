import Mathlib.Tactic.Linarith
import Mathlib.Tactic.FieldSimp
import Mathlib.Tactic.Ring
import Verif.Spec.Report
import Verif.Proofs.Carpalx

/-!
# Lemmas about the numbers in reports
-/

namespace Lulua
open Spec

/-! ### `Decimal` -/

theorem halfEven_bounds (n : Nat) {d : Nat} (hd : 0 < d) : 2 * n ≤ 2 * (d * halfEven n d) + d ∧ 2 * (d * halfEven n d) ≤ 2 * n + d := by
  have h1 := Nat.div_add_mod n d
  have h2 := Nat.mod_lt n hd
  unfold halfEven
  simp only
  generalize n / d = q at *
  generalize n % d = r at *
  split_ifs with h
  · have : d * (q + 1) = d * q + d := by ring
    omega
  · omega

theorem halfEven_rat (n : Nat) {d : Nat} (hd : 0 < d) : |(halfEven n d : Rat) - (n : Rat) / (d : Rat)| ≤ 1 / 2 := by
  obtain ⟨h1, h2⟩ := halfEven_bounds n hd
  have h1' : (2 * (n : Rat)) ≤ 2 * (d * halfEven n d) + d := by exact_mod_cast h1
  have h2' : 2 * ((d : Rat) * halfEven n d) ≤ 2 * n + d := by exact_mod_cast h2
  have hd' : (0 : Rat) < d := by exact_mod_cast hd
  rw [abs_le]
  constructor
  · rw [neg_le_sub_iff_le_add, div_le_iff₀ hd']; nlinarith
  · rw [sub_le_iff_le_add, ← sub_le_iff_le_add', le_div_iff₀ hd']; nlinarith

/-- What rounding to a decimal gives: the tenths are within a half of the exact ones. -/
theorem roundTenth_spec (i : Dec) (hn : i.neg = false) :
    ∃ c : Nat, |(c : Rat) - 10 * decVal i| ≤ 1 / 2 ∧
      i.roundTenth = if 10 ^ 28 ≤ c then .error .invalidOperation else .ok ⟨false, c, -1⟩ := by
  obtain ⟨neg, c, e⟩ := i
  simp only at hn
  subst hn
  simp only [decVal, Bool.false_eq_true, if_false, one_mul, Dec.roundTenth]
  by_cases he : -1 ≤ e
  · refine ⟨c * 10 ^ (e + 1).toNat, ?_, by rw [if_pos he]⟩
    have : ((c * 10 ^ (e + 1).toNat : Nat) : Rat) = 10 * (c * (10 : Rat) ^ e) := by
      push_cast
      have h : ((10 : Rat) ^ (e + 1).toNat) = (10 : Rat) ^ (e + 1) := by
        rw [← zpow_natCast]; congr 1; omega
      rw [h, zpow_add_one₀ (by norm_num)]; ring
    rw [this, sub_self, abs_zero]
    norm_num
  · refine ⟨halfEven c (10 ^ (-1 - e).toNat), ?_, by rw [if_neg he]⟩
    have h := halfEven_rat c (d := 10 ^ (-1 - e).toNat) (by positivity)
    have h2 : (c : Rat) / ((10 ^ (-1 - e).toNat : Nat) : Rat) = 10 * (c * (10 : Rat) ^ e) := by
      push_cast
      have h : ((10 : Rat) ^ (-1 - e).toNat) = (10 : Rat) ^ (-1 - e) := by
        rw [← zpow_natCast]; congr 1; omega
      rw [h, div_eq_mul_inv, ← zpow_neg, show -(-1 - e) = e + 1 by ring, zpow_add_one₀ (by norm_num)]; ring
    rwa [h2] at h

theorem div1000_short {i : Dec} (h : i.coeff ≤ 10 ^ 28) : decVal i.div1000 = decVal i / 1000 ∧ i.div1000.neg = i.neg ∧
    i.div1000.coeff ≤ 10 ^ 28 := by
  have h3 : ∀ e : Int, (10 : Rat) ^ (e - 3) = (10 : Rat) ^ e / 1000 := by
    intro e; rw [zpow_sub₀ (by norm_num)]; norm_num
  unfold Dec.div1000
  by_cases hl : i.coeff < 10 ^ 28
  · rw [if_pos hl]
    refine ⟨?_, rfl, h⟩
    simp only [decVal, h3]; ring
  · rw [if_neg hl]
    have hc : i.coeff = 10 ^ 28 := by omega
    have hk : Nat.log 10 (10 ^ 28) - 27 = 1 := by rw [Nat.log_pow (by norm_num)]
    have hh : halfEven (10 ^ 28) (10 ^ 1) = 10 ^ 27 := by decide
    simp only [hc, hk, hh]
    refine ⟨?_, trivial, by norm_num⟩
    simp only [decVal, hc]
    rw [show i.exp - 3 + ((1 : Nat) : Int) = (i.exp - 3) + 1 by norm_num, zpow_add_one₀ (by norm_num), h3]
    push_cast
    ring

theorem div1000_long {i : Dec} (h : 10 ^ 28 ≤ i.coeff) (hn : i.neg = false) :
    |decVal i.div1000 - decVal i / 1000| ≤ decVal i / 1000 * (1 / (2 * 10 ^ 27)) ∧ i.div1000.neg = false ∧
      i.div1000.coeff ≤ 10 ^ 28 := by
  have h3 : ∀ e : Int, (10 : Rat) ^ (e - 3) = (10 : Rat) ^ e / 1000 := by
    intro e; rw [zpow_sub₀ (by norm_num)]; norm_num
  unfold Dec.div1000
  rw [if_neg (by omega)]
  simp only
  set L := Nat.log 10 i.coeff with hL
  have hL28 : 28 ≤ L := by
    have := Nat.log_mono_right (b := 10) h
    rwa [Nat.log_pow (by norm_num)] at this
  set k := L - 27 with hk
  have hlow : 10 ^ 27 * 10 ^ k ≤ i.coeff := by
    rw [← pow_add, show 27 + k = L by omega]
    exact Nat.pow_log_le_self 10 (by omega)
  have hup : i.coeff < 10 ^ 28 * 10 ^ k := by
    rw [← pow_add, show 28 + k = L + 1 by omega]
    exact Nat.lt_pow_succ_log_self (by norm_num) _
  have hh := halfEven_rat i.coeff (d := 10 ^ k) (by positivity)
  set H := halfEven i.coeff (10 ^ k) with hH
  have hpk : (0 : Rat) < 10 ^ k := by positivity
  refine ⟨?_, hn, ?_⟩
  · have e1 : decVal ⟨i.neg, H, i.exp - 3 + k⟩ = (H * 10 ^ k : Rat) * ((10 : Rat) ^ i.exp / 1000) := by
      simp only [decVal, hn, Bool.false_eq_true, if_false, one_mul]
      rw [zpow_add₀ (by norm_num), h3, zpow_natCast]; ring
    have e2 : decVal i / 1000 = (i.coeff : Rat) * ((10 : Rat) ^ i.exp / 1000) := by
      simp only [decVal, hn, Bool.false_eq_true, if_false, one_mul]; ring
    rw [e1, e2, ← sub_mul, abs_mul]
    have hpos : (0 : Rat) < (10 : Rat) ^ i.exp / 1000 := by positivity
    rw [abs_of_pos hpos, mul_right_comm]
    apply mul_le_mul_of_nonneg_right _ hpos.le
    have e3 : |(H : Rat) * 10 ^ k - i.coeff| = |(H : Rat) - (i.coeff : Rat) / ((10 ^ k : Nat) : Rat)| * 10 ^ k := by
      rw [← abs_of_pos hpk, ← abs_mul, abs_of_pos hpk]
      congr 1
      push_cast
      field_simp
    rw [e3]
    have hlow' : (10 ^ 27 * 10 ^ k : Rat) ≤ i.coeff := by exact_mod_cast hlow
    have : |(H : Rat) - (i.coeff : Rat) / ((10 ^ k : Nat) : Rat)| * 10 ^ k ≤ 1 / 2 * 10 ^ k :=
      mul_le_mul_of_nonneg_right hh hpk.le
    have e4 : (1 / 2 * 10 ^ k : Rat) = (10 ^ 27 * 10 ^ k) * (1 / (2 * 10 ^ 27)) := by
      field_simp
    rw [e4] at this
    refine le_trans this ?_
    apply mul_le_mul_of_nonneg_right hlow' (by positivity)
  · obtain ⟨_, h2⟩ := halfEven_bounds i.coeff (d := 10 ^ k) (by positivity)
    rw [← hH] at h2
    have hp : 0 < 10 ^ k := by positivity
    by_contra hcon
    have : 10 ^ 28 + 1 ≤ H := by omega
    have := Nat.mul_le_mul_left (10 ^ k) this
    rw [Nat.mul_add, Nat.mul_comm (10 ^ k) (10 ^ 28), Nat.mul_one] at this
    omega

theorem approxLoop_cons (u u' : String) (us : List String) (i : Dec) : approxLoop (u :: u' :: us) i = (do
    let r ← i.roundTenth
    if r.ge1000 then approxLoop (u' :: us) i.div1000 else .ok (r, u)) := rfl

theorem approxLoop_short : ∀ (us : List String), us ≠ [] → ∀ (i : Dec), i.neg = false → i.coeff ≤ 10 ^ 28 →
    decVal i < 10 ^ 27 - 1 / 20 →
    ∃ j c, ∃ hj : j < us.length, approxLoop us i = .ok (⟨false, c, -1⟩, us[j]) ∧
      |(c : Rat) / 10 - decVal i / 1000 ^ j| ≤ 1 / 20 ∧ (c < 10000 ∨ j + 1 = us.length) ∧ (0 < j → 10 ≤ c)
  | [], h, _, _, _, _ => absurd rfl h
  | [u], _, i, hn, hc, hv => by
    obtain ⟨c, h1, h2⟩ := roundTenth_spec i hn
    have hlt : c < 10 ^ 28 := by
      have := (abs_le.1 h1).2
      have : (c : Rat) < 10 ^ 28 := by linarith
      exact_mod_cast this
    rw [if_neg (by omega)] at h2
    refine ⟨0, c, by simp, by simp [approxLoop, h2, bind, Except.bind], ?_, by simp, by simp⟩
    rw [abs_le] at h1 ⊢
    constructor <;> simp only [pow_zero, div_one] <;> linarith
  | u :: u' :: us, _, i, hn, hc, hv => by
    obtain ⟨c, h1, h2⟩ := roundTenth_spec i hn
    have hlt : c < 10 ^ 28 := by
      have := (abs_le.1 h1).2
      have : (c : Rat) < 10 ^ 28 := by linarith
      exact_mod_cast this
    rw [if_neg (by omega)] at h2
    by_cases hge : 10000 ≤ c
    · obtain ⟨e1, e2, e3⟩ := div1000_short hc
      have hge' : (10000 : Rat) ≤ c := by exact_mod_cast hge
      have hbig : 19999 / 20 ≤ decVal i := by
        have := (abs_le.1 h1).2; linarith
      obtain ⟨j, c', hj, f1, f2, f3, f4⟩ := approxLoop_short (u' :: us) (by simp) i.div1000 (by rw [e2]; exact hn) e3 (by
        rw [e1]; linarith)
      refine ⟨j + 1, c', by simpa using hj, ?_, ?_, ?_, fun _ => ?_⟩
      · rw [approxLoop_cons, h2]
        simp only [bind, Except.bind, Dec.ge1000, Bool.not_false, Bool.true_and, decide_eq_true_eq]
        rw [if_pos hge, f1]
        rfl
      · rw [e1, div_div, ← pow_succ'] at f2
        exact f2
      · simpa using f3
      · rcases Nat.eq_zero_or_pos j with rfl | hj
        · rw [e1, pow_zero, div_one] at f2
          have := (abs_le.1 f2).1
          have : (9 : Rat) < c' := by linarith
          have : 9 < c' := by exact_mod_cast this
          omega
        · exact f4 hj
    · refine ⟨0, c, by simp, ?_, ?_, .inl (by omega), by simp⟩
      · rw [approxLoop_cons, h2]
        simp only [bind, Except.bind, Dec.ge1000, Bool.not_false, Bool.true_and, decide_eq_true_eq]
        rw [if_neg hge]
        rfl
      · rw [abs_le] at h1 ⊢
        constructor <;> simp only [pow_zero, div_one] <;> linarith

theorem decVal_nonneg {i : Dec} (hn : i.neg = false) : 0 ≤ decVal i := by
  simp only [decVal, hn, Bool.false_eq_true, if_false, one_mul]
  positivity

/-- For numbers with any number of digits. -/
theorem approxLoop_long (u u' : String) (us : List String) (i : Dec) (hn : i.neg = false) (hv : decVal i < 10 ^ 27 - 1 / 20) :
    ∃ j c, ∃ hj : j < (u :: u' :: us).length, approxLoop (u :: u' :: us) i = .ok (⟨false, c, -1⟩, (u :: u' :: us)[j]) ∧
      |(c : Rat) / 10 - decVal i / 1000 ^ j| ≤ 1 / 20 + decVal i / 1000 ^ j * (1 / (2 * 10 ^ 27)) ∧
      (c < 10000 ∨ j + 1 = (u :: u' :: us).length) ∧ (0 < j → 10 ≤ c) := by
  have h0 := decVal_nonneg hn
  rcases Nat.lt_or_ge i.coeff (10 ^ 28) with hs | hl
  · obtain ⟨j, c, hj, f1, f2, f3⟩ := approxLoop_short (u :: u' :: us) (by simp) i hn hs.le hv
    exact ⟨j, c, hj, f1, le_trans f2 (by have : 0 ≤ decVal i / 1000 ^ j * (1 / (2 * 10 ^ 27)) := by positivity
                                         linarith), f3⟩
  · obtain ⟨c, h1, h2⟩ := roundTenth_spec i hn
    have hlt : c < 10 ^ 28 := by
      have := (abs_le.1 h1).2
      have : (c : Rat) < 10 ^ 28 := by linarith
      exact_mod_cast this
    rw [if_neg (by omega)] at h2
    by_cases hge : 10000 ≤ c
    · obtain ⟨e1, e2, e3⟩ := div1000_long hl hn
      have hge' : (10000 : Rat) ≤ c := by exact_mod_cast hge
      have hbig : 19999 / 20 ≤ decVal i := by
        have := (abs_le.1 h1).2; linarith
      have e1' : |decVal i.div1000 - decVal i / 1000| ≤ decVal i / 1000 * (1 / 100000) := le_trans e1 (by
        apply mul_le_mul_of_nonneg_left _ (by positivity)
        norm_num)
      rw [abs_le] at e1'
      obtain ⟨j, c', hj, f1, f2, f3, f4⟩ := approxLoop_short (u' :: us) (by simp) i.div1000 e2 e3 (by
        linarith)
      refine ⟨j + 1, c', by simpa using hj, ?_, ?_, ?_, fun _ => ?_⟩
      · rw [approxLoop_cons, h2]
        simp only [bind, Except.bind, Dec.ge1000, Bool.not_false, Bool.true_and, decide_eq_true_eq]
        rw [if_pos hge, f1]
        rfl
      · have hp : (0 : Rat) < 1000 ^ j := by positivity
        have e4 : |decVal i.div1000 / 1000 ^ j - decVal i / 1000 ^ (j + 1)| ≤
            decVal i / 1000 ^ (j + 1) * (1 / (2 * 10 ^ 27)) := by
          have : decVal i / 1000 ^ (j + 1) = decVal i / 1000 / 1000 ^ j := by rw [pow_succ', div_div]
          rw [this, ← sub_div, abs_div, abs_of_pos hp, div_mul_eq_mul_div]
          exact div_le_div_of_nonneg_right e1 hp.le
        calc |(c' : Rat) / 10 - decVal i / 1000 ^ (j + 1)|
            ≤ |(c' : Rat) / 10 - decVal i.div1000 / 1000 ^ j| + |decVal i.div1000 / 1000 ^ j - decVal i / 1000 ^ (j + 1)| :=
              abs_sub_le _ _ _
          _ ≤ _ := add_le_add f2 e4
      · simpa using f3
      · rcases Nat.eq_zero_or_pos j with rfl | hj
        · rw [pow_zero, div_one] at f2
          have := (abs_le.1 f2).1
          have : (9 : Rat) < c' := by linarith
          have : 9 < c' := by exact_mod_cast this
          omega
        · exact f4 hj
    · refine ⟨0, c, by simp, ?_, ?_, .inl (by omega), by simp⟩
      · rw [approxLoop_cons, h2]
        simp only [bind, Except.bind, Dec.ge1000, Bool.not_false, Bool.true_and, decide_eq_true_eq]
        rw [if_neg hge]
        rfl
      · rw [abs_le] at h1 ⊢
        have : 0 ≤ decVal i / 1000 ^ 0 * (1 / (2 * 10 ^ 27)) := by positivity
        constructor <;> simp only [pow_zero, div_one] at * <;> linarith

/-! ### `limit_denominator` -/

/-- Between two fractions with determinant one there is none with a small denominator, so that one of them is closest to
every number between them. -/
theorem nearest_of_det {a b c d : Int} (hb : 0 < b) (hd : 0 < d) (hdet : c * b - a * d = 1) {x : Rat}
    (h1 : (a : Rat) / b ≤ x) (h2 : x ≤ (c : Rat) / d) {p q : Int} (hq : 0 < q) (hqs : q < b + d) :
    |(a : Rat) / b - x| ≤ |(p : Rat) / q - x| ∨ |(c : Rat) / d - x| ≤ |(p : Rat) / q - x| := by
  have hb' : (0 : Rat) < b := by exact_mod_cast hb
  have hd' : (0 : Rat) < d := by exact_mod_cast hd
  have hq' : (0 : Rat) < q := by exact_mod_cast hq
  by_cases h3 : p * b ≤ a * q
  · left
    have h3' : (p : Rat) * b ≤ a * q := by exact_mod_cast h3
    have : (p : Rat) / q ≤ (a : Rat) / b := by rw [div_le_div_iff₀ hq' hb']; exact h3'
    rw [abs_of_nonpos (by linarith), abs_of_nonpos (by linarith)]
    linarith
  · right
    by_cases h4 : c * q ≤ p * d
    · have h4' : (c : Rat) * q ≤ p * d := by exact_mod_cast h4
      have : (c : Rat) / d ≤ (p : Rat) / q := by rw [div_le_div_iff₀ hd' hq']; exact h4'
      rw [abs_of_nonneg (by linarith), abs_of_nonneg (by linarith)]
      linarith
    · exfalso
      have e1 : 1 ≤ p * b - a * q := by omega
      have e2 : 1 ≤ c * q - p * d := by omega
      have e3 : q = b * (c * q - p * d) + d * (p * b - a * q) := by
        have : q = q * (c * b - a * d) := by rw [hdet, mul_one]
        linarith
      nlinarith

/-- What holds in every round of the loop after the first. -/
structure LoopInv (x : Rat) (m : Int) (c : Convergents) : Prop where
  num : x.num = c.p1 * c.n + c.p0 * c.d
  den : (x.den : Int) = c.q1 * c.n + c.q0 * c.d
  det : c.p1 * c.q0 - c.p0 * c.q1 = 1 ∨ c.p1 * c.q0 - c.p0 * c.q1 = -1
  q0 : 0 ≤ c.q0 ∧ c.q0 ≤ m
  q1 : 1 ≤ c.q1 ∧ c.q1 ≤ m
  d : 0 ≤ c.d ∧ c.d < c.n

theorem loopInv_pos {x : Rat} {m : Int} (hm : m < x.den) {c : Convergents} (h : LoopInv x m c) : 0 < c.d := by
  by_contra hcon
  have hd : c.d = 0 := by have := h.d.1; omega
  have h1 : x.num = c.p1 * c.n := by rw [h.num, hd]; ring
  have h2 : (x.den : Int) = c.q1 * c.n := by rw [h.den, hd]; ring
  have hco := x.reduced
  have hn : 0 < c.n := by have := h.d.2; omega
  have hdvd : c.n.natAbs ∣ Nat.gcd x.num.natAbs x.den := by
    apply Nat.dvd_gcd
    · rw [h1, Int.natAbs_mul]; exact Dvd.intro_left _ rfl
    · have : x.den = c.q1.natAbs * c.n.natAbs := by
        have := congrArg Int.natAbs h2
        rwa [Int.natAbs_natCast, Int.natAbs_mul] at this
      rw [this]; exact Dvd.intro_left _ rfl
  rw [hco] at hdvd
  have : c.n = 1 := by
    have := Nat.dvd_one.1 hdvd
    omega
  rw [this, mul_one] at h2
  have := h.q1.2
  omega

theorem loop_ends {x : Rat} {m : Int} (hm : m < x.den) : ∀ (fuel : Nat) (c : Convergents), LoopInv x m c → c.d < fuel →
    ∃ c', limitDenominatorLoop m fuel c = .ok c' ∧ LoopInv x m c' ∧ m < c'.q0 + c'.n / c'.d * c'.q1
  | 0, c, h, hf => by have := h.d.1; simp at hf; omega
  | fuel + 1, c, h, hf => by
    have hd := loopInv_pos hm h
    rw [limitDenominatorLoop, if_neg (by omega)]
    simp only
    by_cases hq : c.q0 + c.n / c.d * c.q1 > m
    · rw [if_pos hq]
      exact ⟨c, rfl, h, hq⟩
    · rw [if_neg hq]
      have hdm := Int.mul_ediv_add_emod c.n c.d
      have hr := Int.emod_nonneg c.n (show c.d ≠ 0 by omega)
      have hr2 := Int.emod_lt_of_pos c.n hd
      have ha : 1 ≤ c.n / c.d := by
        have := h.d.2
        exact (Int.le_ediv_iff_mul_le hd).2 (by omega)
      have hq1 := h.q1
      have hq0 := h.q0
      generalize c.n / c.d = a at *
      have hrem : c.n - a * c.d = c.n % c.d := by rw [mul_comm a]; omega
      refine loop_ends hm fuel ⟨c.p1, c.q1, c.p0 + a * c.p1, c.q0 + a * c.q1, c.d, c.n - a * c.d⟩ ⟨?_, ?_, ?_, ?_, ?_, ?_⟩ ?_
      · rw [h.num]; ring
      · rw [h.den]; ring
      · rcases h.det with h | h
        · right; linarith
        · left; linarith
      · exact ⟨by simp only; omega, hq1.2⟩
      · refine ⟨?_, by simp only; omega⟩
        simp only
        nlinarith
      · simp only; rw [hrem]; exact ⟨hr, hr2⟩
      · simp only; rw [hrem]; push_cast at hf; omega

theorem limitDenominator_spec (x : Rat) (m : Int) (hm : 1 ≤ m) :
    ∃ f, limitDenominator x m = .ok f ∧ (f.den : Int) ≤ m ∧
      ∀ p q : Int, 0 < q → q ≤ m → |f - x| ≤ |(p : Rat) / q - x| := by
  unfold limitDenominator
  rw [if_neg (by omega)]
  by_cases hx : (x.den : Int) ≤ m
  · rw [if_pos hx]
    exact ⟨x, rfl, hx, fun p q _ _ => by rw [sub_self, abs_zero]; exact abs_nonneg _⟩
  · rw [if_neg hx]
    have hx : m < x.den := by omega
    have hden : (0 : Int) < x.den := by exact_mod_cast x.den_pos
    -- first round
    have hstep : limitDenominatorLoop m (x.den + 2) ⟨0, 1, 1, 0, x.num, x.den⟩ =
        limitDenominatorLoop m (x.den + 1) ⟨1, 0, x.num / x.den, 1, x.den, x.num - x.num / x.den * x.den⟩ := by
      rw [limitDenominatorLoop, if_neg (show ¬ (x.den : Int) = 0 by omega)]
      simp only [mul_zero, add_zero, mul_one, zero_add]
      rw [if_neg (by omega)]
    have hdm := Int.mul_ediv_add_emod x.num x.den
    have hr := Int.emod_nonneg x.num (show (x.den : Int) ≠ 0 by omega)
    have hr2 := Int.emod_lt_of_pos x.num hden
    have hrem : x.num - x.num / x.den * x.den = x.num % x.den := by rw [mul_comm]; omega
    obtain ⟨c, h1, h2, h3⟩ := loop_ends hx (x.den + 1)
      ⟨1, 0, x.num / x.den, 1, x.den, x.num - x.num / x.den * x.den⟩
      ⟨by simp only; ring, by simp only; ring, by right; simp only; ring, by simp only; omega, by simp only; omega,
        by simp only; rw [hrem]; exact ⟨hr, hr2⟩⟩ (by simp only; rw [hrem]; push_cast; omega)
    rw [hstep, h1]
    simp only [bind, Except.bind]
    have hq1 := h2.q1
    have hq0 := h2.q0
    have hd := loopInv_pos hx h2
    rw [if_neg (by omega)]
    have hkm := Int.mul_ediv_add_emod (m - c.q0) c.q1
    have hk1 := Int.emod_nonneg (m - c.q0) (show c.q1 ≠ 0 by omega)
    have hk2 := Int.emod_lt_of_pos (m - c.q0) (show 0 < c.q1 by omega)
    have hk0 : 0 ≤ (m - c.q0) / c.q1 := Int.ediv_nonneg (by omega) (by omega)
    have hdm := Int.mul_ediv_add_emod c.n c.d
    have hr := Int.emod_nonneg c.n (show c.d ≠ 0 by omega)
    generalize (m - c.q0) / c.q1 = k at *
    generalize c.n / c.d = a at *
    have hka : k + 1 ≤ a := by
      by_contra hcon
      have : a ≤ k := by omega
      nlinarith
    -- the two bounds
    obtain ⟨P, hP⟩ : ∃ P, P = c.p0 + k * c.p1 := ⟨_, rfl⟩
    obtain ⟨Q, hQ⟩ : ∃ Q, Q = c.q0 + k * c.q1 := ⟨_, rfl⟩
    obtain ⟨t, ht⟩ : ∃ t, t = c.n - k * c.d := ⟨_, rfl⟩
    have hQm : Q ≤ m ∧ m < Q + c.q1 := by rw [hQ]; constructor <;> nlinarith
    have hQ0 : 0 < Q := by omega
    have ht0 : 0 < t := by rw [ht]; nlinarith
    have hnum : x.num = c.p1 * t + P * c.d := by rw [h2.num, ht, hP]; ring
    have hdn : (x.den : Int) = c.q1 * t + Q * c.d := by rw [h2.den, ht, hQ]; ring
    have hdet : c.p1 * Q - P * c.q1 = 1 ∨ c.p1 * Q - P * c.q1 = -1 := by
      have : c.p1 * Q - P * c.q1 = c.p1 * c.q0 - c.p0 * c.q1 := by rw [hP, hQ]; ring
      rw [this]; exact h2.det
    rw [← hP, ← hQ, if_neg (by omega)]
    have hxq : x = (x.num : Rat) / ((x.den : Int) : Rat) := by
      rw [Int.cast_natCast]; exact (Rat.num_div_den x).symm
    have hq1' : (0 : Rat) < c.q1 := by exact_mod_cast (show 0 < c.q1 by omega)
    have hQ' : (0 : Rat) < Q := by exact_mod_cast hQ0
    have hden' : (0 : Rat) < ((x.den : Int) : Rat) := by exact_mod_cast hden
    have hbound : ∀ p q : Int, 0 < q → q ≤ m → |(P : Rat) / Q - x| ≤ |(p : Rat) / q - x| ∨
        |(c.p1 : Rat) / c.q1 - x| ≤ |(p : Rat) / q - x| := by
      intro p q hq hqm
      rcases hdet with hdet | hdet
      · refine nearest_of_det hQ0 (by omega) hdet ?_ ?_ hq (by omega)
        · rw [hxq, div_le_div_iff₀ hQ' hden']
          have : P * (x.den : Int) ≤ x.num * Q := by rw [hnum, hdn]; nlinarith
          exact_mod_cast this
        · rw [hxq, div_le_div_iff₀ hden' hq1']
          have : x.num * c.q1 ≤ c.p1 * (x.den : Int) := by rw [hnum, hdn]; nlinarith
          exact_mod_cast this
      · rw [or_comm]
        refine nearest_of_det (by omega) hQ0 (by linarith) ?_ ?_ hq (by omega)
        · rw [hxq, div_le_div_iff₀ hq1' hden']
          have : c.p1 * (x.den : Int) ≤ x.num * c.q1 := by rw [hnum, hdn]; nlinarith
          exact_mod_cast this
        · rw [hxq, div_le_div_iff₀ hden' hQ']
          have : x.num * Q ≤ P * (x.den : Int) := by rw [hnum, hdn]; nlinarith
          exact_mod_cast this
    have hdenle : ∀ (p q : Int), 0 < q → q ≤ m → ((((p : Rat) / q).den : Nat) : Int) ≤ m := by
      intro p q hq hqm
      have h := Rat.den_dvd p q
      have : (((p : Rat) / q).den : Int) ≤ q := by
        have h2 : ((p : Rat) / q).den = (Rat.divInt p q).den := by rw [Rat.divInt_eq_div]
        rw [h2]
        exact Int.le_of_dvd hq h
      omega
    split_ifs with hc
    · refine ⟨_, rfl, hdenle _ _ (by omega) hq1.2, fun p q hq hqm => ?_⟩
      rcases hbound p q hq hqm with h | h
      · exact le_trans hc h
      · exact h
    · refine ⟨_, rfl, hdenle _ _ hQ0 hQm.1, fun p q hq hqm => ?_⟩
      rcases hbound p q hq hqm with h | h
      · exact h
      · exact le_trans (le_of_lt (not_le.1 hc)) h

end Lulua
