import Verif.Model.Printed
import Verif.Spec.Printed
import Verif.Proofs.Page
import Verif.Proofs.Report
import Mathlib.Algebra.Order.Floor.Ring
import Mathlib.Tactic.LinearCombination
import Mathlib.Algebra.BigOperators.Group.List.Basic

/-!
# Lemmas about figures
-/

namespace Lulua
open Spec

/-! ### Rounding -/

theorem halfEven_tie (n : Nat) {d : Nat} (hd : 0 < d) (h : 2 * (d * halfEven n d) = 2 * n + d ∨ 2 * n = 2 * (d * halfEven n d) + d) :
    halfEven n d % 2 = 0 := by
  have h1 := Nat.div_add_mod n d
  have h2 := Nat.mod_lt n hd
  unfold halfEven at *
  simp only at *
  generalize n / d = q at *
  generalize n % d = r at *
  split_ifs at h ⊢ with hc
  · have : d * (q + 1) = d * q + d := by ring
    rcases h with h | h
    · omega
    · omega
  · rcases h with h | h
    · omega
    · omega

theorem halfEven_rounded (d : Nat) (x : Rat) (hx : 0 ≤ x) :
    Rounded d x ((halfEven (x.num.natAbs * 10 ^ d) x.den : Nat) / 10 ^ d) := by
  have hden : (0 : Rat) < x.den := by exact_mod_cast x.den_pos
  have hp : (0 : Rat) < 10 ^ d := by positivity
  have hnum : ((x.num.natAbs : Nat) : Rat) = x * x.den := by
    have h1 : ((x.num.natAbs : Nat) : Int) = x.num := Int.natAbs_of_nonneg (Rat.num_nonneg.2 hx)
    have h2 : (((x.num.natAbs : Nat) : Int) : Rat) = (x.num : Rat) := by rw [h1]
    rw [show ((x.num.natAbs : Nat) : Rat) = (((x.num.natAbs : Nat) : Int) : Rat) from (Int.cast_natCast _).symm, h2]
    exact (Rat.mul_den_eq_num x).symm
  have hb := halfEven_rat (x.num.natAbs * 10 ^ d) x.den_pos
  have ht := halfEven_tie (x.num.natAbs * 10 ^ d) x.den_pos
  generalize hk : halfEven (x.num.natAbs * 10 ^ d) x.den = k at *
  have hq : ((x.num.natAbs * 10 ^ d : Nat) : Rat) / x.den = x * 10 ^ d := by
    push_cast
    rw [hnum]
    field_simp
  have habs : |(k : Rat) / 10 ^ d - x| * 10 ^ d = |(k : Rat) - x * 10 ^ d| := by
    have : (k : Rat) / 10 ^ d - x = ((k : Rat) - x * 10 ^ d) / 10 ^ d := by field_simp
    rw [this, abs_div, abs_of_pos hp]
    field_simp
  refine ⟨⟨k, by push_cast; field_simp, fun h => ?_⟩, by rw [habs, ← hq]; exact hb⟩
  rw [habs, ← hq] at h
  have he : k % 2 = 0 := by
    refine ht ?_
    have hc : ((x.num.natAbs * 10 ^ d : Nat) : Rat) = (x.num.natAbs * 10 ^ d : Nat) / x.den * x.den := by field_simp
    rcases abs_choice ((k : Rat) - ((x.num.natAbs * 10 ^ d : Nat) : Rat) / x.den) with h' | h'
    · left
      rw [h'] at h
      have : 2 * ((x.den : Rat) * k) = 2 * ((x.num.natAbs * 10 ^ d : Nat) : Rat) + x.den := by
        rw [hc]; linear_combination (2 * (x.den : Rat)) * h
      exact_mod_cast this
    · right
      rw [h'] at h
      have : 2 * ((x.num.natAbs * 10 ^ d : Nat) : Rat) = 2 * ((x.den : Rat) * k) + x.den := by
        rw [hc]; linear_combination (2 * (x.den : Rat)) * h
      exact_mod_cast this
  exact (Int.even_coe_nat k).2 (Nat.even_iff.2 he)

theorem rounded_neg {d : Nat} {x v : Rat} (h : Rounded d x v) : Rounded d (-x) (-v) := by
  obtain ⟨⟨k, h1, h2⟩, h3⟩ := h
  have ha : |-v - -x| = |v - x| := by rw [show -v - -x = -(v - x) by ring, abs_neg]
  refine ⟨⟨-k, by push_cast; rw [← h1]; ring, fun h => ?_⟩, by rw [ha]; exact h3⟩
  rw [ha] at h
  exact (h2 h).neg

/-- Rounding keeps the order, and has one result. -/
theorem rounded_mono {d : Nat} {x y v w : Rat} (hv : Rounded d x v) (hw : Rounded d y w) (h : x ≤ y) : v ≤ w := by
  have hp : (0 : Rat) < 10 ^ d := by positivity
  obtain ⟨⟨k, h1, h2⟩, h3⟩ := hv
  obtain ⟨⟨l, l1, l2⟩, l3⟩ := hw
  by_contra hlt
  have hkl : l < k := by
    have : w * 10 ^ d < v * 10 ^ d := by
      have := not_le.1 hlt
      nlinarith
    rw [h1, l1] at this
    exact_mod_cast this
  have b1 := abs_le.1 (show |(v - x) * 10 ^ d| ≤ 1 / 2 by rw [abs_mul, abs_of_pos hp]; exact h3)
  have b2 := abs_le.1 (show |(w - y) * 10 ^ d| ≤ 1 / 2 by rw [abs_mul, abs_of_pos hp]; exact l3)
  have hxy : x * 10 ^ d ≤ y * 10 ^ d := by nlinarith
  have hkl' : (l : Rat) + 1 ≤ k := by exact_mod_cast hkl
  have e1 : (v - x) * 10 ^ d = k - x * 10 ^ d := by rw [← h1]; ring
  have e2 : (w - y) * 10 ^ d = l - y * 10 ^ d := by rw [← l1]; ring
  rw [e1] at b1
  rw [e2] at b2
  have t1 : |v - x| * 10 ^ d = 1 / 2 := by
    have : |(v - x) * 10 ^ d| = |v - x| * 10 ^ d := by rw [abs_mul, abs_of_pos hp]
    rw [← this, e1, abs_of_nonneg] <;> linarith
  have t2 : |w - y| * 10 ^ d = 1 / 2 := by
    have : |(w - y) * 10 ^ d| = |w - y| * 10 ^ d := by rw [abs_mul, abs_of_pos hp]
    rw [← this, e2, abs_of_nonpos] <;> linarith
  have hk1 : (k : Rat) = l + 1 := by linarith
  have hk2 : k = l + 1 := by exact_mod_cast hk1
  obtain ⟨a, ha⟩ := h2 t1
  obtain ⟨b, hb⟩ := l2 t2
  omega

theorem rounded_unique {d : Nat} {x v w : Rat} (hv : Rounded d x v) (hw : Rounded d x w) : v = w :=
  le_antisymm (rounded_mono hv hw le_rfl) (rounded_mono hw hv le_rfl)

/-- A number with `d` decimals stays as it is. -/
theorem rounded_self {d : Nat} {k : Int} {v : Rat} (h : v * 10 ^ d = k) : Rounded d v v :=
  ⟨⟨k, h, fun h => by simp at h⟩, by simp⟩

/-- Taking the number from a whole one. -/
theorem rounded_complement {d : Nat} {x v : Rat} (c : Int) (hc : Even c) (h : Rounded d x v) : Rounded d (c - x) (c - v) := by
  obtain ⟨⟨k, h1, h2⟩, h3⟩ := h
  have ha : |(c - v) - (c - x)| = |v - x| := by rw [show (c - v : Rat) - (c - x) = -(v - x) by ring, abs_neg]
  refine ⟨⟨c * 10 ^ d - k, by push_cast; rw [← h1]; ring, fun h => ?_⟩, by rw [ha]; exact h3⟩
  rw [ha] at h
  exact (hc.mul_right _).sub (h2 h)

theorem rounded_sum {d : Nat} {xs vs : List Rat} (h : List.Forall₂ (Rounded d) xs vs) :
    |vs.sum - xs.sum| * 10 ^ d ≤ xs.length / 2 := by
  have hp : (0 : Rat) < 10 ^ d := by positivity
  induction h with
  | nil => simp
  | @cons x v xs vs hr _ ih =>
    have e : (v :: vs).sum - (x :: xs).sum = (v - x) + (vs.sum - xs.sum) := by
      simp only [List.sum_cons]; ring
    rw [e]
    have := abs_add_le (v - x) (vs.sum - xs.sum)
    have h3 := hr.closest
    have : |(v - x) + (vs.sum - xs.sum)| * 10 ^ d ≤ |v - x| * 10 ^ d + |vs.sum - xs.sum| * 10 ^ d := by nlinarith
    push_cast [List.length_cons]
    linarith

/-! ### Reading what was written -/

theorem zeros_natText {d m : Nat} (hd : 0 < d) (h : m < 10 ^ d) :
    (List.replicate (d - (natText m).length) '0' ++ natText m).length = d ∧
    wholeNumber (List.replicate (d - (natText m).length) '0' ++ natText m) = some m := by
  have hl : (natText m).length ≤ d := (Nat.length_toDigits_le_iff (by omega) hd).2 h
  constructor
  · rw [List.length_append, List.length_replicate]; omega
  · unfold wholeNumber
    have h1 : (List.replicate (d - (natText m).length) '0' ++ natText m).isEmpty = false := by
      rw [List.isEmpty_eq_false_iff]
      intro h
      exact Nat.toDigits_ne_nil (List.append_eq_nil_iff.1 h).2
    have h2 : (List.replicate (d - (natText m).length) '0' ++ natText m).all Char.isDigit = true := by
      refine List.all_eq_true.2 fun c hc => ?_
      rcases List.mem_append.1 hc with hc | hc
      · rw [List.eq_of_mem_replicate hc]; rfl
      · exact natText_digits m c hc
    rw [h1, h2]
    simp only [natText, Nat.ofDigitChars_append, Nat.ofDigitChars_replicate_zero, Nat.mul_zero, Nat.ofDigitChars_ten_toDigits]
    rfl

theorem fixedDigits_plain {d : Nat} (hd : 0 < d) (k : Nat) : readPlain (fixedDigits d k) = some ((k : Rat) / 10 ^ d) := by
  obtain ⟨h1, h2⟩ := zeros_natText hd (Nat.mod_lt k (show 0 < 10 ^ d by positivity))
  unfold readPlain fixedDigits
  rw [List.dropWhile_append_of_pos (dot_not_digit (natText_digits _)),
    List.takeWhile_append_of_pos (dot_not_digit (natText_digits _))]
  simp only [ne_eq, not_true_eq_false, decide_false, Bool.false_eq_true, not_false_eq_true, List.dropWhile_cons_of_neg,
    List.takeWhile_cons_of_neg, List.append_nil, wholeNumber_natText, Option.bind_some, h2, Option.map_some, h1, Option.some.injEq]
  have := Nat.div_add_mod k (10 ^ d)
  have h3 : (10 : Rat) ^ d * ((k / 10 ^ d : Nat) : Rat) + ((k % 10 ^ d : Nat) : Rat) = k := by exact_mod_cast this
  rw [← h3]
  field_simp

theorem fixedDigits_head (d k : Nat) : ∃ c s, fixedDigits d k = c :: s ∧ c.isDigit := by
  unfold fixedDigits
  cases h : natText (k / 10 ^ d) with
  | nil => exact absurd h Nat.toDigits_ne_nil
  | cons c s => exact ⟨c, _, rfl, natText_digits (k / 10 ^ d) c (by rw [h]; simp)⟩

theorem fixedDigits_read {d : Nat} (hd : 0 < d) (k : Nat) : readDecimal (fixedDigits d k) = some ((k : Rat) / 10 ^ d) := by
  obtain ⟨c, s, h, hc⟩ := fixedDigits_head d k
  rw [← fixedDigits_plain hd k, h]
  unfold readDecimal
  split
  · rename_i heq
    rw [List.cons.injEq] at heq
    rw [heq.1] at hc
    exact absurd hc (by decide)
  · rfl

theorem fixedText_shows {d : Nat} (hd : 0 < d) (x : Rat) : Shows d x (fixedText d x) := by
  unfold fixedText
  split
  · rename_i hx
    have h := halfEven_rounded d (-x) (by linarith)
    rw [Rat.num_neg_eq_neg_num, Int.natAbs_neg, Rat.den_neg_eq_den] at h
    refine ⟨-((halfEven (x.num.natAbs * 10 ^ d) x.den : Nat) / 10 ^ d), ?_, by simpa using rounded_neg h⟩
    simp only [List.cons_append, List.nil_append, readDecimal, fixedDigits_plain hd, Option.map_some]
  · rename_i hx
    exact ⟨_, by rw [List.nil_append]; exact fixedDigits_read hd _, halfEven_rounded d x (not_lt.1 hx)⟩

theorem fixedDigits_length {d : Nat} (hd : 0 < d) (k : Nat) :
    (fixedDigits d k).length = (natText (k / 10 ^ d)).length + 1 + d := by
  unfold fixedDigits
  rw [List.length_append, List.length_cons, (zeros_natText hd (Nat.mod_lt k (show 0 < 10 ^ d by positivity))).1]
  omega

theorem fixedDigits_noBlank (d k : Nat) : ' ' ∉ fixedDigits d k := by
  have hn : ∀ m, ' ' ∉ natText m := fun m h => absurd (natText_digits m _ h) (by decide)
  unfold fixedDigits
  simp only [List.mem_append, List.mem_cons, List.mem_replicate, not_or]
  exact ⟨hn _, by decide, fun h => absurd h.2 (by decide), hn _⟩

theorem fixedText_noBlank (d : Nat) (x : Rat) : ' ' ∉ fixedText d x ∧ fixedText d x ≠ [] := by
  unfold fixedText
  constructor
  · rw [List.mem_append, not_or]
    refine ⟨?_, fixedDigits_noBlank _ _⟩
    split <;> simp
  · intro h
    obtain ⟨c, s, e, _⟩ := fixedDigits_head d (halfEven (x.num.natAbs * 10 ^ d) x.den)
    rw [e] at h
    simp at h

/-- Percentages have at most three digits before the point. -/
theorem fixedText_width {d : Nat} (hd : 0 < d) {x : Rat} (h0 : 0 ≤ x) (h1 : x ≤ 100) : (fixedText d x).length ≤ d + 4 := by
  unfold fixedText
  rw [if_neg (not_lt.2 h0), List.nil_append, fixedDigits_length hd]
  have hp : (0 : Rat) < 10 ^ d := by positivity
  have hr := halfEven_rounded d x h0
  have hh : Rounded d 100 100 := rounded_self (k := 100 * 10 ^ d) (by push_cast; ring)
  have := rounded_mono hr hh h1
  rw [div_le_iff₀ hp] at this
  have hk : halfEven (x.num.natAbs * 10 ^ d) x.den ≤ 100 * 10 ^ d := by exact_mod_cast this
  have : halfEven (x.num.natAbs * 10 ^ d) x.den / 10 ^ d ≤ 100 := by
    have := Nat.div_le_div_right (c := 10 ^ d) hk
    rwa [Nat.mul_div_cancel _ (by positivity)] at this
  have : (natText (halfEven (x.num.natAbs * 10 ^ d) x.den / 10 ^ d)).length ≤ 3 :=
    (Nat.length_toDigits_le_iff (by omega) (by omega)).2 (by omega)
  omega

/-! ### Fields -/

theorem fieldsFrom_blank (p a s : Text) : fieldsFrom p (a ++ ' ' :: s) = fieldsFrom p a ++ fieldsFrom [] s := by
  induction a generalizing p with
  | nil => simp [fieldsFrom]
  | cons c a ih =>
    rw [List.cons_append, fieldsFrom, fieldsFrom]
    split
    · rw [ih, List.append_assoc]
    · exact ih _

theorem fields_blank (a s : Text) : fields (a ++ ' ' :: s) = fields a ++ fields s := fieldsFrom_blank [] a s

theorem fields_blanks (n : Nat) (s : Text) : fields (List.replicate n ' ' ++ s) = fields s := by
  induction n with
  | zero => rfl
  | succ n ih =>
    rw [List.replicate_succ, List.cons_append]
    have := fields_blank [] (List.replicate n ' ' ++ s)
    rw [List.nil_append] at this
    rw [this, ih]
    rfl

theorem fields_blanks_end (n : Nat) (s : Text) : fields (s ++ List.replicate n ' ') = fields s := by
  cases n with
  | zero => simp
  | succ n =>
    rw [List.replicate_succ, fields_blank]
    have := fields_blanks n []
    rw [List.append_nil] at this
    rw [this]
    simp [fields, fieldsFrom]

theorem fieldsFrom_word (p w : Text) (hw : ' ' ∉ w) (hn : p ++ w ≠ []) : fieldsFrom p w = [p ++ w] := by
  induction w generalizing p with
  | nil => rw [fieldsFrom, if_neg (by simpa using hn), List.append_nil]
  | cons c w ih =>
    rw [List.mem_cons, not_or] at hw
    rw [fieldsFrom, if_neg (Ne.symm hw.1), ih (p ++ [c]) hw.2 (by simp), List.append_assoc]
    rfl

theorem fields_word {w : Text} (hw : ' ' ∉ w) (hn : w ≠ []) : fields w = [w] := by
  have := fieldsFrom_word [] w hw (by simpa using hn)
  simpa [fields] using this

theorem fields_padLeft (n : Nat) {w : Text} (hw : ' ' ∉ w) (hn : w ≠ []) : fields (padLeft n w) = [w] := by
  unfold padLeft
  rw [fields_blanks, fields_word hw hn]

theorem natText_noBlank (n : Nat) : ' ' ∉ natText n ∧ natText n ≠ [] :=
  ⟨fun h => absurd (natText_digits n _ h) (by decide), Nat.toDigits_ne_nil⟩

theorem fields_number (n m : Nat) : fields (padLeft n (natText m)) = [natText m] :=
  fields_padLeft n (natText_noBlank m).1 (natText_noBlank m).2

theorem fields_percent (n d : Nat) (x : Rat) : fields (padLeft n (fixedText d x) ++ ['%']) = [fixedText d x ++ ['%']] := by
  unfold padLeft
  rw [List.append_assoc, fields_blanks, fields_word]
  · rw [List.mem_append, not_or]
    exact ⟨(fixedText_noBlank d x).1, by decide⟩
  · simp

theorem fields_percent_end (a : Text) (n d : Nat) (x : Rat) :
    fields (a ++ [' '] ++ padLeft n (fixedText d x) ++ ['%']) = fields a ++ [fixedText d x ++ ['%']] := by
  rw [List.append_assoc, List.append_assoc, List.cons_append, List.nil_append, fields_blank, fields_percent]

theorem fields_number_end (a : Text) (n m : Nat) : fields (a ++ [' '] ++ padLeft n (natText m)) = fields a ++ [natText m] := by
  rw [List.append_assoc, List.cons_append, List.nil_append, fields_blank, fields_number]

end Lulua
