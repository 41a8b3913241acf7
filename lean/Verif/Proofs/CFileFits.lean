import Verif.Proofs.CFile

/-!
# The values of the driver fit their types
-/

namespace Lulua
open Spec

/-! ### Numbers -/

theorem natText_digits (n : Nat) : ∀ c ∈ natText n, c.isDigit = true := fun c hc =>
  Nat.isDigit_of_mem_toDigits (b := 10) (n := n) (by omega) (by omega) hc

theorem digitsValue_dec {t : Text} (hne : t ≠ []) (h : ∀ c ∈ t, c.isDigit = true) :
    digitsValue 10 decDigit t = some (Nat.ofDigitChars 10 t 0) := by
  have key : ∀ (t : Text) (a : Nat), (∀ c ∈ t, c.isDigit = true) →
      t.foldl (fun a c => do let a ← a; let d ← decDigit c; some (a * 10 + d)) (some a) = some (Nat.ofDigitChars 10 t a) := by
    intro t
    induction t with
    | nil => intro a _; rfl
    | cons c t ih =>
      intro a h
      have hc := h c List.mem_cons_self
      rw [List.foldl_cons]
      have e : (do let a ← some a; let d ← decDigit c; some (a * 10 + d)) = some (10 * a + (c.toNat - '0'.toNat)) := by
        unfold decDigit
        rw [if_pos hc, Nat.mul_comm]
        rfl
      rw [e, ih _ fun x hx => h x (List.mem_cons_of_mem _ hx)]
      rfl
  unfold digitsValue
  rw [if_neg (by simpa using hne)]
  exact key t 0 h

theorem cNumber_nat (n : Nat) : cNumber (natText n) = some n := by
  have hne : natText n ≠ [] := by
    obtain ⟨c, t, h, _⟩ := natText_head n
    rw [h]
    exact List.cons_ne_nil _ _
  have hu : (natText n).getLast? ≠ some 'u' := by
    intro h
    have := natText_digits n 'u' (List.mem_of_getLast? h)
    revert this
    decide
  have hx : (natText n).take 2 ≠ ['0', 'x'] := by
    intro h
    have := natText_digits n 'x' (List.mem_of_mem_take (i := 2) (by rw [h]; simp))
    revert this
    decide
  unfold cNumber
  rw [if_neg hu]
  simp only
  rw [if_neg hx, digitsValue_dec hne (natText_digits n), natText, Nat.ofDigitChars_ten_toDigits]

theorem cWord_nat (n : Nat) : cWord driverMacros (natText n) = some n := by
  obtain ⟨c, t, h, hc⟩ := natText_head n
  rw [cWord_digit h hc, cNumber_nat]

theorem word_zero : cWord driverMacros ['0'] = some 0 := by
  rw [cWord_digit rfl (by decide)]
  decide

theorem word_hex0 : cWord driverMacros "0x0".toList = some 0 := by
  rw [cWord_digit (c := '0') (r := "x0".toList) (by decide) (by decide)]
  decide

theorem word_hex00 : cWord driverMacros "0x00".toList = some 0 := by
  rw [cWord_digit (c := '0') (r := "x00".toList) (by decide) (by decide)]
  decide

theorem word_24 : cWord driverMacros "24".toList = some 24 := by
  rw [cWord_digit (c := '2') (r := "4".toList) (by decide) (by decide)]
  decide

/-- After the types and macros. -/
def driverUnit (defs : List CDef) (vars : List (Text × CTy)) : CUnit := ⟨true, driverTypes, driverMacros, defs, vars, []⟩

theorem value_or {u : CUnit} {w : Nat} {ts : List CTok} {n : Nat} (h : cOr u.macros ts = some n) : u.value w ts = some n := by
  unfold CUnit.value
  rw [h]

theorem fits_num {u : CUnit} {w d bits n : Nat} {ts : List CTok} (h : cOr u.macros ts = some n) :
    u.fits w (d + 1) (.num bits) (.expr ts) = decide (n < 2 ^ bits) := by
  rw [CUnit.fits, value_or h]
  rfl

theorem fits_arr {u : CUnit} {w d : Nat} {t : CTy} {len : Option Nat} {l : List CInit} :
    u.fits w (d + 1) (.arr t len) (.list l) = (len.all (· = l.length) && l.all (u.fits w d t)) := by
  rw [CUnit.fits]

theorem fits_alias {u : CUnit} {w d : Nat} {n : Text} {t : CTy} {i : CInit} (h : u.types.lookup n = some (.same t)) :
    u.fits w (d + 1) (.named n) i = u.fits w d t i := by
  rw [CUnit.fits.eq_def]
  simp only [h]

theorem fits_struct {u : CUnit} {w d : Nat} {n : Text} {fields : List (Text × CTy)} {l : List CInit}
    (h : u.types.lookup n = some (.struct fields)) (hd : l.mapM designated = none) :
    u.fits w (d + 1) (.named n) (.list l) = (decide (l.length = fields.length) && (fields.zip l).all fun x => u.fits w d x.1.2 x.2) := by
  rw [CUnit.fits.eq_def]
  simp only [h, hd]

theorem fits_table {u : CUnit} {w d : Nat} {t : CTy} {l : List CInit} (h : ∀ x ∈ l, u.fits w d t x = true) :
    u.fits w (d + 1) (.arr t (some l.length)) (.list l) = true := by
  rw [fits_arr, Bool.and_eq_true, List.all_eq_true]
  exact ⟨by simp, h⟩

/-- The rows of a structure of two fields. -/
theorem fits_pair {u : CUnit} {w d : Nat} {n : Text} {f g : Text × CTy} {a b : CInit}
    (h : u.types.lookup n = some (.struct [f, g])) (hd : designated a = none) :
    u.fits w (d + 1) (.named n) (.list [a, b]) = (u.fits w d f.2 a && u.fits w d g.2 b) := by
  rw [fits_struct h]
  · simp
  · simp [List.mapM_cons, hd]

theorem fits_triple {u : CUnit} {w d : Nat} {n : Text} {f g k : Text × CTy} {a b c : CInit}
    (h : u.types.lookup n = some (.struct [f, g, k])) (hd : designated a = none) :
    u.fits w (d + 1) (.named n) (.list [a, b, c]) = (u.fits w d f.2 a && (u.fits w d g.2 b && u.fits w d k.2 c)) := by
  rw [fits_struct h]
  · simp
  · simp [List.mapM_cons, hd]

theorem fits_word {defs vars} {w d bits n : Nat} {x : Text} (h : cWord driverMacros x = some n) :
    (driverUnit defs vars).fits w (d + 1) (.num bits) (.expr [.word x]) = decide (n < 2 ^ bits) :=
  fits_num (u := driverUnit defs vars) (by rw [cOr]; exact h)

/-! ### Tables of scancodes -/

theorem member_lt {v : VkVal} (h : Member v) : vkNumber v < 2 ^ 16 := by
  have h1 : ∀ n ∈ Data.vkval.map Prod.snd, n < 2 ^ 16 := by decide +kernel
  have h2 : ∀ n ∈ vkFlags.map Prod.snd, n < 2 ^ 16 := by decide +kernel
  cases v with
  | key n => exact h1 n h
  | flag n => exact h2 n h

theorem key_lt {n : Nat} (h : Member (.key n)) : n < 2 ^ 8 := by
  have h1 : ∀ n ∈ Data.vkval.map Prod.snd, n < 2 ^ 8 := by decide +kernel
  exact h1 n h

theorem orAll_lt : ∀ {v : List VkVal}, (∀ x ∈ v, Member x) → orAll (v.map vkNumber) < 2 ^ 16
  | [], _ => by decide
  | x :: v, h => by
    rw [List.map_cons, orAll_cons]
    exact Nat.or_lt_two_pow (member_lt (h x List.mem_cons_self)) (orAll_lt fun y hy => h y (List.mem_cons_of_mem _ hy))

theorem fits_or (hn : CNames (vkCName Data.vkval)) {defs vars} {w d : Nat} {v : List VkVal} (hne : v ≠ []) (h : ∀ x ∈ v, Member x) :
    (driverUnit defs vars).fits w (d + 1) (.num 16) (.expr (orToks (vkCName Data.vkval) v)) = true := by
  rw [fits_num (u := driverUnit defs vars) (cOr_names hn hne h), decide_eq_true_eq]
  exact orAll_lt h

theorem fits_aus (hn : CNames (vkCName Data.vkval)) {defs vars} {w d : Nat} {m : Dict (List Nat) (List VkVal)}
    (hm : ∀ x ∈ m, x.2 ≠ [] ∧ ∀ v ∈ x.2, Member v) :
    (driverUnit defs vars).fits w (d + 4) (.arr (.num 16) (some (ausDef (vkCName Data.vkval) m).init.length))
      (.list (ausDef (vkCName Data.vkval) m).init) = true := by
  have ha : ∀ v ∈ ausVK m, v ≠ [] ∧ ∀ x ∈ v, Member x := by
    intro v hv
    obtain ⟨i, _, rfl⟩ := List.mem_map.1 hv
    cases h : m.get? [i] with
    | none => exact ⟨by simp, by decide +kernel⟩
    | some w => exact hm _ (Dict.mem_of_get? h)
  refine fits_table fun x hx => ?_
  obtain ⟨v, hv, rfl⟩ := List.mem_map.1 hx
  exact fits_or hn (ha v hv).1 (ha v hv).2

theorem lookup_vsc : driverTypes.lookup "VSC_VK".toList = some (.struct [("Vsc".toList, .num 8), ("Vk".toList, .num 16)]) := by decide +kernel

theorem fits_vsc (hn : CNames (vkCName Data.vkval)) {defs vars} {w d : Nat} {rows : List (Nat × List VkVal)}
    (hm : ∀ x ∈ rows, x.1 < 256 ∧ x.2 ≠ [] ∧ ∀ v ∈ x.2, Member v) (name : Text) :
    (driverUnit defs vars).fits w (d + 4) (.arr (.named "VSC_VK".toList) (some (vscDef (vkCName Data.vkval) name rows).init.length))
      (.list (vscDef (vkCName Data.vkval) name rows).init) = true := by
  refine fits_table fun y hy => ?_
  obtain ⟨x, hx, rfl⟩ := List.mem_map.1 hy
  obtain ⟨h1, h2, h3⟩ := hm x hx
  rw [fits_pair (u := driverUnit defs vars) lookup_vsc rfl, Bool.and_eq_true]
  refine ⟨?_, fits_or hn h2 h3⟩
  rw [fits_word (n := x.1) (cWord_hex (by omega) x.1), decide_eq_true_eq]
  exact h1

/-! ### Names -/

theorem lookup_lpwstr : driverTypes.lookup "VSC_LPWSTR".toList = some (.struct [("vsc".toList, .num 8), ("pwsz".toList, .ptr (.num 16))]) := by
  decide +kernel

theorem fits_names {defs vars} {w d : Nat} {rows : List (Nat × String)} (hm : ∀ x ∈ rows, x.1 < 256) (name : Text) :
    (driverUnit defs vars).fits w (d + 4) (.arr (.named "VSC_LPWSTR".toList) (some (namesDef name rows).init.length))
      (.list (namesDef name rows).init) = true := by
  refine fits_table fun y hy => ?_
  rcases List.mem_append.1 hy with hy | hy
  · obtain ⟨x, hx, rfl⟩ := List.mem_map.1 hy
    rw [fits_pair (u := driverUnit defs vars) lookup_lpwstr rfl, Bool.and_eq_true,
      fits_word (n := x.1) (cWord_hex (by omega) x.1), decide_eq_true_eq]
    exact ⟨hm x hx, rfl⟩
  · rw [List.mem_singleton] at hy
    subst hy
    rw [fits_pair (u := driverUnit defs vars) lookup_lpwstr rfl, Bool.and_eq_true,
      fits_word word_hex00, decide_eq_true_eq]
    exact ⟨by decide, rfl⟩

/-! ### Modifiers -/

theorem lookup_bit : driverTypes.lookup "VK_TO_BIT".toList = some (.struct [("Vk".toList, .num 8), ("ModBits".toList, .num 8)]) := by decide +kernel

theorem fits_bits (hn : CNames (vkCName Data.vkval)) {defs vars} {w d : Nat} :
    (driverUnit defs vars).fits w (d + 4) (.arr (.named "VK_TO_BIT".toList) (some (bitsDef (vkCName Data.vkval)).init.length))
      (.list (bitsDef (vkCName Data.vkval)).init) = true := by
  have hb : ∀ x ∈ vkToBitsTable, Member (.key x.1) ∧ x.2 < 256 := by decide +kernel
  refine fits_table fun y hy => ?_
  rcases List.mem_append.1 hy with hy | hy
  · obtain ⟨x, hx, rfl⟩ := List.mem_map.1 hy
    obtain ⟨h1, h2⟩ := hb x hx
    rw [fits_pair (u := driverUnit defs vars) lookup_bit rfl, Bool.and_eq_true,
      fits_word (n := x.1) (cWord_member hn h1),
      fits_word (n := x.2) (cWord_hex (by omega) x.2), decide_eq_true_eq, decide_eq_true_eq]
    exact ⟨key_lt h1, h2⟩
  · rw [List.mem_singleton] at hy
    subst hy
    rw [fits_pair (u := driverUnit defs vars) lookup_bit rfl, Bool.and_eq_true,
      fits_word word_zero,
      fits_word word_hex0, decide_eq_true_eq]
    exact ⟨by decide, by decide⟩

theorem lookup_modifiers : driverTypes.lookup "MODIFIERS".toList = some (.struct [("pVkToBit".toList, .named "PVK_TO_BIT".toList),
    ("wMaxModBits".toList, .num 16), ("ModNumber".toList, .arr (.num 8) none)]) := by decide +kernel

theorem lookup_pbit : driverTypes.lookup "PVK_TO_BIT".toList = some (.same (.ptr (.named "VK_TO_BIT".toList))) := by decide +kernel

theorem fits_mods {defs vars} {w d n : Nat} (hb : List.lookup "aVkToBits".toList vars = some (.arr (.named "VK_TO_BIT".toList) (some n)))
    {nums : List Nat} (hnums : ∀ x ∈ nums, x < 256) :
    (driverUnit defs vars).fits w (d + 4) (.named "MODIFIERS".toList) (.list (modsDef nums).init) = true := by
  have h1 : (driverUnit defs vars).fits w (d + 3) (.named "PVK_TO_BIT".toList)
      (.expr [.punct '&', .word "aVkToBits".toList, .punct '[', .word ['0'], .punct ']']) = true := by
    rw [fits_alias (u := driverUnit defs vars) lookup_pbit, CUnit.fits, CUnit.pointer, CUnit.arrayOf,
      show (driverUnit defs vars).vars = vars from rfl, hb]
    simp
  have h2 : (driverUnit defs vars).fits w (d + 3) (.num 16) (.expr [.word "24".toList]) = true := by
    rw [fits_word word_24]
    decide
  have h3 : (driverUnit defs vars).fits w (d + 3) (.arr (.num 8) none) (.list (nums.map fun n => .expr [.word (hexWord 1 n)])) = true := by
    rw [fits_arr, Bool.and_eq_true, List.all_eq_true]
    refine ⟨rfl, fun y hy => ?_⟩
    obtain ⟨x, hx, rfl⟩ := List.mem_map.1 hy
    rw [fits_word (n := x) (cWord_hex (by omega) x), decide_eq_true_eq]
    exact hnums x hx
  have h := fits_triple (u := driverUnit defs vars) (w := w) (d := d + 3) (n := "MODIFIERS".toList)
    (a := .expr [.punct '&', .word "aVkToBits".toList, .punct '[', .word ['0'], .punct ']']) (b := .expr [.word "24".toList])
    (c := .list (nums.map fun n => .expr [.word (hexWord 1 n)])) lookup_modifiers rfl
  rw [h1, h2, h3] at h
  exact h

end Lulua
