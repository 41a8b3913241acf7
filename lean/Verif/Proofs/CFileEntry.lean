import Verif.Proofs.CFileChars

/-!
# The table that refers to all others, and the function
-/

namespace Lulua
open Spec

/-- The fields with their values. -/
def kbdValues : List (Text × List CTok) :=
  [("pCharModifiers".toList, [.punct '&', .word "CharModifiers".toList]), ("pVkToWcharTable".toList, [.word "aVkToWcharTable".toList]),
    ("pDeadKey".toList, [.word "NULL".toList]), ("pKeyNames".toList, [.word "aKeyNames".toList]), ("pKeyNamesExt".toList, [.word "aKeyNamesExt".toList]),
    ("pKeyNamesDead".toList, [.word "NULL".toList]), ("pusVSCtoVK".toList, [.word "ausVK".toList]),
    ("bMaxVSCtoVK".toList, [.word "sizeof".toList, .punct '(', .word "ausVK".toList, .punct ')', .punct '/',
      .word "sizeof".toList, .punct '(', .punct '*', .word "ausVK".toList, .punct ')']),
    ("pVSCtoVK_E0".toList, [.word "aE0VscToVk".toList]), ("pVSCtoVK_E1".toList, [.word "aE1VscToVk".toList]),
    ("fLocaleFlags".toList, [.punct '(', .word ['0'], .punct '&', .word "0xffffUL".toList, .punct ')', .punct '|', .punct '(', .punct '(',
      .word "KBD_VERSION".toList, .punct '&', .word "0xffffUL".toList, .punct ')', .punct '<', .punct '<', .word "16".toList, .punct ')']),
    ("nLgMax".toList, [.word ['0']]), ("cbLgEntry".toList, [.word ['0']]), ("pLigature".toList, [.word "NULL".toList]),
    ("dwType".toList, [.word ['0']]), ("dwSubType".toList, [.word ['0']])]

def kbdBody : List CTok := (kbdValues.map fun x => (.word x.1 :: .punct ':' :: x.2) ++ [.punct ',']).flatten ++ [.punct '}']

def kbdPart : List CTok := .word "static".toList :: .word "KBDTABLES".toList :: .word "KbdTables".toList :: .punct '=' :: .punct '{' :: kbdBody

def kbdDef : CDef := ⟨"KBDTABLES".toList, "KbdTables".toList, kbdValues.map fun x => .expr (.word x.1 :: .punct ':' :: x.2)⟩

def funcToks : List CTok :=
  [.word "PKBDTABLES".toList, .word "KbdLayerDescriptor".toList, .punct '(', .punct ')', .punct '{', .word "return".toList, .punct '&',
    .word "KbdTables".toList, .punct ';', .punct '}']

def versionLine : Text := "define KBD_VERSION (1)".toList

def entryToks : List CTok := [.directive versionLine] ++ (kbdPart ++ [.punct ';'] ++ funcToks)

def entryUnits : List (List CTok) := [[.directive versionLine], kbdPart, funcToks]

theorem entrypoint_closed : Closed entrypoint entryToks := by decide +kernel

theorem entryUnits_read : cUnits .top entryToks = some entryUnits := by decide +kernel

theorem cDef_kbd : cDef kbdPart = some kbdDef := by
  have h : ∀ x ∈ kbdValues, ∀ t ∈ x.2, Plain t := by decide +kernel
  refine cDef_single "KBDTABLES".toList "KbdTables".toList kbdBody _ ?_
  refine run_array (f := fun x : Text × List CTok => (CTok.word x.1 :: .punct ':' :: x.2) ++ [.punct ','])
    (g := fun x : Text × List CTok => CInit.expr (.word x.1 :: .punct ':' :: x.2)) kbdValues fun x hx l => ?_
  refine run_item ⟨List.cons_ne_nil _ _, fun t ht => ?_⟩ l []
  rcases List.mem_cons.1 ht with rfl | ht
  · trivial
  · rcases List.mem_cons.1 ht with rfl | ht
    · exact (by decide : Plain (.punct ':'))
    · exact h x hx t ht

/-! ### Values -/

/-- After the tables and `KBD_VERSION`. -/
def kbdUnit (defs : List CDef) (vars : List (Text × CTy)) : CUnit :=
  ⟨true, driverTypes, driverMacros ++ [("KBD_VERSION".toList, 1)], defs, vars, []⟩

theorem find_not_macro {name : Text} (h : driverMacros.lookup name = none) : driverMacros.find? (fun x => x.1 = name) = none := by
  rw [lookup_none] at h
  rw [List.find?_eq_none]
  intro x hx
  rw [decide_eq_true_eq]
  rintro rfl
  exact h (List.mem_map.2 ⟨x, hx, rfl⟩)

theorem word_kbd {w : Text} {c : Char} {r : Text} (hw : w = c :: r) (hc : c ≠ 'V' ∧ c ≠ 'W') (hk : c ≠ 'K') :
    cWord (driverMacros ++ [("KBD_VERSION".toList, 1)]) w = cNumber w := by
  have h : driverMacros.find? (fun x => x.1 = w) = none := find_not_macro (not_macro hw hc)
  have h2 : ¬"KBD_VERSION".toList = w := by
    intro e
    rw [hw] at e
    exact hk (List.cons.inj e).1.symm
  unfold cWord
  rw [List.find?_append, h]
  simp only [Option.none_or, List.find?_cons, h2, decide_false, List.find?_nil]

theorem word_version : cWord (driverMacros ++ [("KBD_VERSION".toList, 1)]) "KBD_VERSION".toList = some 1 := by
  have h : driverMacros.find? (fun x => x.1 = "KBD_VERSION".toList) = none :=
    find_not_macro (not_macro (c := 'K') (r := "BD_VERSION".toList) (by decide) (by decide))
  unfold cWord
  rw [List.find?_append, h]
  rfl

theorem kbd_zero : cWord (driverMacros ++ [("KBD_VERSION".toList, 1)]) ['0'] = some 0 := by
  rw [word_kbd rfl (by decide) (by decide)]
  decide

theorem kbd_16 : cWord (driverMacros ++ [("KBD_VERSION".toList, 1)]) "16".toList = some 16 := by
  rw [word_kbd (c := '1') (r := "6".toList) (by decide) (by decide) (by decide)]
  decide

theorem arith_const {u : CUnit} {w f n : Nat} {s : Text} {t : CTok} {ts : List CTok} (h : u.constant s = some n) (ht : t ≠ .punct '(') :
    u.arith w (f + 1) 0 (.word s :: t :: ts) = some (n, t :: ts) := by
  rw [CUnit.arith, h]
  · rfl
  all_goals
    intros
    first | exact ht (by assumption) | simp_all

theorem value_full {u : CUnit} {w n : Nat} {ts : List CTok} (hor : cOr u.macros ts = none) (h : u.arith w (5 * ts.length + 5) 4 ts = some (n, [])) :
    u.value w ts = some n := by
  unfold CUnit.value
  simp only [hor, h]

theorem arith_paren {u : CUnit} {w f n : Nat} {ts rest : List CTok} (h : u.arith w f 4 ts = some (n, .punct ')' :: rest)) :
    u.arith w (f + 1) 0 (.punct '(' :: ts) = some (n, rest) := by
  rw [CUnit.arith, h]
  rfl

theorem arith_lift {u : CUnit} {w f l n : Nat} {ts rest : List CTok} (h : u.arith w f l ts = some (n, rest)) (hc : cOperator (l + 1) rest = none) :
    u.arith w (f + 1) (l + 1) ts = some (n, rest) := by
  rw [CUnit.arith, h, Option.bind_eq_bind, Option.bind_some]
  simp only [hc]

theorem arith_op {u : CUnit} {w f l l' a b c : Nat} {ts r r' r'' : List CTok} {op : Nat → Nat → Option Nat} (h : u.arith w f l ts = some (a, r))
    (hc : cOperator (l + 1) r = some (op, r')) (hl : l' = if 3 ≤ l + 1 then l + 1 else l) (h2 : u.arith w f l' r' = some (b, r''))
    (ho : op a b = some c) : u.arith w (f + 1) (l + 1) ts = some (c, r'') := by
  rw [CUnit.arith, h, Option.bind_eq_bind, Option.bind_some]
  simp only [hc]
  rw [← hl, h2]
  simp only [Option.bind_eq_bind, Option.bind_some, ho]

/-- A constant up to level two. -/
theorem arith_two {u : CUnit} {w f n : Nat} {s : Text} {c : Char} {ts : List CTok} (h : u.constant s = some n) (hc : c = ')' ∨ c = '&') :
    u.arith w (f + 3) 2 (.word s :: .punct c :: ts) = some (n, .punct c :: ts) := by
  rcases hc with rfl | rfl
  · exact arith_lift (arith_lift (arith_const h (by decide)) rfl) rfl
  · exact arith_lift (arith_lift (arith_const h (by decide)) rfl) rfl

/-- `(a & b)`. -/
theorem arith_and {u : CUnit} {w f a b : Nat} {s t : Text} {ts : List CTok} (ha : u.constant s = some a) (hb : u.constant t = some b) :
    u.arith w (f + 7) 0 (.punct '(' :: .word s :: .punct '&' :: .word t :: .punct ')' :: ts) = some (a &&& b, ts) := by
  refine arith_paren (f := f + 6) (arith_lift (f := f + 5) ?_ rfl)
  refine arith_op (f := f + 4) (l := 2) (l' := 3) (arith_two (f := f + 1) ha (.inr rfl)) rfl rfl ?_ rfl
  exact arith_lift (f := f + 3) (arith_two (f := f) hb (.inl rfl)) rfl

theorem kbd_constant {defs vars} {s : Text} {n : Nat} (h : s.drop (s.length - 2) ≠ ['U', 'L'])
    (hw : cWord (driverMacros ++ [("KBD_VERSION".toList, 1)]) s = some n) : (kbdUnit defs vars).constant s = some n := by
  unfold CUnit.constant
  rw [if_neg h]
  exact hw

theorem kbd_ulong {defs vars} : (kbdUnit defs vars).constant "0xffffUL".toList = some 0xffff := by
  unfold CUnit.constant
  rw [if_pos (by decide)]
  decide

/-- The version, in the upper half. -/
theorem value_flags {defs vars} {w : Nat} : (kbdUnit defs vars).value w [.punct '(', .word ['0'], .punct '&', .word "0xffffUL".toList, .punct ')',
    .punct '|', .punct '(', .punct '(', .word "KBD_VERSION".toList, .punct '&', .word "0xffffUL".toList, .punct ')', .punct '<', .punct '<',
    .word "16".toList, .punct ')'] = some 0x10000 := by
  have c0 : (kbdUnit defs vars).constant ['0'] = some 0 := kbd_constant (by decide) kbd_zero
  have c16 : (kbdUnit defs vars).constant "16".toList = some 16 := kbd_constant (by decide) kbd_16
  have cv : (kbdUnit defs vars).constant "KBD_VERSION".toList = some 1 := kbd_constant (by decide) word_version
  have inner : ∀ f, (kbdUnit defs vars).arith w (f + 12) 0 [.punct '(', .punct '(', .word "KBD_VERSION".toList, .punct '&', .word "0xffffUL".toList,
      .punct ')', .punct '<', .punct '<', .word "16".toList, .punct ')'] = some (0x10000, []) := by
    intro f
    refine arith_paren (f := f + 11) (arith_lift (f := f + 10) (arith_lift (f := f + 9) ?_ rfl) rfl)
    refine arith_op (f := f + 8) (l := 1) (l' := 1) (arith_lift (f := f + 7) (arith_and (f := f) cv kbd_ulong) rfl) rfl rfl
      (arith_lift (f := f + 7) (arith_const (f := f + 6) c16 (by decide)) rfl) ?_
    decide
  have outer : (kbdUnit defs vars).arith w 85 4 [.punct '(', .word ['0'], .punct '&', .word "0xffffUL".toList, .punct ')',
      .punct '|', .punct '(', .punct '(', .word "KBD_VERSION".toList, .punct '&', .word "0xffffUL".toList, .punct ')', .punct '<', .punct '<',
      .word "16".toList, .punct ')'] = some (0x10000, []) := by
    refine arith_op (f := 84) (l := 3) (l' := 4) (b := 0x10000) (arith_lift (f := 83) (arith_lift (f := 82) (arith_lift (f := 81)
      (arith_and (f := 74) c0 kbd_ulong) rfl) rfl) rfl) rfl rfl ?_ ?_
    · exact arith_up (f := 83) (arith_up (f := 82) (arith_up (f := 81) (arith_up (f := 80) (inner 68))))
    · rfl
  exact value_full rfl outer

/-- The number of unprefixed scancodes. -/
theorem value_count {u : CUnit} {w k : Nat} (h : List.lookup "ausVK".toList u.vars = some (.arr (.num 16) (some k))) :
    u.value w [.word "sizeof".toList, .punct '(', .word "ausVK".toList, .punct ')', .punct '/',
      .word "sizeof".toList, .punct '(', .punct '*', .word "ausVK".toList, .punct ')'] = some k := by
  have h1 : u.sizeof w "ausVK".toList = some (k * 2) := by
    unfold CUnit.sizeof
    rw [h]
    rfl
  have h2 : u.sizeofFirst w "ausVK".toList = some 2 := by
    unfold CUnit.sizeofFirst
    rw [h]
    rfl
  have a1 : ∀ f ts, u.arith w (f + 1) 0 (.word "sizeof".toList :: .punct '(' :: .word "ausVK".toList :: .punct ')' :: ts) = some (k * 2, ts) := by
    intro f ts
    rw [CUnit.arith, if_pos rfl, h1]
    rfl
  have a2 : ∀ f ts, u.arith w (f + 1) 0 (.word "sizeof".toList :: .punct '(' :: .punct '*' :: .word "ausVK".toList :: .punct ')' :: ts) = some (2, ts) := by
    intro f ts
    rw [CUnit.arith, if_pos rfl, h2]
    rfl
  have outer : u.arith w 55 4 [.word "sizeof".toList, .punct '(', .word "ausVK".toList, .punct ')', .punct '/',
      .word "sizeof".toList, .punct '(', .punct '*', .word "ausVK".toList, .punct ')'] = some (k, []) := by
    refine arith_up (f := 54) (arith_up (f := 53) (arith_up (f := 52) ?_))
    refine arith_op (f := 51) (l := 0) (l' := 0) (a1 50 _) rfl rfl (a2 50 []) ?_
    show some (k * 2 / 2) = some k
    rw [Nat.mul_div_cancel _ (by omega)]
  exact value_full rfl outer

end Lulua
