import Verif.Proofs.CFileFits

/-!
# The tables of characters and the last table
-/

namespace Lulua
open Spec

/-! ### Rows of characters -/

/-- The type of the rows with so many characters. -/
def wcharsName (n : Nat) : Text := "VK_TO_WCHARS".toList ++ natText n

theorem lookup_wchars {n : Nat} (h1 : 1 ≤ n) (h8 : n ≤ 8) : driverTypes.lookup (wcharsName n) = some (.struct (wcharsFields n)) := by
  have h : ∀ n ∈ List.range' 1 8, driverTypes.lookup (wcharsName n) = some (.struct (wcharsFields n)) := by decide +kernel
  exact h n (List.mem_range'_1.2 (by omega))

theorem lookup_wchars_none {n : Nat} (h : ¬(1 ≤ n ∧ n ≤ 8)) : driverTypes.lookup (wcharsName n) = none := by
  rw [lookup_none]
  intro hm
  have hk : ∀ x ∈ driverTypes.map Prod.fst, x.take 12 = "VK_TO_WCHARS".toList → x.drop 12 ∈ (List.range' 1 8).map natText := by decide +kernel
  have e1 : (wcharsName n).take 12 = "VK_TO_WCHARS".toList := by
    unfold wcharsName
    rw [List.take_append_of_le_length (by decide)]
    decide
  have e2 : (wcharsName n).drop 12 = natText n := by
    unfold wcharsName
    rw [List.drop_append_of_le_length (by decide)]
    rfl
  have := hk _ hm e1
  rw [e2] at this
  obtain ⟨k, hk, he⟩ := List.mem_map.1 this
  rw [← natText_inj he] at h
  exact h (by have := List.mem_range'_1.1 hk; omega)

/-- A character has at most 16 bits. -/
def Short : LVal → Prop
  | .str [c] => c.toNat < 65536
  | _ => True

/-- A row of a table of rows with `n` characters. -/
def RowOk (n : Nat) (e : CharEntry) : Prop := e.2.1 < 256 ∧ e.2.2.length = n ∧ ∀ v ∈ e.2.2, Short v

theorem fits_char (hn : CNames (vkCName Data.vkval)) {defs vars} {w d : Nat} {v : LVal} (h : ∃ n, wcharRepr v = .ok n) :
    (driverUnit defs vars).fits w (d + 1) (.num 16) (.expr [charTok v]) = true ↔ Short v := by
  obtain ⟨n, h⟩ := h
  have hv := cValue_char hn h
  rw [cValue] at hv
  rw [fits_num (u := driverUnit defs vars) hv, decide_eq_true_eq]
  rcases wcharRepr_ok.1 h with ⟨rfl, rfl⟩ | ⟨c, rfl, rfl⟩
  · exact ⟨fun _ => trivial, fun _ => by decide⟩
  · exact Iff.rfl

theorem fits_row (hn : CNames (vkCName Data.vkval)) {defs vars} {w d n : Nat} (h1 : 1 ≤ n) (h8 : n ≤ 8) {e : CharEntry} (hk : KeyEntry e)
    (hv : ∀ v ∈ e.2.2, ∃ n, wcharRepr v = .ok n) :
    (driverUnit defs vars).fits w (d + 3) (.named (wcharsName n)) (rowInit (vkCName Data.vkval) e) = true ↔ RowOk n e := by
  obtain ⟨k, he, hm⟩ := hk
  have hw : cWord driverMacros (vkCName Data.vkval e.1) = some k := by rw [he]; exact cWord_member hn hm
  unfold rowInit
  rw [fits_triple (u := driverUnit defs vars) (lookup_wchars h1 h8) rfl, Bool.and_eq_true, Bool.and_eq_true, fits_word hw, fits_word (cWord_nat _),
    fits_arr, Bool.and_eq_true, List.all_eq_true, decide_eq_true_eq, decide_eq_true_eq, Option.all_some, decide_eq_true_eq, List.length_map]
  constructor
  · rintro ⟨-, h2, h3, h4⟩
    exact ⟨h2, h3.symm, fun v hv' => (fits_char hn (hv v hv')).1 (h4 _ (List.mem_map.2 ⟨v, hv', rfl⟩))⟩
  · rintro ⟨h2, h3, h4⟩
    refine ⟨key_lt hm, h2, h3.symm, fun x hx => ?_⟩
    obtain ⟨v, hv', rfl⟩ := List.mem_map.1 hx
    exact (fits_char hn (hv v hv')).2 (h4 v hv')

theorem fits_end {defs vars} {w d n : Nat} (h1 : 1 ≤ n) (h8 : n ≤ 8) :
    (driverUnit defs vars).fits w (d + 3) (.named (wcharsName n)) (endInit n) = true := by
  have hz : ∀ d bits, (driverUnit defs vars).fits w (d + 1) (.num bits) word0 = true := by
    intro d bits
    unfold word0
    rw [fits_word word_zero, decide_eq_true_eq]
    exact Nat.two_pow_pos bits
  unfold endInit
  rw [fits_triple (u := driverUnit defs vars) (lookup_wchars h1 h8) rfl, Bool.and_eq_true, Bool.and_eq_true]
  refine ⟨hz _ _, hz _ _, ?_⟩
  rw [fits_arr, Bool.and_eq_true, List.all_eq_true]
  refine ⟨by simp, fun x hx => ?_⟩
  rw [(List.mem_replicate.1 hx).2]
  exact hz _ _

/-! ### Definitions one after the other -/

theorem step_static {w : Nat} {u : CUnit} {r : List CTok} : u.step w (.word "static".toList :: r) = u.static w (.word "static".toList :: r) := by
  rw [CUnit.step, if_neg (by decide), if_pos rfl]

/-- Neither a variable nor a macro. -/
def Fresh (vars : List (Text × CTy)) (name : Text) : Prop := name ∉ vars.map Prod.fst ∧ driverMacros.lookup name = none

theorem step_array {w : Nat} {defs vars} {type name : Text} {r : List CTok} {init : List CInit}
    (hd : cDef (arrayHead type name ++ r) = some ⟨type, name, init⟩) (hf : Fresh vars name) {base : CTy}
    (hb : cBase true driverTypes [type] = some base) :
    (driverUnit defs vars).step w (arrayHead type name ++ r) =
      if (driverUnit defs vars).fits w cDepth (.arr base (some init.length)) (.list init) = true then
        some (driverUnit (defs ++ [⟨type, name, init⟩]) (vars ++ [(name, .arr base (some init.length))])) else none := by
  have hb' : cBase (driverUnit defs vars).wchar (driverUnit defs vars).types [type] = some base := hb
  have e : leadingWords (arrayHead type name ++ r) = ["static".toList, type, name] := rfl
  have e2 : (arrayHead type name ++ r)[3]? = some (.punct '[') := rfl
  have h1 : (driverUnit defs vars).vars.lookup name = none := lookup_none.2 hf.1
  have h2 : (driverUnit defs vars).macros.lookup name = none := hf.2
  refine (step_static (r := .word type :: .word name :: .punct '[' :: .punct ']' :: .punct '=' :: .punct '{' :: r)).trans ?_
  show CUnit.static _ w (arrayHead type name ++ r) = _
  unfold CUnit.static
  simp only [hd, e, Option.bind_eq_bind, Option.bind_some, List.drop_succ_cons, List.drop_zero, List.dropLast_cons_cons, List.dropLast_singleton, hb',
    List.length_cons, List.length_nil, Nat.zero_add, Nat.reduceAdd, e2, if_true, h1, h2, true_and]
  rfl

theorem step_array_none {w : Nat} {defs vars} {type name : Text} {r : List CTok} (hb : cBase true driverTypes [type] = none) :
    (driverUnit defs vars).step w (arrayHead type name ++ r) = none := by
  have hb' : cBase (driverUnit defs vars).wchar (driverUnit defs vars).types [type] = none := hb
  have e : leadingWords (arrayHead type name ++ r) = ["static".toList, type, name] := rfl
  refine (step_static (r := .word type :: .word name :: .punct '[' :: .punct ']' :: .punct '=' :: .punct '{' :: r)).trans ?_
  show CUnit.static _ w (arrayHead type name ++ r) = _
  unfold CUnit.static
  cases hd : cDef (arrayHead type name ++ r) with
  | none => rfl
  | some d =>
    simp only [e, Option.bind_eq_bind, Option.bind_some, List.drop_succ_cons, List.drop_zero, List.dropLast_cons_cons, List.dropLast_singleton, hb',
      Option.bind_none]

theorem step_short {w : Nat} {defs vars} {name : Text} {r : List CTok} {init : List CInit} {t : Text}
    (hd : cDef (.word "static".toList :: .word "unsigned".toList :: .word "short".toList :: .word name :: .punct '[' :: r) = some ⟨t, name, init⟩)
    (hf : Fresh vars name) :
    (driverUnit defs vars).step w (.word "static".toList :: .word "unsigned".toList :: .word "short".toList :: .word name :: .punct '[' :: r) =
      if (driverUnit defs vars).fits w cDepth (.arr (.num 16) (some init.length)) (.list init) = true then
        some (driverUnit (defs ++ [⟨t, name, init⟩]) (vars ++ [(name, .arr (.num 16) (some init.length))])) else none := by
  have hb : cBase (driverUnit defs vars).wchar (driverUnit defs vars).types ["unsigned".toList, "short".toList] = some (.num 16) := rfl
  have e : leadingWords (.word "static".toList :: .word "unsigned".toList :: .word "short".toList :: .word name :: .punct '[' :: r) =
    ["static".toList, "unsigned".toList, "short".toList, name] := rfl
  have e2 : (CTok.word "static".toList :: .word "unsigned".toList :: .word "short".toList :: .word name :: .punct '[' :: r)[4]? = some (.punct '[') := rfl
  have h1 : (driverUnit defs vars).vars.lookup name = none := lookup_none.2 hf.1
  have h2 : (driverUnit defs vars).macros.lookup name = none := hf.2
  rw [step_static]
  unfold CUnit.static
  simp only [hd, e, Option.bind_eq_bind, Option.bind_some, List.drop_succ_cons, List.drop_zero, List.dropLast_cons_cons, List.dropLast_singleton, hb,
    List.length_cons, List.length_nil, Nat.zero_add, Nat.reduceAdd, e2, if_true, h1, h2, true_and]
  rfl

/-- A variable that is no array. -/
theorem step_single {w : Nat} {u : CUnit} {type name : Text} {r : List CTok} {init : List CInit}
    (hd : cDef (.word "static".toList :: .word type :: .word name :: .punct '=' :: r) = some ⟨type, name, init⟩)
    (h1 : u.vars.lookup name = none) (h2 : u.macros.lookup name = none) {base : CTy} (hb : cBase u.wchar u.types [type] = some base)
    (hfit : u.fits w cDepth base (.list init) = true) :
    u.step w (.word "static".toList :: .word type :: .word name :: .punct '=' :: r) =
      some { u with defs := u.defs ++ [⟨type, name, init⟩], vars := u.vars ++ [(name, base)] } := by
  have e : leadingWords (.word "static".toList :: .word type :: .word name :: .punct '=' :: r) = ["static".toList, type, name] := rfl
  have e2 : ¬(CTok.word "static".toList :: .word type :: .word name :: .punct '=' :: r)[3]? = some (.punct '[') := by
    show ¬some (CTok.punct '=') = some (.punct '[')
    decide
  rw [step_static]
  unfold CUnit.static
  simp only [hd, e, Option.bind_eq_bind, Option.bind_some, List.drop_succ_cons, List.drop_zero, List.dropLast_cons_cons, List.dropLast_singleton, hb,
    List.length_cons, List.length_nil, Nat.zero_add, Nat.reduceAdd, h1, h2, true_and]
  rw [if_neg e2, if_pos hfit]

theorem not_macro {name : Text} {c : Char} {r : Text} (h : name = c :: r) (hc : c ≠ 'V' ∧ c ≠ 'W') : driverMacros.lookup name = none := by
  rw [lookup_none]
  intro hm
  obtain ⟨a, ha, rfl⟩ := List.mem_map.1 hm
  have : ∀ a ∈ driverMacros, a.1.head? = some 'V' ∨ a.1.head? = some 'W' := by
    intro a ha
    unfold driverMacros at ha
    simp only [List.mem_append, List.mem_map, List.mem_singleton] at ha
    rcases ha with ⟨x, _, rfl⟩ | ⟨x, _, rfl⟩ | rfl
    · left; exact head_append (r := "IRTUALKEY_".toList) (by decide) _
    · left; exact head_append (r := "IRTUALKEYFLAG_".toList) (by decide) _
    · right; decide
  have h' := this a ha
  rw [h] at h'
  simp only [List.head?_cons, Option.some.injEq] at h'
  exact h'.elim hc.1 hc.2

/-! ### Tables of characters -/

/-- A table whose type exists and whose rows fit. -/
def TableOk (x : Nat × List CharEntry) : Prop := (1 ≤ x.1 ∧ x.1 ≤ 8) ∧ ∀ e ∈ x.2, RowOk x.1 e

def tableVar (p : Text) (x : Nat × List CharEntry) : Text × CTy :=
  (wtableName x.1 p, .arr (.named (wcharsName x.1)) (some (x.2.length + 1)))

theorem base_wchars (n : Nat) : cBase true driverTypes [wcharsName n] = (driverTypes.lookup (wcharsName n)).map fun _ => .named (wcharsName n) := by
  have h : wcharsName n ≠ "wchar_t".toList := by
    intro h
    have := congrArg List.head? h
    revert this
    show some 'V' = some 'w' → False
    decide
  rw [cBase, if_neg h]

theorem step_table (hn : CNames (vkCName Data.vkval)) {w : Nat} {defs vars} {p : Text} {x : Nat × List CharEntry} (hf : Fresh vars (wtableName x.1 p))
    (hk : ∀ e ∈ x.2, KeyEntry e ∧ ∀ v ∈ e.2.2, ∃ n, wcharRepr v = .ok n) [Decidable (TableOk x)] :
    (driverUnit defs vars).step w (tablePart (vkCName Data.vkval) p x) =
      if TableOk x then some (driverUnit (defs ++ [tableDef (vkCName Data.vkval) p x]) (vars ++ [tableVar p x])) else none := by
  have e : tablePart (vkCName Data.vkval) p x = arrayHead (wcharsName x.1) (wtableName x.1 p) ++
    ((x.2.map (rowToks (vkCName Data.vkval))).flatten ++ (endToks x.1 ++ [.punct '}'])) := rfl
  have hd := cDef_table (vkCName Data.vkval) p x
  rw [e] at hd ⊢
  by_cases h : 1 ≤ x.1 ∧ x.1 ≤ 8
  · have hb := base_wchars x.1
    rw [lookup_wchars h.1 h.2] at hb
    rw [step_array hd hf hb]
    have hfit : (driverUnit defs vars).fits w cDepth (.arr (.named (wcharsName x.1)) (some (x.2.map (rowInit (vkCName Data.vkval)) ++ [endInit x.1]).length))
        (.list (x.2.map (rowInit (vkCName Data.vkval)) ++ [endInit x.1])) = true ↔ TableOk x := by
      show (driverUnit defs vars).fits w (4 + 3 + 1) _ _ = true ↔ _
      rw [fits_arr, Bool.and_eq_true, List.all_eq_true]
      constructor
      · rintro ⟨-, h2⟩
        refine ⟨h, fun e he => ?_⟩
        exact (fits_row hn h.1 h.2 (hk e he).1 (hk e he).2).1 (h2 _ (List.mem_append_left _ (List.mem_map.2 ⟨e, he, rfl⟩)))
      · rintro ⟨-, h2⟩
        refine ⟨by simp, fun y hy => ?_⟩
        rcases List.mem_append.1 hy with hy | hy
        · obtain ⟨e, he, rfl⟩ := List.mem_map.1 hy
          exact (fits_row hn h.1 h.2 (hk e he).1 (hk e he).2).2 (h2 e he)
        · rw [List.mem_singleton.1 hy]
          exact fits_end h.1 h.2
    by_cases ht : TableOk x
    · rw [if_pos ht, if_pos (hfit.2 ht)]
      unfold tableVar
      rw [List.length_append, List.length_map]
      rfl
    · rw [if_neg ht, if_neg fun h => ht (hfit.1 h)]
  · have hb := base_wchars x.1
    rw [lookup_wchars_none h] at hb
    rw [step_array_none hb, if_neg fun ht => h ht.1]

theorem table_not_macro (n : Nat) (p : Text) : driverMacros.lookup (wtableName n p) = none :=
  not_macro (c := 'a') (r := "VkToWch".toList ++ p ++ natText n) (by unfold wtableName; rfl) (by decide)

open Classical in
theorem fold_tables (hn : CNames (vkCName Data.vkval)) {w : Nat} : ∀ (groups : List (Nat × List CharEntry)) (defs : List CDef) (vars : List (Text × CTy)),
    (vars.map Prod.fst ++ groups.map fun x => wtableName x.1 []).Nodup →
    (∀ x ∈ groups, ∀ e ∈ x.2, KeyEntry e ∧ ∀ v ∈ e.2.2, ∃ n, wcharRepr v = .ok n) →
    (groups.map (tablePart (vkCName Data.vkval) [])).foldlM (CUnit.step w) (driverUnit defs vars) =
      if ∀ x ∈ groups, TableOk x then some (driverUnit (defs ++ groups.map (tableDef (vkCName Data.vkval) [])) (vars ++ groups.map (tableVar []))) else none
  | [], defs, vars, _, _ => by simp
  | x :: groups, defs, vars, hnd, hk => by
    have hf : Fresh vars (wtableName x.1 []) := by
      refine ⟨fun h => ?_, table_not_macro _ _⟩
      rw [List.nodup_append] at hnd
      exact hnd.2.2 _ h _ List.mem_cons_self rfl
    rw [List.map_cons, List.foldlM_cons, step_table hn hf (hk x List.mem_cons_self)]
    by_cases hx : TableOk x
    · rw [if_pos hx, Option.bind_eq_bind, Option.bind_some, fold_tables hn groups]
      · by_cases hg : ∀ y ∈ groups, TableOk y
        · rw [if_pos hg, if_pos (by simpa [hx] using hg)]
          simp
        · rw [if_neg hg, if_neg fun h => hg fun y hy => h y (List.mem_cons_of_mem _ hy)]
      · rw [List.map_append, List.append_assoc]
        exact hnd
      · exact fun y hy => hk y (List.mem_cons_of_mem _ hy)
    · rw [if_neg hx, if_neg fun h => hx (h x List.mem_cons_self)]
      rfl

/-! ### The table of tables -/

theorem lookup_table : driverTypes.lookup "VK_TO_WCHAR_TABLE".toList = some (.struct [("pVkToWchars".toList, .named "PVK_TO_WCHARS1".toList),
    ("nModifications".toList, .num 8), ("cbSize".toList, .num 8)]) := by decide +kernel

theorem lookup_pwchars : driverTypes.lookup "PVK_TO_WCHARS1".toList = some (.same (.ptr (.named "VK_TO_WCHARS1".toList))) := by decide +kernel

theorem layout_wchars {w n : Nat} (h1 : 1 ≤ n) (h8 : n ≤ 8) : cLayout w driverTypes cDepth (.named (wcharsName n)) = some (2 + 2 * n, 2) := by
  unfold cDepth
  rw [cLayout]
  simp only [lookup_wchars h1 h8, wcharsFields, List.mapM_cons, List.mapM_nil, cLayout]
  simp [roundUp]
  omega

theorem arith_up {u : CUnit} {w f l n : Nat} {ts : List CTok} (h : u.arith w f l ts = some (n, [])) : u.arith w (f + 1) (l + 1) ts = some (n, []) := by
  have hc : cOperator (l + 1) [] = none := by
    unfold cOperator
    split <;> first | rfl | simp_all
  rw [CUnit.arith, h, Option.bind_eq_bind, Option.bind_some]
  simp only [hc]

theorem value_arith {u : CUnit} {w n : Nat} {ts : List CTok} (hc : cOr u.macros ts = none) (h : u.arith w (5 * ts.length + 1) 0 ts = some (n, [])) :
    u.value w ts = some n := by
  unfold CUnit.value
  simp only [hc]
  rw [arith_up (arith_up (arith_up (arith_up h)))]

theorem arith_sizeof {u : CUnit} {w s : Nat} {v : Text} (h : u.sizeofFirst w v = some s) :
    u.value w [.word "sizeof".toList, .punct '(', .word v, .punct '[', .word ['0'], .punct ']', .punct ')'] = some s := by
  refine value_arith rfl ?_
  show u.arith w (35 + 1) 0 _ = _
  rw [CUnit.arith, if_pos ⟨rfl, rfl⟩, h]
  rfl

theorem fits_ref {defs vars} {w d n len : Nat} {p : Text} (h1 : 1 ≤ n) (h8 : n ≤ 8)
    (hv : List.lookup (wtableName n p) vars = some (.arr (.named (wcharsName n)) (some len))) :
    (driverUnit defs vars).fits w (d + 4) (.named "VK_TO_WCHAR_TABLE".toList) (refInit n p) = true := by
  have hs : (driverUnit defs vars).sizeofFirst w (wtableName n p) = some (2 + 2 * n) := by
    unfold CUnit.sizeofFirst
    rw [show (driverUnit defs vars).vars = vars from rfl, hv]
    show (cLayout w driverTypes cDepth (.named (wcharsName n))).map Prod.fst = _
    rw [layout_wchars h1 h8]
    rfl
  unfold refInit
  rw [fits_triple (u := driverUnit defs vars) lookup_table rfl, Bool.and_eq_true, Bool.and_eq_true]
  refine ⟨?_, ?_, ?_⟩
  · rw [fits_alias (u := driverUnit defs vars) lookup_pwchars, CUnit.fits, CUnit.pointer, show (driverUnit defs vars).vars = vars from rfl, hv,
      show (driverUnit defs vars).types = driverTypes from rfl, lookup_pwchars]
    simp
  · rw [fits_word (cWord_nat n), decide_eq_true_eq]
    show n < 2 ^ 8
    omega
  · rw [CUnit.fits, arith_sizeof hs, Option.any_some, decide_eq_true_eq]
    omega

theorem fits_null {defs vars} {w d : Nat} :
    (driverUnit defs vars).fits w (d + 4) (.named "VK_TO_WCHAR_TABLE".toList) nullInit = true := by
  unfold nullInit
  rw [fits_triple (u := driverUnit defs vars) lookup_table rfl, Bool.and_eq_true, Bool.and_eq_true]
  refine ⟨?_, ?_, ?_⟩
  · rw [fits_alias (u := driverUnit defs vars) lookup_pwchars, CUnit.fits, CUnit.pointer]
    rfl
  · unfold word0
    rw [fits_word word_zero]
    decide
  · unfold word0
    rw [fits_word word_zero]
    decide

theorem step_refs {w : Nat} {defs vars} {ns : List Nat} (hns : ∀ n ∈ ns, (1 ≤ n ∧ n ≤ 8) ∧ ∃ len,
      List.lookup (wtableName n []) vars = some (.arr (.named (wcharsName n)) (some len)))
    (hnum : ∃ len, List.lookup (wtableName 1 "Num".toList) vars = some (.arr (.named (wcharsName 1)) (some len)))
    (hf : "aVkToWcharTable".toList ∉ vars.map Prod.fst) :
    (driverUnit defs vars).step w (refsPart ns) = some (driverUnit (defs ++ [refsDef ns])
      (vars ++ [("aVkToWcharTable".toList, .arr (.named "VK_TO_WCHAR_TABLE".toList) (some (ns.length + 2)))])) := by
  have e : refsPart ns = arrayHead "VK_TO_WCHAR_TABLE".toList "aVkToWcharTable".toList ++ ((ns.map fun n => refToks n []).flatten ++ (refToks 1 "Num".toList ++
      [.punct '{', .word "NULL".toList, .punct ',', .word ['0'], .punct ',', .word ['0'], .punct '}', .punct ',', .punct '}'])) := rfl
  have hd := cDef_refs ns
  rw [e] at hd ⊢
  have hb : cBase true driverTypes ["VK_TO_WCHAR_TABLE".toList] = some (.named "VK_TO_WCHAR_TABLE".toList) := by
    rw [cBase, if_neg (by decide), lookup_table]
    rfl
  rw [step_array hd ⟨hf, not_macro (c := 'a') (r := "VkToWcharTable".toList) (by decide) (by decide)⟩ hb, if_pos]
  · rw [show ((ns.map fun n => refInit n []) ++ [refInit 1 "Num".toList, nullInit]).length = ns.length + 2 by simp]
    rfl
  · show (driverUnit defs vars).fits w (7 + 1) _ _ = true
    refine fits_table fun x hx => ?_
    rcases List.mem_append.1 hx with hx | hx
    · obtain ⟨n, hn, rfl⟩ := List.mem_map.1 hx
      obtain ⟨⟨h1, h8⟩, len, hl⟩ := hns n hn
      exact fits_ref (d := 3) h1 h8 hl
    · simp only [List.mem_cons, List.not_mem_nil, or_false] at hx
      rcases hx with rfl | rfl
      · obtain ⟨len, hl⟩ := hnum
        exact fits_ref (d := 3) (by omega) (by omega) hl
      · exact fits_null (d := 3)

end Lulua
