import Verif.Model.WinKbdFile
import Verif.Proofs.WinKbdMeaning
import Verif.Spec.CFile

/-!
# Compiling the source of the driver
-/

namespace Lulua
open Spec

/-! ### Units -/

theorem cUnits_append (b : List CTok) : ∀ (a : List CTok) (pos : CPos) (us : List (List CTok)), cUnits pos a = some us →
    cUnits pos (a ++ b) = (cUnits .top b).map (us ++ ·) := by
  intro a
  induction a with
  | nil =>
    intro pos us h
    cases pos with
    | top =>
      rw [cUnits, Option.some.injEq] at h
      subst h
      simp
    | typedef c acc => simp [cUnits] at h
    | static acc => simp [cUnits] at h
    | func acc => simp [cUnits] at h
  | cons t a ih =>
    intro pos us h
    rw [List.cons_append]
    cases pos with
    | top =>
      cases t with
      | word s =>
        rw [cUnits] at h ⊢
        split at h
        · rename_i hs
          rw [if_pos hs]
          exact ih _ _ h
        · rename_i hs
          rw [if_neg hs]
          split at h
          · rename_i hs
            rw [if_pos hs]
            exact ih _ _ h
          · rename_i hs
            rw [if_neg hs]
            exact ih _ _ h
      | punct c => simp [cUnits] at h
      | str x => simp [cUnits] at h
      | directive l =>
        rw [cUnits, Option.map_eq_some_iff] at h
        obtain ⟨us', h, rfl⟩ := h
        rw [cUnits, ih _ _ h, Option.map_map]
        rfl
    | typedef c acc =>
      rw [cUnits] at h ⊢
      split at h
      · rename_i hs
        rw [if_pos hs]
        exact ih _ _ h
      · rename_i hs
        rw [if_neg hs]
        split at h
        · rename_i hs
          rw [Option.map_eq_some_iff] at h
          obtain ⟨us', h, rfl⟩ := h
          rw [if_pos hs, ih _ _ h, Option.map_map]
          rfl
        · rename_i hs
          rw [if_neg hs]
          exact ih _ _ h
    | static acc =>
      rw [cUnits] at h ⊢
      split at h
      · rename_i hs
        rw [Option.map_eq_some_iff] at h
        obtain ⟨us', h, rfl⟩ := h
        rw [if_pos hs, ih _ _ h, Option.map_map]
        rfl
      · rename_i hs
        rw [if_neg hs]
        exact ih _ _ h
    | func acc =>
      rw [cUnits] at h ⊢
      split at h
      · rename_i hs
        rw [Option.map_eq_some_iff] at h
        obtain ⟨us', h, rfl⟩ := h
        rw [if_pos hs, ih _ _ h, Option.map_map]
        rfl
      · rename_i hs
        rw [if_neg hs]
        exact ih _ _ h

theorem cUnits_join {a b : List CTok} {us vs : List (List CTok)} (ha : cUnits .top a = some us) (hb : cUnits .top b = some vs) :
    cUnits .top (a ++ b) = some (us ++ vs) := by
  rw [cUnits_append b a _ _ ha, hb]
  rfl

theorem cUnits_static : ∀ (r acc : List CTok), CTok.punct ';' ∉ r → cUnits (.static acc) (r ++ [.punct ';']) = some [acc.reverse ++ r]
  | [], acc, _ => by
    rw [List.nil_append, cUnits, if_pos rfl, List.append_nil]
    rfl
  | t :: r, acc, h => by
    rw [List.mem_cons, not_or] at h
    rw [List.cons_append, cUnits, if_neg fun e => h.1 e.symm, cUnits_static r (t :: acc) h.2]
    simp

/-- A definition is one unit. -/
theorem cUnits_part {p : List CTok} {d : CDef} (hd : cDef p = some d) (hs : CTok.punct ';' ∉ p) :
    cUnits .top (p ++ [.punct ';']) = some [p] ∧ ∃ r, p = .word "static".toList :: r := by
  have h : ∃ r, p = .word "static".toList :: r := by
    have hc : ∀ {s type name ts}, cInit s type name ts = some d → s = "static".toList := by
      intro s type name ts h
      unfold cInit at h
      split at h
      · assumption
      · cases h
    unfold cDef at hd
    split at hd
    · exact ⟨_, by rw [hc hd]⟩
    · exact ⟨_, by rw [hc hd]⟩
    · exact ⟨_, by rw [hc hd]⟩
    · cases hd
  obtain ⟨r, rfl⟩ := h
  refine ⟨?_, r, rfl⟩
  rw [List.mem_cons, not_or] at hs
  rw [List.cons_append, cUnits, if_neg (by decide), if_pos rfl, cUnits_static r _ hs.2]
  rfl

theorem cUnits_parts : ∀ {ps : List (List CTok)} {ds : List CDef}, ps.mapM cDef = some ds → (∀ p ∈ ps, CTok.punct ';' ∉ p) →
    cUnits .top (ps.map fun p => p ++ [CTok.punct ';']).flatten = some ps
  | [], _, _, _ => rfl
  | p :: ps, ds, h, hs => by
    rw [List.mapM_cons] at h
    simp only [Option.bind_eq_bind, Option.bind_eq_some_iff] at h
    obtain ⟨d, hd, ds', hds, _⟩ := h
    rw [List.map_cons, List.flatten_cons]
    exact cUnits_join (cUnits_part hd (hs p List.mem_cons_self)).1 (cUnits_parts hds fun q hq => hs q (List.mem_cons_of_mem _ hq))

theorem cUnits_lines : ∀ {ts : List CTok}, (∀ t ∈ ts, t.line.isSome = true) → cUnits .top ts = some (ts.map fun t => [t])
  | [], _ => rfl
  | t :: ts, h => by
    have ht := h t List.mem_cons_self
    cases t with
    | directive l =>
      rw [cUnits, cUnits_lines fun x hx => h x (List.mem_cons_of_mem _ hx)]
      rfl
    | word _ => cases ht
    | punct _ => cases ht
    | str _ => cases ht

/-! ### Lookup -/

theorem lookup_mem {α : Type} {k : Text} {v : α} : ∀ {l : List (Text × α)}, l.lookup k = some v → (k, v) ∈ l
  | [], h => by cases h
  | (a, b) :: l, h => by
    rw [List.lookup_cons] at h
    split at h
    · rename_i he
      rw [beq_iff_eq] at he
      cases h
      subst he
      exact List.mem_cons_self
    · exact List.mem_cons_of_mem _ (lookup_mem h)

theorem lookup_of_mem {α : Type} {k : Text} {v : α} : ∀ {l : List (Text × α)}, (l.map Prod.fst).Nodup → (k, v) ∈ l → l.lookup k = some v
  | [], _, h => by cases h
  | (a, b) :: l, hn, h => by
    rw [List.map_cons, List.nodup_cons] at hn
    rw [List.lookup_cons]
    rcases List.mem_cons.1 h with h' | h'
    · cases h'
      simp
    · have hne : (k == a) = false := by
        rw [beq_eq_false_iff_ne]
        rintro rfl
        exact hn.1 (List.mem_map.2 ⟨(k, v), h', rfl⟩)
      rw [hne]
      exact lookup_of_mem hn.2 h'

theorem lookup_none {α : Type} {k : Text} : ∀ {l : List (Text × α)}, l.lookup k = none ↔ k ∉ l.map Prod.fst
  | [] => by simp
  | (a, b) :: l => by
    rw [List.lookup_cons, List.map_cons, List.mem_cons, not_or, ← lookup_none]
    by_cases h : k = a
    · subst h; simp
    · have : (k == a) = false := by rw [beq_eq_false_iff_ne]; exact h
      rw [this]
      simp [h]

/-! ### Macros -/

theorem step_define {w : Nat} {u : CUnit} {l : Text} {m : Text × Nat} (hl : cDefine l = some m)
    (hc : ∀ x ∈ u.macros, x.1 = m.1 → x.2 = m.2) : u.step w [.directive l] = some { u with macros := u.macros ++ [m] } := by
  have hi : l ≠ "include <wchar.h>".toList := by
    rintro rfl
    have : cDefine "include <wchar.h>".toList = none := by decide +kernel
    rw [this] at hl
    cases hl
  rw [CUnit.step, CUnit.line, if_neg hi, hl]
  simp only [Option.bind_eq_bind, Option.bind_some]
  rw [if_pos]
  cases h : u.macros.lookup m.1 with
  | none => rfl
  | some v => simpa using hc _ (lookup_mem h) rfl

theorem fold_defines {w : Nat} : ∀ {ts : List CTok} {ms : List (Text × Nat)} {u : CUnit}, (∀ t ∈ ts, t.line.isSome = true) →
    (ts.filterMap CTok.line).mapM cDefine = some ms → (∀ a ∈ u.macros ++ ms, ∀ b ∈ u.macros ++ ms, a.1 = b.1 → a.2 = b.2) →
    (ts.map fun t => [t]).foldlM (CUnit.step w) u = some { u with macros := u.macros ++ ms }
  | [], ms, u, _, h, _ => by
    cases h
    simp
  | t :: ts, ms, u, ht, h, hc => by
    cases t with
    | directive l =>
      rw [List.filterMap_cons] at h
      simp only [CTok.line, List.mapM_cons, Option.bind_eq_bind, Option.bind_eq_some_iff] at h
      obtain ⟨m, hm, ms', hms, e⟩ := h
      cases e
      rw [List.map_cons, List.foldlM_cons, step_define hm fun x hx => hc x (List.mem_append_left _ hx) m (by simp),
        Option.bind_eq_bind, Option.bind_some, fold_defines (fun x hx => ht x (List.mem_cons_of_mem _ hx)) hms]
      · simp
      · simpa using hc
    | word _ => cases ht _ List.mem_cons_self
    | punct _ => cases ht _ List.mem_cons_self
    | str _ => cases ht _ List.mem_cons_self

/-! ### Types -/

/-- The fields of a row of characters. -/
def wcharsFields (n : Nat) : List (Text × CTy) :=
  [("VirtualKey".toList, .num 8), ("Attributes".toList, .num 8), ("wch".toList, .arr (.num 16) (some n))]

/-- A structure and the pointer to it. -/
def declared (name : Text) (fields : List (Text × CTy)) : CTypes :=
  [(name, .struct fields), ('P' :: name, .same (.ptr (.named name)))]

def kbdFields : List (Text × CTy) :=
  [("pCharModifiers".toList, .named "PMODIFIERS".toList), ("pVkToWcharTable".toList, .named "PVK_TO_WCHAR_TABLE".toList),
    ("pDeadKey".toList, .named "PDEADKEY".toList), ("pKeyNames".toList, .named "PVSC_LPWSTR".toList),
    ("pKeyNamesExt".toList, .named "PVSC_LPWSTR".toList), ("pKeyNamesDead".toList, .ptr (.ptr (.num 16))),
    ("pusVSCtoVK".toList, .ptr (.num 16)), ("bMaxVSCtoVK".toList, .num 8), ("pVSCtoVK_E0".toList, .named "PVSC_VK".toList),
    ("pVSCtoVK_E1".toList, .named "PVSC_VK".toList), ("fLocaleFlags".toList, .num 32), ("nLgMax".toList, .num 8),
    ("cbLgEntry".toList, .num 8), ("pLigature".toList, .named "PLIGATURE1".toList), ("dwType".toList, .num 32), ("dwSubType".toList, .num 32)]

/-- The types of the driver. -/
def driverTypes : CTypes :=
  declared "VK_TO_BIT".toList [("Vk".toList, .num 8), ("ModBits".toList, .num 8)] ++
  declared "MODIFIERS".toList [("pVkToBit".toList, .named "PVK_TO_BIT".toList), ("wMaxModBits".toList, .num 16), ("ModNumber".toList, .arr (.num 8) none)] ++
  declared "VSC_VK".toList [("Vsc".toList, .num 8), ("Vk".toList, .num 16)] ++
  (List.range' 1 8).flatMap (fun n => declared ("VK_TO_WCHARS".toList ++ natText n) (wcharsFields n)) ++
  declared "LIGATURE1".toList [("VirtualKey".toList, .num 8), ("ModificationNumber".toList, .num 16), ("wch".toList, .arr (.num 16) (some 1))] ++
  declared "VK_TO_WCHAR_TABLE".toList [("pVkToWchars".toList, .named "PVK_TO_WCHARS1".toList), ("nModifications".toList, .num 8), ("cbSize".toList, .num 8)] ++
  declared "DEADKEY".toList [("dwBoth".toList, .num 32), ("wchComposed".toList, .num 16), ("uFlags".toList, .num 16)] ++
  declared "VSC_LPWSTR".toList [("vsc".toList, .num 8), ("pwsz".toList, .ptr (.num 16))] ++
  declared "KBDTABLES".toList kbdFields

/-- The texts of the types. -/
def typeTexts : List Text := [typedefsFirst] ++ (List.range' 1 8).map wcharsType ++ [ligatureType 1, typedefsLast, kbdTablesType]

/-- Their tokens. -/
def typeToks : List CTok := (typeTexts.map fun t => (cTokens t).getD []).flatten

def typeUnits : List (List CTok) := (typeTexts.map fun t => ((cTokens t).bind (cUnits .top)).getD []).flatten

theorem typedefs_closed : Closed typedefs typeToks := by
  have h : ∀ t ∈ typeTexts, Closed t ((cTokens t).getD []) := by decide +kernel
  have e : typedefs = (typeTexts.map id).flatten := by
    simp only [typedefs, typeTexts, List.map_id, List.flatten_append, List.flatMap, List.map_cons, List.map_nil, List.flatten_cons,
      List.flatten_nil, List.append_nil, List.append_assoc]
  rw [e]
  exact flatten_closed typeTexts h

theorem typeUnits_read : cUnits .top typeToks = some typeUnits := by
  have h : ∀ t ∈ typeTexts, ((cTokens t).bind (cUnits .top)).isSome = true := by decide +kernel
  unfold typeToks typeUnits
  revert h
  generalize typeTexts = l
  intro h
  induction l with
  | nil => rfl
  | cons t l ih =>
    rw [List.map_cons, List.map_cons, List.flatten_cons, List.flatten_cons]
    refine cUnits_join ?_ (ih fun x hx => h x (List.mem_cons_of_mem _ hx))
    have := h t List.mem_cons_self
    cases ht : cTokens t with
    | none => rw [ht] at this; cases this
    | some ts =>
      rw [ht] at this
      cases hu : cUnits .top ts with
      | none =>
        rw [Option.bind_some, hu] at this
        cases this
      | some us => simp [hu]

/-- Types one after the other. -/
def foldTypes (types : CTypes) : List (List CTok) → Option CTypes
  | [] => some types
  | (.word s :: ts) :: us => if s = "typedef".toList then (cTypedef true types ts).bind fun t => foldTypes t us else none
  | _ => none

theorem fold_types {w : Nat} : ∀ (us : List (List CTok)) (u : CUnit) (types : CTypes), u.wchar = true → foldTypes u.types us = some types →
    us.foldlM (CUnit.step w) u = some { u with types := types }
  | [], u, types, _, h => by
    rw [foldTypes, Option.some.injEq] at h
    subst h
    rfl
  | x :: us, u, types, hw, h => by
    unfold foldTypes at h
    split at h
    · cases ‹x :: us = []›
    · rename_i e
      cases e
      split at h
      · rename_i hs
        rw [Option.bind_eq_some_iff] at h
        obtain ⟨t, ht, h⟩ := h
        have ih := fold_types (w := w) us { u with types := t } types hw h
        rw [List.foldlM_cons, CUnit.step, if_pos hs, hw, ht, Option.map_some, Option.bind_eq_bind, Option.bind_some]
        rw [hw] at ih
        exact ih
      · cases h
    · cases h

theorem types_read (w : Nat) : typeUnits.foldlM (CUnit.step w) .empty = some ⟨true, driverTypes, [], [], [], []⟩ := by
  have h : typeUnits = [.directive "include <wchar.h>".toList] :: typeUnits.tail ∧ foldTypes [] typeUnits.tail = some driverTypes := by decide +kernel
  rw [h.1, List.foldlM_cons, CUnit.step, CUnit.line, if_pos rfl, Option.bind_eq_bind, Option.bind_some,
    fold_types _ { CUnit.empty with wchar := true } driverTypes rfl h.2]
  rfl

end Lulua
