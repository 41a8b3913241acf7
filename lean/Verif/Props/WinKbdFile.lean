import Verif.Proofs.CFileWhole
import Verif.Props.WinKbdTables

/-!
# The source file of the Windows driver

* C123 `C123_compiles`, `C123_program`, `C123_entry`, `C123_sizes`, `C123_offsets`, `C123_layout`, `C123_shipped`: the file `renderWinKbd` writes is C,
  every value in it can be stored in a field of the declared type, and the entry point hands out all tables.
  `C123_false`: not if there is a character above U+FFFF.
-/

namespace Lulua.Props
open Spec

/-! ### C123 -/

/-- An entry that can be stored: there are between one and eight texts, the attributes are a byte and characters 16 bits. -/
def Storable (e : CharEntry) : Prop :=
  (1 ≤ e.2.2.length ∧ e.2.2.length ≤ 8) ∧ e.2.1 < 256 ∧ ∀ c, LVal.str [c] ∈ e.2.2 → c.toNat < 0x10000

theorem tables_storable (charmap : List CharEntry) : (∀ x ∈ charGroups charmap, TableOk x) ↔ ∀ e ∈ charmap, Storable e := by
  have hlen : ∀ x ∈ charGroups charmap, ∃ e ∈ x.2, e.2.2.length = x.1 := by
    obtain ⟨_, h2, h3⟩ := groupby_sorted (fun x : CharEntry => x.2.2.length) _ (insertionSort_sorted _ charmap)
    intro x hx
    obtain ⟨e, he, hl⟩ := (h2 x.1).1 (List.mem_map.2 ⟨x, hx, rfl⟩)
    refine ⟨e, ?_, hl⟩
    rw [h3 x hx, List.mem_filter]
    exact ⟨he, by simpa using hl⟩
  have hshort : ∀ l : List LVal, (∀ v ∈ l, Short v) ↔ ∀ c, LVal.str [c] ∈ l → c.toNat < 0x10000 := by
    intro l
    constructor
    · exact fun h c hc => h _ hc
    · intro h v hv
      unfold Short
      split
      · exact h _ hv
      · trivial
  have e1 : (∀ x ∈ charGroups charmap, TableOk x) ↔ ∀ x ∈ charGroups charmap, ∀ e ∈ x.2, (1 ≤ x.1 ∧ x.1 ≤ 8) ∧ RowOk x.1 e := by
    constructor
    · exact fun h x hx e he => ⟨(h x hx).1, (h x hx).2 e he⟩
    · intro h x hx
      obtain ⟨e, he, _⟩ := hlen x hx
      exact ⟨(h x hx e he).1, fun e he => (h x hx e he).2⟩
  rw [e1, groups_iff rfl fun n e => (1 ≤ n ∧ n ≤ 8) ∧ RowOk n e]
  refine forall₂_congr fun e _ => ?_
  unfold RowOk Storable
  rw [hshort]
  tauto

theorem sources_wchar {printable : Char → Bool} {order : List Nat → List Nat} {m : Dict (List Nat) (List VkVal)} {charmap : List CharEntry}
    {text : Text} (h : driverSources printable order m charmap = .ok text) :
    (∃ body, driverText printable order m charmap = .ok body) ∧ ∀ e ∈ charmap, ∀ v ∈ e.2.2, ∃ n, wcharRepr v = .ok n := by
  simp only [driverSources, bind_ok_iff, Except.ok.injEq] at h
  obtain ⟨body, hb, _⟩ := h
  refine ⟨⟨body, hb⟩, fun e he v hv => ?_⟩
  rcases (C68_works charmap).1 ((C114_works printable order m charmap).1 ⟨body, hb⟩) e he v hv with rfl | ⟨c, rfl⟩
  · exact ⟨_, rfl⟩
  · exact ⟨_, rfl⟩

theorem find_last {l : List CDef} {d : CDef} {n : Text} (hd : d.name = n) (h : n ∉ l.map CDef.name) : (l ++ [d]).find? (fun x => x.name = n) = some d := by
  have : l.find? (fun x => x.name = n) = none := by
    rw [List.find?_eq_none]
    intro x hx hxn
    exact h (List.mem_map.2 ⟨x, hx, by simpa using hxn⟩)
  rw [List.find?_append, this]
  simp [hd]

/-- It is written exactly if the tables are. -/
theorem C123_works (printable : Char → Bool) (order : List Nat → List Nat) (m : Dict (List Nat) (List VkVal)) (charmap : List CharEntry) :
    (∃ text, driverSources printable order m charmap = .ok text) ↔ ∀ e ∈ charmap, ∀ v ∈ e.2.2, v = .other 0 ∨ ∃ c, v = .str [c] := by
  rw [← C68_works, ← C114_works printable order m]
  simp only [driverSources, bind_ok_iff, Except.ok.injEq]
  constructor
  · rintro ⟨_, body, h, _⟩
    exact ⟨body, h⟩
  · rintro ⟨body, h⟩
    exact ⟨_, body, h, rfl⟩

section
variable (w : Nat) (printable : Char → Bool) (order : List Nat → List Nat) (m : Dict (List Nat) (List VkVal)) (hs : Scancodes m)
  (charmap : List CharEntry) (hkey : ∀ e ∈ charmap, KeyEntry e) (text : Text) (h : driverSources printable order m charmap = .ok text)
include hs hkey h

/-- **C123**: whatever the size of pointers, the file is accepted exactly if all entries can be stored. -/
theorem C123_compiles : (∃ u, cCompile w text = some u) ↔ ∀ e ∈ charmap, Storable e := by
  classical
  rw [compile_driver C112_names hs hkey (sources_wchar h).2 h, ← tables_storable]
  split
  · rename_i hall
    exact ⟨fun _ => hall, fun _ => ⟨_, rfl⟩⟩
  · rename_i hall
    exact ⟨fun ⟨_, h⟩ => (by cases h), fun h => (hall h).elim⟩

theorem compile_eq {u : CUnit} (hu : cCompile w text = some u) : u = driverFile m charmap ∧ ∀ e ∈ charmap, Storable e := by
  classical
  have hall := (C123_compiles w printable order m hs charmap hkey text h).1 ⟨u, hu⟩
  rw [compile_driver C112_names hs hkey (sources_wchar h).2 h, if_pos ((tables_storable charmap).2 hall)] at hu
  exact ⟨(Option.some.inj hu).symm, hall⟩

/-- **C123**: macros and definitions are those C114 is about, and the version and the last table. -/
theorem C123_program (u : CUnit) (hu : cCompile w text = some u) : ∃ body p last, driverText printable order m charmap = .ok body ∧
    cProgram body = some p ∧ u.macros = p.macros ++ [("KBD_VERSION".toList, 1)] ∧ u.defs = p.defs ++ [last] ∧ last.name = "KbdTables".toList := by
  obtain ⟨rfl, _⟩ := compile_eq w printable order m hs charmap hkey text h hu
  obtain ⟨⟨body, hb⟩, _⟩ := sources_wchar h
  exact ⟨body, _, _, hb, driverText_program C112_names (nonempty_of_one hs) hb, rfl, rfl, rfl⟩

/-- **C123**: the function hands out a table that refers to all others, tells the number of unprefixed scancodes, version 1 and that
there are neither dead keys nor ligatures. -/
theorem C123_entry (u : CUnit) (hu : cCompile w text = some u) : u.entry = [("KbdLayerDescriptor".toList, "KbdTables".toList)] ∧
    u.vars.lookup "KbdTables".toList = some (.named "KBDTABLES".toList) ∧
    u.field "KbdTables".toList "pCharModifiers".toList = some [.punct '&', .word "CharModifiers".toList] ∧
    (∀ x ∈ [("pVkToWcharTable", "aVkToWcharTable"), ("pKeyNames", "aKeyNames"), ("pKeyNamesExt", "aKeyNamesExt"), ("pusVSCtoVK", "ausVK"),
        ("pVSCtoVK_E0", "aE0VscToVk"), ("pVSCtoVK_E1", "aE1VscToVk"), ("pDeadKey", "NULL"), ("pKeyNamesDead", "NULL"), ("pLigature", "NULL")],
      u.field "KbdTables".toList x.1.toList = some [.word x.2.toList]) ∧
    ∀ x ∈ [("bMaxVSCtoVK", 128), ("fLocaleFlags", 0x10000), ("nLgMax", 0), ("cbLgEntry", 0), ("dwType", 0), ("dwSubType", 0)],
      (u.field "KbdTables".toList x.1.toList).bind (u.value w) = some x.2 := by
  obtain ⟨rfl, _⟩ := compile_eq w printable order m hs charmap hkey text h hu
  have hsort : ((charGroups charmap).map Prod.fst).Pairwise (· < ·) :=
    (groupby_sorted (fun x : CharEntry => x.2.2.length) _ (insertionSort_sorted _ charmap)).1
  have hfind : (driverFile m charmap).defs.find? (fun d => d.name = "KbdTables".toList) = some kbdDef := by
    have hf := vars_fresh m (charGroups charmap) (n := "KbdTables".toList) (by decide) (by decide)
    rw [List.map_append, driverVars_names m Data.qwertyScancodeToName, charVars_names (vkCName Data.vkval), ← List.map_append] at hf
    exact find_last rfl hf
  have hfield : ∀ f, (driverFile m charmap).field "KbdTables".toList f =
      match (kbdValues.map fun x => (x.1, CInit.expr x.2)).lookup f with | some (.expr ts) => some ts | _ => none := by
    intro f
    unfold CUnit.field
    rw [hfind, Option.bind_eq_bind, Option.bind_some, kbd_designated, Option.bind_eq_bind, Option.bind_some]
    rfl
  have hk := driver_kbdVars m hsort
  have haus : List.lookup "ausVK".toList (driverFile m charmap).vars = some (.arr (.num 16) (some 128)) := by
    show List.lookup _ (_ ++ [_]) = _
    rw [List.lookup_append, hk.aus]
    rfl
  refine ⟨rfl, ?_, ?_, ?_, ?_⟩
  · show List.lookup _ (_ ++ [_]) = _
    rw [List.lookup_append, lookup_none.2 (vars_fresh m (charGroups charmap) (n := "KbdTables".toList) (by decide) (by decide))]
    rfl
  · rw [hfield]
    rfl
  · intro x hx
    rw [hfield]
    revert x
    decide +kernel
  · intro x hx
    simp only [List.mem_cons, List.not_mem_nil, or_false] at hx
    rcases hx with rfl | rfl | rfl | rfl | rfl | rfl <;> rw [hfield]
    · exact value_count (w := w) haus
    · exact value_flags (defs := (driverFile m charmap).defs) (vars := (driverFile m charmap).vars) (w := w)
    all_goals exact value_or (u := driverFile m charmap) (w := w) (by rw [cOr]; exact kbd_zero)

/-- **C123**: the texts of a key are in the table for as many texts, and the size given of its rows is that of a row: a byte
for the virtual key, one for the attributes and two for each character. -/
theorem C123_sizes (u : CUnit) (hu : cCompile w text = some u) (e : CharEntry) (he : e ∈ charmap) : ∃ len table,
    u.vars.lookup table = some (.arr (.named ("VK_TO_WCHARS".toList ++ natText e.2.2.length)) (some len)) ∧
    table = "aVkToWch".toList ++ natText e.2.2.length ∧
    u.value w [.word "sizeof".toList, .punct '(', .word table, .punct '[', .word ['0'], .punct ']', .punct ')'] = some (2 + 2 * e.2.2.length) := by
  obtain ⟨rfl, hst⟩ := compile_eq w printable order m hs charmap hkey text h hu
  obtain ⟨hsort, h2, h3⟩ := groupby_sorted (fun x : CharEntry => x.2.2.length) _ (insertionSort_sorted _ charmap)
  change ((charGroups charmap).map Prod.fst).Pairwise (· < ·) at hsort
  obtain ⟨g, hg, hgl⟩ := List.mem_map.1 ((h2 e.2.2.length).2 ⟨e, (List.mem_insertionSort _).2 he, rfl⟩)
  have hl : (driverFile m charmap).vars.lookup (wtableName e.2.2.length []) = some (.arr (.named (wcharsName e.2.2.length)) (some (g.2.length + 1))) := by
    show List.lookup _ (_ ++ [_]) = _
    rw [List.lookup_append, lookup_of_mem (vars_nodup hsort m) (v := .arr (.named (wcharsName e.2.2.length)) (some (g.2.length + 1)))]
    · rfl
    · refine List.mem_append_right _ (List.mem_append_left _ (List.mem_map.2 ⟨g, hg, ?_⟩))
      unfold tableVar
      rw [hgl]
  refine ⟨g.2.length + 1, wtableName e.2.2.length [], hl, by unfold wtableName; rw [List.append_nil], arith_sizeof ?_⟩
  unfold CUnit.sizeofFirst
  rw [hl]
  show (cLayout w driverTypes cDepth (.named (wcharsName e.2.2.length))).map Prod.fst = _
  rw [layout_wchars (hst e he).1.1 (hst e he).1.2]
  rfl

/-- **C123**: with 32 and with 64 bits all structures are as Windows expects them. -/
theorem C123_offsets (hw : w = 4 ∨ w = 8) (u : CUnit) (hu : cCompile w text = some u) : ∀ x ∈ kbdHeader w,
    cOffsets w u.types 7 x.1.toList = some (x.2.1.map fun y => (y.1.toList, y.2), x.2.2) := by
  obtain ⟨rfl, _⟩ := compile_eq w printable order m hs charmap hkey text h hu
  rcases hw with rfl | rfl
  · have : ∀ x ∈ kbdHeader 4, cOffsets 4 driverTypes 7 x.1.toList = some (x.2.1.map fun y => (y.1.toList, y.2), x.2.2) := by decide +kernel
    exact this
  · have : ∀ x ∈ kbdHeader 8, cOffsets 8 driverTypes 7 x.1.toList = some (x.2.1.map fun y => (y.1.toList, y.2), x.2.2) := by decide +kernel
    exact this

end

/-- The header says nothing. -/
theorem header_compile (w : Nat) {text : Text} {ts : List CTok} (ht : Closed text ts) :
    cCompile w ("/* This header was auto-generated by lulua. Do not modify directly. */\n\n".toList ++ text) = cCompile w text := by
  have h : Closed "/* This header was auto-generated by lulua. Do not modify directly. */\n\n".toList [] := by decide +kernel
  unfold cCompile
  rw [cTokens_closed (h.append ht), cTokens_closed ht, List.nil_append]

/-- **C123**: the file for a layout with one to eight layers, for which there is a driver, is accepted if there is no character
above U+FFFF in it. -/
theorem C123_layout (w : Nat) (printable : Char → Bool) (order : List Nat → List Nat) (m : Dict (List Nat) (List VkVal)) (hs : Scancodes m)
    (L : KeyboardLayout) (kb : PhysicalKeyboard) (h1 : 1 ≤ L.layers.length) (h8 : L.layers.length ≤ 8) (d : Driver)
    (hd : winKbd m L kb = .ok d) (hc : ∀ l ∈ L.layers, ∀ i c, l.layout.get? i = some (.str [c]) → c.toNat < 0x10000) :
    ∃ text u, winKbdSources printable order m L kb = .ok text ∧ cCompile w text = some u := by
  simp only [winKbd, bind_ok_iff, Except.ok.injEq] at hd
  obtain ⟨buttons, hb, entries, hen, wchars, hw, rfl⟩ := hd
  have hs' := scancodes_driver hs
  have hentry := entries_key hs' hen
  obtain ⟨text, h⟩ := (C123_works printable order (driverScancodes m) (entries.filterMap id)).2 ((C68_works _).1 ⟨wchars, hw⟩)
  obtain ⟨u, hu⟩ := (C123_compiles w printable order _ hs' _ (fun e he => (hentry e he).1) text h).2 (by
    intro e he
    obtain ⟨_, k1, k2, k3⟩ := hentry e he
    refine ⟨⟨k2 ▸ h1, k2 ▸ h8⟩, by rw [k1]; decide, ?_⟩
    intro c hcm
    obtain ⟨l, hl, i, hv⟩ := k3 _ hcm
    unfold toWindows at hv
    split at hv
    · cases hv
      decide
    · cases hg : l.layout.get? i with
      | none => rw [hg] at hv; cases hv
      | some v =>
        rw [hg, Option.getD_some] at hv
        exact hc l hl i c (hv ▸ hg))
  refine ⟨"/* This header was auto-generated by lulua. Do not modify directly. */\n\n".toList ++ text, u, ?_, ?_⟩
  · simp only [winKbdSources, bind_ok_iff, Except.ok.injEq]
    exact ⟨buttons, hb, entries, hen, text, h, rfl⟩
  · have hh := h
    simp only [driverSources, bind_ok_iff, Except.ok.injEq] at hh
    obtain ⟨body, hb, rfl⟩ := hh
    rw [header_compile w (join_closed (.cons typedefs_closed (.cons (driverText_closed C112_names hb) (.cons entrypoint_closed .nil))))]
    exact hu

/-- **C123**: the file for `ar-lulua` is accepted. -/
theorem C123_shipped (w : Nat) (printable : Char → Bool) (order : List Nat → List Nat) (t : InternTable) (kb : PhysicalKeyboard)
    (L : KeyboardLayout) (hl : loadFirst Data.arLulua = .ok (t, kb, L)) :
    ∃ text u, winKbdSources printable order Data.qwertyScancodeToVk L kb = .ok text ∧ cCompile w text = some u := by
  have hcheck : fitsShipped = .ok true := by decide +kernel
  simp only [fitsShipped, hl, bind_ok_iff, Except.ok.injEq, Bool.and_eq_true, decide_eq_true_eq] at hcheck
  obtain ⟨x, rfl, ⟨h1, h8⟩, hfit⟩ := hcheck
  dsimp only at h1 h8 hfit
  obtain ⟨d, hd, _⟩ := C79_shipped t kb L hl
  refine C123_layout w printable order _ scancodes_shipped.1 L kb h1 h8 d hd ?_
  intro l hl i c hg
  have := List.all_eq_true.1 (List.all_eq_true.1 hfit l hl) _ (Dict.mem_of_get? hg)
  simp only [decide_eq_true_eq] at this
  omega

/-- Scancodes for the cases below. -/
theorem one_scancode : Scancodes [([0x1e], [.key 0x41])] := by
  refine ⟨?_, ?_, ?_⟩ <;> intro x hx <;> rw [List.mem_singleton.1 hx]
  · decide +kernel
  · rfl
  · simp

/-- **C123** fails for a character above U+FFFF: the file is written, but its value does not fit. -/
theorem C123_false : ∃ text, driverSources (fun _ => true) id [([0x1e], [.key 0x41])] [(.key 0x41, 0, [.str [Char.ofNat 0x1F600]])] = .ok text ∧
    ∀ w, cCompile w text = none := by
  obtain ⟨text, h⟩ := (C123_works (fun _ => true) id [([0x1e], [.key 0x41])] [(.key 0x41, 0, [.str [Char.ofNat 0x1F600]])]).2 (by simp)
  refine ⟨text, h, fun w => ?_⟩
  have := C123_compiles w _ _ _ one_scancode _ (by decide +kernel) text h
  cases hc : cCompile w text with
  | none => rfl
  | some u =>
    have hst := (this.1 ⟨u, hc⟩ _ List.mem_cons_self).2.2 (Char.ofNat 0x1F600) (by simp)
    exact absurd hst (by decide)

/-- A key with two characters: accepted, with 32 and 64 bits. -/
example : ∃ text, driverSources (fun _ => true) id [([0x1e], [.key 0x41])] [(.key 0x41, 0, [.str ['a'], .str ['A']])] = .ok text ∧
    (∃ u, cCompile 4 text = some u) ∧ ∃ u, cCompile 8 text = some u := by
  obtain ⟨text, h⟩ := (C123_works (fun _ => true) id [([0x1e], [.key 0x41])] [(.key 0x41, 0, [.str ['a'], .str ['A']])]).2 (by simp)
  have hst : ∀ e ∈ [((.key 0x41, 0, [.str ['a'], .str ['A']]) : CharEntry)], Storable e := by
    intro e he
    rw [List.mem_singleton.1 he]
    refine ⟨by decide, by decide, fun c hc => ?_⟩
    simp only [List.mem_cons, LVal.str.injEq, List.cons.injEq, and_true, List.not_mem_nil, or_false] at hc
    rcases hc with rfl | rfl <;> decide
  exact ⟨text, h, (C123_compiles 4 _ _ _ one_scancode _ (by decide +kernel) text h).2 hst,
    (C123_compiles 8 _ _ _ one_scancode _ (by decide +kernel) text h).2 hst⟩

/-- What is not accepted: a value that is too large, a missing value, an unknown type, a pointer to something else, a table nobody uses. -/
example : (cCompile 8 "typedef struct { unsigned char a; unsigned short b; } T, *P;\nstatic T t = { 255, 0 };\nP f() { return &t; }".toList).isSome = true ∧
    cCompile 8 "typedef struct { unsigned char a; unsigned short b; } T, *P;\nstatic T t = { 256, 0 };\nP f() { return &t; }".toList = none ∧
    cCompile 8 "typedef struct { unsigned char a; unsigned short b; } T, *P;\nstatic T t = { 255 };\nP f() { return &t; }".toList = none ∧
    cCompile 8 "typedef struct { unsigned char a; unsigned short b; } T, *P;\nstatic U t = { 255, 0 };\nP f() { return &t; }".toList = none ∧
    cCompile 8 "typedef struct { unsigned char a; unsigned short b; } T, *P;\nstatic T t = { 255, 0 };\nT f() { return &t; }".toList = none ∧
    cCompile 8 "typedef struct { unsigned char a; unsigned short b; } T, *P;\nstatic T t = { 255, 0 };\n".toList = none := by
  refine ⟨by decide +kernel, ?_, ?_, ?_, ?_, ?_⟩ <;> rw [← Option.isNone_iff_eq_none] <;> decide +kernel

end Lulua.Props
