import Verif.Proofs.WinKbdProgram

/-!
# What the program says
-/

namespace Lulua
open Spec

/-! ### The whole text -/

/-- The macros. -/
def driverMacros : List (Text × Nat) :=
  Data.vkval.map (fun x => (vkCName Data.vkval (.key x.2), x.2)) ++
    (vkFlags.map (fun x => (vkCName Data.vkval (.flag x.2), x.2)) ++ [("WCHAR_NONE".toList, 0xF000)])

theorem splitOn_three {a b c : Text} (ha : ' ' ∉ a) (hb : ' ' ∉ b) (hc : ' ' ∉ c) :
    (a ++ ' ' :: (b ++ ' ' :: c)).splitOn ' ' = [a, b, c] := by
  have e : a ++ ' ' :: (b ++ ' ' :: c) = [' '].intercalate [a, b, c] := by simp [List.intercalate]
  rw [e]
  refine List.splitOn_intercalate _ ?_ (by simp)
  intro l hl
  simp only [List.mem_cons, List.not_mem_nil, or_false] at hl
  rcases hl with rfl | rfl | rfl
  · exact ha
  · exact hb
  · exact hc

theorem wordChar_space {c : Char} (h : wordChar c = true) : c ≠ ' ' := by
  rintro rfl
  revert h
  decide

theorem cDefine_line {pre : Text} {members : Dict String Nat} {x : Char} {r : Text} (hpre : pre = x :: r) (hx : x.isDigit = false)
    (hw : ∀ c ∈ pre, wordChar c = true) (hmem : ∀ n, ∀ c ∈ memberName members n, wordChar c = true) (n : Nat) :
    cDefine (defineLine pre members n) = some (pre ++ memberName members n, n) := by
  have e : defineLine pre members n = "define".toList ++ ' ' :: ((pre ++ memberName members n) ++ ' ' :: (('(' :: '0' :: 'x' :: (hexUpper 1 n ++ ['u'])) ++ [')'])) := by
    unfold defineLine
    rw [show "define ".toList = "define".toList ++ [' '] by decide]
    simp only [List.append_assoc, List.cons_append, List.nil_append]
  have hsp : ∀ c ∈ pre ++ memberName members n, wordChar c = true := fun c hc =>
    (List.mem_append.1 hc).elim (hw c) (hmem n c)
  unfold cDefine
  rw [e, splitOn_three (by decide) (fun h => wordChar_space (hsp _ h) rfl) (by
    simp only [List.mem_append, List.mem_cons, List.not_mem_nil, or_false, not_or]
    exact ⟨⟨by decide, by decide, by decide, fun h => wordChar_space (hexUpper_chars _ _ _ h).1 rfl, by decide⟩, by decide⟩)]
  simp only
  rw [if_pos, List.cons_append, List.tail_cons, List.dropLast_concat, cNumber_hex, hexUpper_value (by omega)]
  · rfl
  · refine ⟨trivial, List.all_eq_true.2 hsp, ?_, rfl, List.getLast?_concat⟩
    rw [hpre]
    simp [hx]

/-- The tokens of the macros. -/
def macroToks : List CTok :=
  (Data.vkval.map fun x => CTok.directive (defineLine "VIRTUALKEY_".toList Data.vkval x.2)) ++
    ((vkFlags.map fun x => CTok.directive (defineLine "VIRTUALKEYFLAG_".toList vkFlags x.2)) ++
      (wcharEnum.map fun x => CTok.directive (defineLine "WCHAR_".toList wcharEnum x.2)))

theorem member_words {members : Dict String Nat} (h : members.all (fun x => x.1.toList.all wordChar) = true) (n : Nat) :
    ∀ c ∈ memberName members n, wordChar c = true := by
  unfold memberName
  split
  · rename_i x hx
    exact List.all_eq_true.1 (List.all_eq_true.1 h x (List.mem_of_find?_eq_some hx))
  · exact (natText_word n).2

theorem mapM_defines {α : Type} {f : α → Text} {g : α → Text × Nat} : ∀ (xs : List α) (_ : ∀ x ∈ xs, cDefine (f x) = some (g x)),
    (xs.map f).mapM cDefine = some (xs.map g)
  | [], _ => rfl
  | x :: xs, h => by
    rw [List.map_cons, List.mapM_cons, h x List.mem_cons_self, mapM_defines xs fun y hy => h y (List.mem_cons_of_mem _ hy)]
    rfl

theorem filterMap_lines {α : Type} {f : α → Text} : ∀ xs : List α, (xs.map fun x => CTok.directive (f x)).filterMap CTok.line = xs.map f
  | [] => rfl
  | x :: xs => by
    rw [List.map_cons, List.filterMap_cons, filterMap_lines xs]
    rfl

theorem macros_read : (macroToks.filterMap CTok.line).mapM cDefine = some driverMacros := by
  have k : ∀ n, ∀ c ∈ memberName Data.vkval n, wordChar c = true := member_words (by decide +kernel)
  have f : ∀ n, ∀ c ∈ memberName vkFlags n, wordChar c = true := member_words (by decide +kernel)
  have w : ∀ n, ∀ c ∈ memberName wcharEnum n, wordChar c = true := member_words (by decide +kernel)
  unfold macroToks driverMacros
  rw [List.filterMap_append, List.filterMap_append, filterMap_lines, filterMap_lines, filterMap_lines, List.mapM_append, List.mapM_append,
    mapM_defines (g := fun x : String × Nat => (vkCName Data.vkval (.key x.2), x.2)) Data.vkval,
    mapM_defines (g := fun x : String × Nat => (vkCName Data.vkval (.flag x.2), x.2)) vkFlags,
    mapM_defines (g := fun x : String × Nat => ("WCHAR_".toList ++ memberName wcharEnum x.2, x.2)) wcharEnum]
  · have : wcharEnum.map (fun x : String × Nat => ("WCHAR_".toList ++ memberName wcharEnum x.2, x.2)) = [("WCHAR_NONE".toList, 0xF000)] := by decide +kernel
    rw [this]
    rfl
  · exact fun x _ => cDefine_line (x := 'W') (r := "CHAR_".toList) (by decide) (by decide) (by decide) w x.2
  · exact fun x _ => cDefine_line (x := 'V') (r := "IRTUALKEYFLAG_".toList) (by decide) (by decide) (by decide) f x.2
  · exact fun x _ => cDefine_line (x := 'V') (r := "IRTUALKEY_".toList) (by decide) (by decide) (by decide) k x.2

theorem macroToks_line : ∀ t ∈ macroToks, t.line.isSome = true := by
  intro t ht
  unfold macroToks at ht
  simp only [List.mem_append, List.mem_map] at ht
  rcases ht with ⟨x, _, rfl⟩ | ⟨x, _, rfl⟩ | ⟨x, _, rfl⟩ <;> rfl

/-- The definitions of the driver but for those of the characters, and their tokens. -/
def driverParts (m : Dict (List Nat) (List VkVal)) (names : Dict (List Nat) String) : List (List CTok) :=
  [ausPart (vkCName Data.vkval) m, vscPart (vkCName Data.vkval) "aE0VscToVk".toList ((vscToVk m 0xe0).filterMap id),
    vscPart (vkCName Data.vkval) "aE1VscToVk".toList ((vscToVk m 0xe1).filterMap id),
    namesPart "aKeyNames".toList ((keyNames names).filterMap id), namesPart "aKeyNamesExt".toList ((keyNamesExt names).filterMap id),
    bitsPart (vkCName Data.vkval), modsPart ((List.range 25).map modNumber)]

def driverDefs (m : Dict (List Nat) (List VkVal)) (names : Dict (List Nat) String) : List CDef :=
  [ausDef (vkCName Data.vkval) m, vscDef (vkCName Data.vkval) "aE0VscToVk".toList ((vscToVk m 0xe0).filterMap id),
    vscDef (vkCName Data.vkval) "aE1VscToVk".toList ((vscToVk m 0xe1).filterMap id),
    namesDef "aKeyNames".toList ((keyNames names).filterMap id), namesDef "aKeyNamesExt".toList ((keyNamesExt names).filterMap id),
    bitsDef (vkCName Data.vkval), modsDef ((List.range 25).map modNumber)]

theorem driverParts_semi (m : Dict (List Nat) (List VkVal)) (names : Dict (List Nat) String) : ∀ p ∈ driverParts m names, CTok.punct ';' ∉ p := by
  intro p hp
  simp only [driverParts, List.mem_cons, List.not_mem_nil, or_false] at hp
  rcases hp with rfl | rfl | rfl | rfl | rfl | rfl | rfl
  · exact ausPart_semi _ _
  · exact vscPart_semi _ _ _
  · exact vscPart_semi _ _ _
  · exact namesPart_semi _ _
  · exact namesPart_semi _ _
  · exact bitsPart_semi _
  · exact modsPart_semi _

theorem vscToVk_mem {ν : Type} {m : Dict (List Nat) ν} {escape : Nat} {x : Nat × ν} (h : x ∈ (vscToVk m escape).filterMap id) :
    ∃ k, (k, x.2) ∈ m ∧ k = [escape, x.1] := by
  unfold vscToVk at h
  rw [List.filterMap_map, List.mem_filterMap] at h
  obtain ⟨y, hy, he⟩ := h
  simp only [Function.comp_apply, id_eq, Option.some.injEq] at he
  subst he
  obtain ⟨h1, h2⟩ := List.mem_filter.1 ((List.mem_insertionSort _).1 hy)
  refine ⟨y.1, h1, ?_⟩
  match hk : y.1, h2 with
  | [a, b], h2 => simpa [hk] using h2
  | [], h2 => simp at h2
  | [a], h2 => simp at h2
  | a :: b :: c :: l, h2 => simp at h2

theorem driverParts_defs {m : Dict (List Nat) (List VkVal)} (hne : ∀ x ∈ m, x.2 ≠ []) (names : Dict (List Nat) String) :
    (driverParts m names).mapM cDef = some (driverDefs m names) := by
  have hv : ∀ e, ∀ x ∈ (vscToVk m e).filterMap id, x.2 ≠ [] := by
    intro e x hx
    obtain ⟨k, hk, _⟩ := vscToVk_mem hx
    exact hne _ hk
  have ha : ∀ v ∈ ausVK m, v ≠ [] := by
    intro v hv
    obtain ⟨i, _, rfl⟩ := List.mem_map.1 hv
    cases h : m.get? [i] with
    | none => simp
    | some w => exact hne _ (Dict.mem_of_get? h)
  unfold driverParts driverDefs
  simp only [List.mapM_cons, List.mapM_nil, cDef_aus _ ha, cDef_vsc _ _ (hv 0xe0), cDef_vsc _ _ (hv 0xe1), cDef_names, cDef_bits, cDef_mods]
  rfl

theorem cInit_word {ts : List CTok} {d : CDef} (h : cDef ts = some d) : ∃ w r, ts = .word w :: r := by
  unfold cDef at h
  split at h
  · exact ⟨_, _, rfl⟩
  · exact ⟨_, _, rfl⟩
  · exact ⟨_, _, rfl⟩
  · cases h

theorem parts_head {ps : List (List CTok)} {ds : List CDef} (h : ps.mapM cDef = some ds) (hne : ps ≠ []) :
    ∃ w r, (ps.map fun p => p ++ [CTok.punct ';']).flatten = .word w :: r := by
  cases ps with
  | nil => exact absurd rfl hne
  | cons p ps =>
    rw [List.mapM_cons] at h
    cases hp : cDef p with
    | none => rw [hp] at h; cases h
    | some d =>
      obtain ⟨w, r, rfl⟩ := cInit_word hp
      exact ⟨w, _, rfl⟩

theorem driver_names {groups : List (Nat × List CharEntry)} (hs : (groups.map Prod.fst).Pairwise (· < ·)) (m : Dict (List Nat) (List VkVal))
    (names : Dict (List Nat) String) : ((driverDefs m names ++ charDefs (vkCName Data.vkval) groups).map CDef.name).Nodup := by
  rw [List.map_append, charDefs_names, List.nodup_append]
  have e : (driverDefs m names).map CDef.name = ["ausVK".toList, "aE0VscToVk".toList, "aE1VscToVk".toList, "aKeyNames".toList, "aKeyNamesExt".toList,
    "aVkToBits".toList, "CharModifiers".toList] := rfl
  refine ⟨by rw [e]; decide +kernel, tableNames_nodup hs, ?_⟩
  have h1 : ∀ a ∈ (driverDefs m names).map CDef.name, a.take 8 ≠ "aVkToWch".toList := by rw [e]; decide +kernel
  have h2 : ∀ b ∈ ((groups.map Prod.fst).map fun n => wtableName n []) ++ [wtableName 1 "Num".toList, "aVkToWcharTable".toList],
      b.take 8 = "aVkToWch".toList := by
    have h0 : ∀ r : Text, ("aVkToWch".toList ++ r).take 8 = "aVkToWch".toList := fun r => by
      rw [List.take_append_of_le_length (by decide)]
      decide
    intro b hb
    rcases List.mem_append.1 hb with hb | hb
    · obtain ⟨n, _, rfl⟩ := List.mem_map.1 hb
      unfold wtableName
      rw [List.append_assoc]
      exact h0 _
    · simp only [List.mem_cons, List.not_mem_nil, or_false] at hb
      rcases hb with rfl | rfl
      · unfold wtableName
        rw [List.append_assoc]
        exact h0 _
      · decide
  intro a ha b hb hab
  subst hab
  exact h1 a ha (h2 a hb)

theorem head_append {a r : Text} {c : Char} (h : a = c :: r) (b : Text) : (a ++ b).head? = some c := by
  subst h
  rfl

theorem macros_consistent (hn : CNames (vkCName Data.vkval)) : ∀ a ∈ driverMacros, ∀ b ∈ driverMacros, a.1 = b.1 → a.2 = b.2 := by
  have hc : ∀ a ∈ driverMacros, (∃ v, a = (vkCName Data.vkval v, vkNumber v)) ∨ a = ("WCHAR_NONE".toList, 0xF000) := by
    intro a ha
    unfold driverMacros at ha
    simp only [List.mem_append, List.mem_map, List.mem_singleton] at ha
    rcases ha with ⟨x, _, rfl⟩ | ⟨x, _, rfl⟩ | rfl
    · exact .inl ⟨.key x.2, rfl⟩
    · exact .inl ⟨.flag x.2, rfl⟩
    · exact .inr rfl
  have hw : ∀ v, vkCName Data.vkval v ≠ "WCHAR_NONE".toList := by
    have hh : ∀ v, (vkCName Data.vkval v).head? = some 'V' := by
      intro v
      cases v with
      | key n => exact head_append (r := "IRTUALKEY_".toList) (by decide) _
      | flag n => exact head_append (r := "IRTUALKEYFLAG_".toList) (by decide) _
    intro v h
    have := hh v
    rw [h] at this
    revert this
    decide
  intro a ha b hb hab
  rcases hc a ha with ⟨v, rfl⟩ | rfl <;> rcases hc b hb with ⟨w, rfl⟩ | rfl
  · rw [hn.inj v w hab]
  · exact absurd hab (hw v)
  · exact absurd hab.symm (hw w)
  · rfl

/-- The program the text is. -/
def driverProgram (m : Dict (List Nat) (List VkVal)) (charmap : List CharEntry) : CProgram :=
  ⟨driverMacros, driverDefs m Data.qwertyScancodeToName ++ charDefs (vkCName Data.vkval) (charGroups charmap)⟩

theorem names_plain : ∀ x ∈ Data.qwertyScancodeToName, ∀ c ∈ x.2.toList, c ≠ '"' ∧ c ≠ '\\' ∧ c ≠ '\n' := by
  have h : Data.qwertyScancodeToName.all (fun x => x.2.toList.all fun c => c ≠ '"' && c ≠ '\\' && c ≠ '\n') = true := by decide +kernel
  intro x hx c hc
  have := List.all_eq_true.1 (List.all_eq_true.1 h x hx) c hc
  simpa [and_assoc] using this

theorem driverText_closed (hn : CNames (vkCName Data.vkval)) {printable : Char → Bool} {order : List Nat → List Nat}
    {m : Dict (List Nat) (List VkVal)} {charmap : List CharEntry} {text : Text} (h : driverText printable order m charmap = .ok text) :
    Closed text (macroToks ++ ((driverParts m Data.qwertyScancodeToName ++ charParts (vkCName Data.vkval) (charGroups charmap)).map
      fun p => p ++ [CTok.punct ';']).flatten) := by
  simp only [driverText, bind_ok_iff, Except.ok.injEq] at h
  obtain ⟨chars, hc, rfl⟩ := h
  have h1 : Closed (enumDefines "VirtualKey".toList "VIRTUALKEY_".toList Data.vkval) _ :=
    enumDefines_closed (by decide) (by decide) (member_words (by decide +kernel))
  have h2 : Closed (enumDefines "VirtualKeyFlag".toList "VIRTUALKEYFLAG_".toList vkFlags) _ :=
    enumDefines_closed (by decide) (by decide) (member_words (by decide +kernel))
  have h3 : Closed (enumDefines "WChar".toList "WCHAR_".toList wcharEnum) _ :=
    enumDefines_closed (by decide) (by decide) (member_words (by decide +kernel))
  have hj := join_closed (.cons h1 (.cons h2 (.cons h3 (.cons (tables_closed hn.word m) (.cons (names_closed names_plain)
    (.cons (bits_closed hn.word) (.cons (mods_closed hn.word order) (.cons (vkToWchar_closed hn hc) .nil))))))))
  refine hj.cast ?_
  unfold macroToks driverParts
  simp only [List.flatten_cons, List.flatten_nil, List.append_nil, List.map_append, List.flatten_append, List.map_cons, List.map_nil, List.append_assoc]

theorem cProgram_read {t : Text} {D rest r : List CTok} {w : Text} {macros : List (Text × Nat)} {defs : List CDef}
    (h : cTokens t = some (D ++ rest)) (hD : ∀ x ∈ D, x.line.isSome = true) (hr : rest = .word w :: r)
    (hm : (D.filterMap CTok.line).mapM cDefine = some macros) (hd : cDefs rest = some defs)
    (hc : ∀ a ∈ macros, ∀ b ∈ macros, a.1 = b.1 → a.2 = b.2) : cProgram t = some ⟨macros, defs⟩ := by
  subst hr
  have ht : (D ++ CTok.word w :: r).takeWhile (fun x => x.line.isSome) = D := by
    rw [List.takeWhile_append_of_pos hD]
    simp [CTok.line]
  have hdr : (D ++ CTok.word w :: r).dropWhile (fun x => x.line.isSome) = CTok.word w :: r := by
    rw [List.dropWhile_append_of_pos hD]
    simp [CTok.line]
  unfold cProgram
  simp only [h, Option.bind_eq_bind, Option.bind_some, ht, hdr, hm, hd]
  rw [if_pos hc]

theorem driverText_program (hn : CNames (vkCName Data.vkval)) {printable : Char → Bool} {order : List Nat → List Nat}
    {m : Dict (List Nat) (List VkVal)} (hne : ∀ x ∈ m, x.2 ≠ []) {charmap : List CharEntry} {text : Text}
    (h : driverText printable order m charmap = .ok text) : cProgram text = some (driverProgram m charmap) := by
  have hs := (groupby_sorted (fun x : CharEntry => x.2.2.length) _ (insertionSort_sorted _ charmap)).1
  have hnd := driver_names (groups := charGroups charmap) hs m Data.qwertyScancodeToName
  have hm : (driverParts m Data.qwertyScancodeToName ++ charParts (vkCName Data.vkval) (charGroups charmap)).mapM cDef =
      some (driverDefs m Data.qwertyScancodeToName ++ charDefs (vkCName Data.vkval) (charGroups charmap)) := by
    rw [List.mapM_append, driverParts_defs hne, charParts_defs]
    rfl
  have hsemi : ∀ p ∈ driverParts m Data.qwertyScancodeToName ++ charParts (vkCName Data.vkval) (charGroups charmap), CTok.punct ';' ∉ p := by
    intro p hp
    rcases List.mem_append.1 hp with hp | hp
    · exact driverParts_semi _ _ p hp
    · exact charParts_semi _ _ p hp
  obtain ⟨w, r, hw⟩ := parts_head hm (by simp [driverParts])
  have hd := cDefs_parts hsemi hm hnd
  exact cProgram_read (cTokens_closed (driverText_closed hn h)) macroToks_line hw macros_read hd (macros_consistent hn)

/-! ### Values -/

theorem macro_member {v : VkVal} (h : Member v) : (vkCName Data.vkval v, vkNumber v) ∈ driverMacros := by
  unfold driverMacros
  cases v with
  | key n =>
    obtain ⟨x, hx, rfl⟩ := List.mem_map.1 h
    exact List.mem_append_left _ (List.mem_map.2 ⟨x, hx, rfl⟩)
  | flag n =>
    obtain ⟨x, hx, rfl⟩ := List.mem_map.1 h
    exact List.mem_append_right _ (List.mem_append_left _ (List.mem_map.2 ⟨x, hx, rfl⟩))

theorem cWord_macro (hn : CNames (vkCName Data.vkval)) {w : Text} {n : Nat} (h : (w, n) ∈ driverMacros) : cWord driverMacros w = some n := by
  unfold cWord
  cases hf : driverMacros.find? fun x => x.1 = w with
  | none => exact absurd (List.find?_eq_none.1 hf _ h) (by simp)
  | some x =>
    have h1 := List.find?_some hf
    simp only [decide_eq_true_eq] at h1
    simp only [macros_consistent hn x (List.mem_of_find?_eq_some hf) (w, n) h h1]

theorem cWord_member (hn : CNames (vkCName Data.vkval)) {v : VkVal} (h : Member v) :
    cWord driverMacros (vkCName Data.vkval v) = some (vkNumber v) := cWord_macro hn (macro_member h)

theorem cWord_digit {w : Text} {c : Char} {r : Text} (hw : w = c :: r) (hc : c.isDigit = true) : cWord driverMacros w = cNumber w := by
  have hm : ∀ a ∈ driverMacros, a.1.head? ≠ some c := by
    have : ∀ a ∈ driverMacros, a.1.head? = some 'V' ∨ a.1.head? = some 'W' := by
      intro a ha
      unfold driverMacros at ha
      simp only [List.mem_append, List.mem_map, List.mem_singleton] at ha
      rcases ha with ⟨x, _, rfl⟩ | ⟨x, _, rfl⟩ | rfl
      · left; exact head_append (r := "IRTUALKEY_".toList) (by decide) _
      · left; exact head_append (r := "IRTUALKEYFLAG_".toList) (by decide) _
      · right; decide
    intro a ha h
    rcases this a ha with h' | h' <;> rw [h', Option.some.injEq] at h <;> subst h <;> revert hc <;> decide
  unfold cWord
  cases hf : driverMacros.find? fun x => x.1 = w with
  | none => rfl
  | some x =>
    have h1 := List.find?_some hf
    simp only [decide_eq_true_eq] at h1
    exact absurd (by rw [h1, hw]; rfl) (hm x (List.mem_of_find?_eq_some hf))

theorem cWord_hex {w : Nat} (hw : 1 ≤ w) (n : Nat) : cWord driverMacros (hexWord w n) = some n := by
  have h : cWord driverMacros (hexWord w n) = cNumber (hexWord w n) := cWord_digit (c := '0') (r := 'x' :: hexLower w n) rfl (by decide)
  rw [h, cNumber_hexWord hw]

theorem orAll_cons (a : Nat) (l : List Nat) : orAll (a :: l) = a ||| orAll l := by
  have : ∀ (l : List Nat) (x : Nat), l.foldl (fun a b => a ||| b) x = x ||| l.foldl (fun a b => a ||| b) 0 := by
    intro l
    induction l with
    | nil => intro x; simp
    | cons b l ih =>
      intro x
      rw [List.foldl_cons, List.foldl_cons, ih (x ||| b), ih (0 ||| b), Nat.zero_or, Nat.or_assoc]
  unfold orAll
  rw [List.foldl_cons, this, Nat.zero_or]

theorem cOr_names (hn : CNames (vkCName Data.vkval)) : ∀ {v : List VkVal}, v ≠ [] → (∀ x ∈ v, Member x) →
    cOr driverMacros (orToks (vkCName Data.vkval) v) = some (orAll (v.map vkNumber))
  | [x], _, h => by
    show cWord driverMacros (vkCName Data.vkval x) = _
    rw [cWord_member hn (h x (by simp))]
    simp [orAll]
  | x :: y :: v, _, h => by
    have ih := cOr_names hn (v := y :: v) (by simp) fun z hz => h z (List.mem_cons_of_mem _ hz)
    have e : orToks (vkCName Data.vkval) (x :: y :: v) = .word (vkCName Data.vkval x) :: .punct '|' :: orToks (vkCName Data.vkval) (y :: v) := rfl
    rw [e, cOr, cWord_member hn (h x (by simp)), ih]
    · simp only [Option.bind_eq_bind, Option.bind_some, List.map_cons, orAll_cons]
    

end Lulua
