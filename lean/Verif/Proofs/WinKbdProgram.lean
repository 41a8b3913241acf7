import Verif.Proofs.WinKbdTables

/-!
# The text of the driver as a program
-/

namespace Lulua
open Spec

theorem forall₂_map_same {α : Type} {f : α → Text} {g : α → List CTok} (xs : List α) (h : ∀ x ∈ xs, Closed (f x) (g x)) :
    List.Forall₂ Closed (xs.map f) (xs.map g) := by
  rw [List.forall₂_map_left_iff, List.forall₂_map_right_iff]
  exact List.forall₂_same.2 h

theorem closed_append {a b : List Text} {x y : List (List CTok)} (ha : List.Forall₂ Closed a x) (hb : List.Forall₂ Closed b y) :
    List.Forall₂ Closed (a ++ b) (x ++ y) := List.rel_append ha hb

theorem Closed.cast {t : Text} {ts ts' : List CTok} (h : Closed t ts) (e : ts = ts') : Closed t ts' := e ▸ h

/-! ### Macros -/

/-- The line of the macro of a member, after `#`. -/
def defineLine (pre : Text) (members : Dict String Nat) (n : Nat) : Text :=
  "define ".toList ++ (pre ++ memberName members n ++ (' ' :: ('(' :: '0' :: 'x' :: (hexUpper 1 n ++ ['u'])) ++ [')']))

theorem cRun_dir : ∀ (t acc : Text), '\n' ∉ t → cRun (.dir acc) t = (.dir (t.reverse ++ acc), [])
  | [], _, _ => rfl
  | c :: t, acc, h => by
    have hc : c ≠ '\n' := fun he => h (he ▸ List.mem_cons_self)
    simp only [cRun, cStep, if_neg hc, cRun_dir t _ fun hm => h (List.mem_cons_of_mem _ hm), List.append_nil,
      List.reverse_cons, List.append_assoc, List.singleton_append]

theorem directive_closed {t : Text} (h : '\n' ∉ t) : Closed ('#' :: t ++ ['\n']) [.directive t] := by
  unfold Closed
  rw [List.cons_append]
  have : ∀ r, cRun .start ('#' :: r) = cRun (.dir []) r := fun _ => rfl
  rw [this, cRun_append, cRun_dir _ _ h, List.append_nil]
  have := List.reverse_reverse t
  simp only [cRun, cStep, if_true, this, List.append_nil, List.nil_append]

theorem intercalate_lines (ls : List Text) : ['\n'].intercalate (ls ++ [[]]) = (ls.map fun l => l ++ ['\n']).flatten := by
  induction ls with
  | nil => rfl
  | cons l ls ih =>
    rw [List.map_cons, List.flatten_cons, ← ih]
    cases ls <;> simp [List.intercalate]

theorem flatten_closed {α : Type} {f : α → Text} {g : α → List CTok} : ∀ (xs : List α) (_ : ∀ x ∈ xs, Closed (f x) (g x)),
    Closed (xs.map f).flatten (xs.map g).flatten
  | [], _ => rfl
  | x :: xs, h => by
    rw [List.map_cons, List.map_cons, List.flatten_cons, List.flatten_cons]
    exact (h x List.mem_cons_self).append (flatten_closed xs fun y hy => h y (List.mem_cons_of_mem _ hy))

theorem wordChar_newline {c : Char} (h : wordChar c = true) : c ≠ '\n' := by
  rintro rfl
  revert h
  decide

theorem map_singletons {α β : Type} (g : α → β) (xs : List α) : (xs.map fun x => [g x]).flatten = xs.map g := by
  induction xs with
  | nil => rfl
  | cons x xs ih => rw [List.map_cons, List.flatten_cons, ih, List.map_cons]; rfl

theorem enumDefines_closed {name pre : Text} {members : Dict String Nat} (hname : '*' ∉ name) (hpre : ∀ c ∈ pre, wordChar c = true)
    (hmem : ∀ n, ∀ c ∈ memberName members n, wordChar c = true) :
    Closed (enumDefines name pre members) (members.map fun x => CTok.directive (defineLine pre members x.2)) := by
  have hline : ∀ x ∈ members, Closed ("#define ".toList ++ pre ++ memberName members x.2 ++ " (0x".toList ++ hexUpper 1 x.2 ++ "u)".toList ++ ['\n'])
      [.directive (defineLine pre members x.2)] := by
    intro x _
    have e : "#define ".toList ++ pre ++ memberName members x.2 ++ " (0x".toList ++ hexUpper 1 x.2 ++ "u)".toList ++ ['\n'] =
        '#' :: defineLine pre members x.2 ++ ['\n'] := by
      rw [show "#define ".toList = '#' :: "define ".toList by decide, show " (0x".toList = [' ', '(', '0', 'x'] by decide,
        show "u)".toList = ['u', ')'] by decide]
      unfold defineLine
      generalize "define ".toList = w
      simp only [List.append_assoc, List.cons_append, List.nil_append]
    rw [e]
    refine directive_closed ?_
    unfold defineLine
    simp only [List.mem_append, List.mem_cons, List.not_mem_nil, not_or, or_false]
    refine ⟨by decide, ⟨fun h => wordChar_newline (hpre _ h) rfl, fun h => wordChar_newline (hmem _ _ h) rfl⟩, ⟨by decide, by decide, by decide, by decide, ?_, by decide⟩, by decide⟩
    exact fun h => wordChar_newline (hexUpper_chars _ _ _ h).1 rfl
  have hc := flatten_closed members hline
  have h0 : Closed ("/* ".toList ++ name ++ " */".toList ++ ['\n']) [] := by
    rw [List.append_assoc _ " */".toList]
    exact remark_closed (by decide +kernel) hname (by decide +kernel)
  have := h0.append hc
  unfold enumDefines
  rw [intercalate_lines, List.map_append, List.flatten_append, List.map_map]
  simp only [List.nil_append, List.map_cons, List.map_nil, List.flatten_cons, List.flatten_nil, List.append_nil] at this ⊢
  have e : (members.map fun x => [CTok.directive (defineLine pre members x.2)]).flatten =
      members.map fun x => CTok.directive (defineLine pre members x.2) := by
    exact map_singletons _ _
  rw [e] at this
  exact this

/-! ### Tables -/

theorem tables_closed {vkName : VkVal → Text} (hn : ∀ v, IsWord (vkName v)) (m : Dict (List Nat) (List VkVal)) :
    Closed (scancodeToVkTables vkName m) (([ausPart vkName m, vscPart vkName "aE0VscToVk".toList ((vscToVk m 0xe0).filterMap id),
      vscPart vkName "aE1VscToVk".toList ((vscToVk m 0xe1).filterMap id)].map fun p => p ++ [CTok.punct ';']).flatten) := by
  have hend : Closed "\t};\n".toList [.punct '}', .punct ';'] := by decide +kernel
  have h1 : List.Forall₂ Closed (["/* mappings from scancode to virtual key */".toList, "/* non-prefixed scancodes */".toList,
      "static unsigned short ausVK[] = {".toList] ++
      (List.range (0x7f + 1)).map (fun i => ausVKLine vkName i ((m.get? [i]).getD [vkNull])) ++ ["\t};\n".toList])
      ([[], [], [.word "static".toList, .word "unsigned".toList, .word "short".toList, .word "ausVK".toList, .punct '[', .punct ']', .punct '=', .punct '{']] ++
        (List.range (0x7f + 1)).map (fun i => orToks vkName ((m.get? [i]).getD [vkNull]) ++ [.punct ',']) ++ [[.punct '}', .punct ';']]) :=
    closed_append (closed_append (.cons (by decide +kernel) (.cons (by decide +kernel) (.cons (by decide +kernel) .nil)))
      (forall₂_map_same _ fun i _ => ausVKLine_closed hn i _)) (.cons hend .nil)
  have h2 : ∀ (escape : Nat) (name : Text), Closed ("/* scancodes prefixed by ".toList ++ hexUpper 1 escape ++ " */".toList) [] →
      Closed ("static VSC_VK a".toList ++ hexUpper 1 escape ++ "VscToVk[] = {".toList) (arrayHead "VSC_VK".toList name) →
      List.Forall₂ Closed (vscLines vkName m escape) ([[], arrayHead "VSC_VK".toList name] ++
        ((vscToVk m escape).filterMap id).map (fun x => pairToks [.word (hexWord 1 x.1)] (orToks vkName x.2) ++ [.punct ',']) ++
        [[.punct '}', .punct ';']]) := by
    intro escape name ha hb
    exact closed_append (closed_append (.cons ha (.cons hb .nil)) (forall₂_map_same _ fun x _ => vscLine_closed hn x)) (.cons hend .nil)
  have h3 := h2 0xe0 "aE0VscToVk".toList (by decide +kernel) (by decide +kernel)
  have h4 := h2 0xe1 "aE1VscToVk".toList (by decide +kernel) (by decide +kernel)
  have hc := join_closed (closed_append (closed_append h1 h3) h4)
  unfold scancodeToVkTables
  refine hc.cast ?_
  unfold ausPart vscPart ausVK
  simp only [List.map_map, Function.comp_def, List.flatten_append, List.flatten_cons, List.flatten_nil, List.map_cons, List.map_nil,
    List.append_nil, List.nil_append, List.append_assoc, List.cons_append]

theorem names_closed {m : Dict (List Nat) String} (h : ∀ x ∈ m, ∀ c ∈ x.2.toList, c ≠ '"' ∧ c ≠ '\\' ∧ c ≠ '\n') :
    Closed (scancodeToName m) (([namesPart "aKeyNames".toList ((keyNames m).filterMap id),
      namesPart "aKeyNamesExt".toList ((keyNamesExt m).filterMap id)].map fun p => p ++ [CTok.punct ';']).flatten) := by
  have hmem : ∀ (f : List Nat × String → Bool) (g : List Nat × String → Nat) (x : Nat × String),
      x ∈ (((sortedByKey (m.filter f)).map fun x => some (g x, x.2)) ++ [none]).filterMap id → ∀ c ∈ x.2.toList, c ≠ '"' ∧ c ≠ '\\' ∧ c ≠ '\n' := by
    intro f g x hx
    rw [List.mem_filterMap] at hx
    obtain ⟨o, ho, rfl⟩ := hx
    rcases List.mem_append.1 ho with ho | ho
    · obtain ⟨y, hy, he⟩ := List.mem_map.1 ho
      cases he
      exact h y (List.mem_filter.1 ((List.mem_insertionSort _).1 hy)).1
    · simp at ho
  have hnull : Closed "\t{0x00, NULL},".toList (pairToks [.word "0x00".toList] [.word "NULL".toList] ++ [.punct ',']) := by decide +kernel
  have h1 : ∀ (head : Text) (name : Text) (rows : List (Nat × String)), Closed head [] → ∀ line, Closed line (arrayHead "VSC_LPWSTR".toList name) →
      (∀ x ∈ rows, ∀ c ∈ x.2.toList, c ≠ '"' ∧ c ≠ '\\' ∧ c ≠ '\n') →
      List.Forall₂ Closed ([head, line] ++ rows.map nameLine ++ ["\t{0x00, NULL},".toList, "};".toList, []])
        ([[], arrayHead "VSC_LPWSTR".toList name] ++
          rows.map (fun x => pairToks [.word (hexWord 2 x.1)] [.word ['L'], .str x.2.toList] ++ [.punct ',']) ++
          [pairToks [.word "0x00".toList] [.word "NULL".toList] ++ [.punct ','], [.punct '}', .punct ';'], []]) := by
    intro head name rows ha line hb hr
    exact closed_append (closed_append (.cons ha (.cons hb .nil)) (forall₂_map_same _ fun x hx => nameLine_closed (hr x hx)))
      (.cons hnull (.cons (by decide +kernel) (.cons (by decide +kernel) .nil)))
  have h2 := h1 "/* Virtual scancode to key name */".toList "aKeyNames".toList ((keyNames m).filterMap id) (by decide +kernel)
    "static VSC_LPWSTR aKeyNames[] = {".toList (by decide +kernel) (hmem _ _)
  have h3 := h1 "/* Virtual scan code (E0 prefixed) to key name */".toList "aKeyNamesExt".toList ((keyNamesExt m).filterMap id) (by decide +kernel)
    "static VSC_LPWSTR aKeyNamesExt[] = {".toList (by decide +kernel) (hmem _ _)
  have hc := join_closed (closed_append h2 h3)
  have e : scancodeToName m = ['\n'].intercalate ((["/* Virtual scancode to key name */".toList, "static VSC_LPWSTR aKeyNames[] = {".toList] ++
    ((keyNames m).filterMap id).map nameLine ++ ["\t{0x00, NULL},".toList, "};".toList, []]) ++
    (["/* Virtual scan code (E0 prefixed) to key name */".toList, "static VSC_LPWSTR aKeyNamesExt[] = {".toList] ++
    ((keyNamesExt m).filterMap id).map nameLine ++ ["\t{0x00, NULL},".toList, "};".toList, []])) := by
    unfold scancodeToName
    simp only [List.append_assoc]
  rw [e]
  refine hc.cast ?_
  unfold namesPart
  simp only [List.flatten_append, List.flatten_cons, List.flatten_nil, List.map_cons, List.map_nil,
    List.append_nil, List.nil_append, List.append_assoc, List.cons_append]

theorem bits_closed {vkName : VkVal → Text} (hn : ∀ v, IsWord (vkName v)) : Closed (vkToBitsText vkName) (bitsPart vkName ++ [.punct ';']) := by
  have hrow : ∀ x : Nat × Nat, Closed ("\t{".toList ++ vkName (.key x.1) ++ ", 0x".toList ++ hexLower 1 x.2 ++ "},".toList)
      (pairToks [.word (vkName (.key x.1))] [.word (hexWord 1 x.2)] ++ [.punct ',']) := by
    intro x
    have h1 : Closed "\t{".toList [.punct '{'] := by decide +kernel
    have h2 : Closed ", ".toList [.punct ','] := by decide +kernel
    have h3 : Closed "},".toList [.punct '}', .punct ','] := by decide +kernel
    have h4 := (hexWord_word 1 x.2).toks.close h3 (c := '}') (r := ",".toList) rfl (by decide +kernel)
    have h5 := (hn (.key x.1)).toks.close (h2.append h4) (c := ',') (r := ' ' :: (hexWord 1 x.2 ++ "},".toList)) rfl (by decide +kernel)
    have := h1.append h5
    have e : "\t{".toList ++ vkName (.key x.1) ++ ", 0x".toList ++ hexLower 1 x.2 ++ "},".toList =
        "\t{".toList ++ (vkName (.key x.1) ++ (", ".toList ++ (hexWord 1 x.2 ++ "},".toList))) := by
      rw [show ", 0x".toList = ", ".toList ++ ['0', 'x'] by decide]
      unfold hexWord
      simp only [List.append_assoc, List.cons_append, List.nil_append]
    rw [e]
    have e2 : [CTok.punct '{'] ++ ([.word (vkName (.key x.1))] ++ ([.punct ','] ++ ([.word (hexWord 1 x.2)] ++ [.punct '}', .punct ',']))) =
        pairToks [.word (vkName (.key x.1))] [.word (hexWord 1 x.2)] ++ [.punct ','] := by simp [pairToks]
    rw [← e2]
    exact this
  have h : List.Forall₂ Closed (["/* maps virtual keys (first value) to shift bitfield value (second value) */".toList,
      "static VK_TO_BIT aVkToBits[] = {".toList] ++
      vkToBitsTable.map (fun x => "\t{".toList ++ vkName (.key x.1) ++ ", 0x".toList ++ hexLower 1 x.2 ++ "},".toList) ++
      ["\t{0, 0x0}".toList, "\t};\n".toList])
      ([[], arrayHead "VK_TO_BIT".toList "aVkToBits".toList] ++
        vkToBitsTable.map (fun x => pairToks [.word (vkName (.key x.1))] [.word (hexWord 1 x.2)] ++ [.punct ',']) ++
        [pairToks [.word ['0']] [.word "0x0".toList], [.punct '}', .punct ';']]) :=
    closed_append (closed_append (.cons (by decide +kernel) (.cons (by decide +kernel) .nil)) (forall₂_map_same _ fun x _ => hrow x))
      (.cons (by decide +kernel) (.cons (by decide +kernel) .nil))
  unfold vkToBitsText
  exact (join_closed h).cast rfl

theorem mods_closed {vkName : VkVal → Text} (hn : ∀ v, IsWord (vkName v)) (order : List Nat → List Nat) :
    Closed (charModifiersText vkName order) (modsPart ((List.range 25).map modNumber) ++ [.punct ';']) := by
  have hrow : ∀ i, Closed (modLine vkName order i) ([.word (hexWord 1 (modNumber i))] ++ [.punct ',']) := by
    intro i
    unfold modLine
    simp only
    generalize hk : (if modNumber i = 0x0F then "disabled".toList else
      enumOr vkName ((order ((vkToBitsTable.filter fun x => (i &&& x.2) != 0).map Prod.fst)).map .key)) = comment
    have hs : '*' ∉ comment := by
      rw [← hk]
      split
      · decide
      · exact enumOr_star hn _
    have h1 : Closed "\t\t".toList [] := by decide +kernel
    have h2 : Closed (", /* ".toList ++ comment ++ " */".toList) [.punct ','] := remark_closed (by decide +kernel) hs (by decide +kernel)
    have h3 := (hexWord_word 1 (modNumber i)).toks.close h2 (c := ',') (r := " /* ".toList ++ comment ++ " */".toList) rfl (by decide +kernel)
    have := h1.append h3
    have e : "\t\t0x".toList ++ hexLower 1 (modNumber i) ++ ", /* ".toList ++ comment ++ " */".toList =
        "\t\t".toList ++ (hexWord 1 (modNumber i) ++ (", /* ".toList ++ comment ++ " */".toList)) := by
      rw [show "\t\t0x".toList = "\t\t".toList ++ ['0', 'x'] by decide]
      unfold hexWord
      simp only [List.append_assoc, List.cons_append, List.nil_append]
    rw [e]
    exact this
  have hcomment : Closed ("/* maps a shift bitfield value (array index) to a layer number in".toList ++ ['\n'] ++
      "virtual key translation (VK_TO_WCHARS, array value) */".toList) [] := by decide +kernel
  have h : List.Forall₂ Closed ([("/* maps a shift bitfield value (array index) to a layer number in".toList ++ ['\n'] ++
      "virtual key translation (VK_TO_WCHARS, array value) */".toList), "static MODIFIERS CharModifiers = {".toList,
      "\t&aVkToBits[0],".toList, "\t24,".toList, "\t{".toList] ++ (List.range 25).map (modLine vkName order) ++ ["\t}};\n".toList])
      ([[], [.word "static".toList, .word "MODIFIERS".toList, .word "CharModifiers".toList, .punct '=', .punct '{'],
        [.punct '&', .word "aVkToBits".toList, .punct '[', .word ['0'], .punct ']'] ++ [.punct ','], [.word "24".toList] ++ [.punct ','], [.punct '{']] ++
        (List.range 25).map (fun i => [.word (hexWord 1 (modNumber i))] ++ [.punct ',']) ++ [[.punct '}', .punct '}', .punct ';']]) :=
    closed_append (closed_append (.cons hcomment (.cons (by decide +kernel) (.cons (by decide +kernel) (.cons (by decide +kernel) (.cons (by decide +kernel) .nil)))))
      (forall₂_map_same _ fun i _ => hrow i)) (.cons (by decide +kernel) .nil)
  have e : charModifiersText vkName order = ['\n'].intercalate ([("/* maps a shift bitfield value (array index) to a layer number in".toList ++ ['\n'] ++
      "virtual key translation (VK_TO_WCHARS, array value) */".toList), "static MODIFIERS CharModifiers = {".toList,
      "\t&aVkToBits[0],".toList, "\t24,".toList, "\t{".toList] ++ (List.range 25).map (modLine vkName order) ++ ["\t}};\n".toList]) := by
    have : ∀ (a b : Text) (l : List Text), ['\n'].intercalate (a :: b :: l) = ['\n'].intercalate ((a ++ ['\n'] ++ b) :: l) := by
      intro a b l
      cases l <;> simp [List.intercalate]
    unfold charModifiersText
    rw [List.append_assoc, List.append_assoc, List.cons_append, List.cons_append, List.cons_append, this]
    simp only [List.append_assoc, List.cons_append, List.nil_append]
  rw [e]
  exact (join_closed h).cast rfl

end Lulua
