import Verif.Proofs.WinKbd
import Verif.Data.WinKbd
import Verif.Props.Xmodmap

/-!
# Properties of the Windows driver
-/

namespace Lulua.Props
open Lulua Spec

/-! ### C66 -/

/-- **C66**: the table of unprefixed scancodes has 128 rows; row `i` is what `i` is mapped to, or the invalid key. -/
theorem C66_unprefixed (m : Dict (List Nat) (List VkVal)) :
    (ausVK m).length = 128 ∧ ∀ i < 128, (∀ v, m.get? [i] = some v → (ausVK m)[i]? = some v) ∧
      (m.get? [i] = none → (ausVK m)[i]? = some [.key 0xFF]) := by
  refine ⟨by simp [ausVK], ?_⟩
  intro i hi
  have : (ausVK m)[i]? = some ((m.get? [i]).getD [vkNull]) := by
    unfold ausVK
    rw [List.getElem?_map, List.getElem?_range (by omega)]
    rfl
  refine ⟨?_, ?_⟩
  · intro v h; rw [this, h]; rfl
  · intro h; rw [this, h]; rfl

/-- **C66**: the tables for the prefixes hold exactly what is mapped with that prefix, with increasing scancodes. -/
theorem C66_prefixed (m : Dict (List Nat) (List VkVal)) (wf : Dict.WF m) (escape : Nat) :
    ∃ rows : List (Nat × List VkVal), vscToVk m escape = rows.map some ∧ rows.Pairwise (fun a b => a.1 < b.1) ∧
      ∀ c v, (c, v) ∈ rows ↔ m.get? [escape, c] = some v := by
  unfold vscToVk
  refine sorted_rows wf _ (fun c => [escape, c]) (fun k => k.getD 1 0) ?_ (fun c => rfl) ?_
  · intro x; exact length_two_iff x.1 escape
  · intro a b h
    simp only [tupleLe, lt_self_iff_false, decide_false, Bool.false_or, beq_self_eq_true, Bool.true_and, Bool.or_eq_true,
      decide_eq_true_eq, Bool.and_eq_true, beq_iff_eq, and_true] at h
    omega

/-- **C66**: so do the tables of key names. -/
theorem C66_names (m : Dict (List Nat) String) (wf : Dict.WF m) :
    (∃ rows : List (Nat × String), keyNames m = rows.map some ++ [none] ∧ rows.Pairwise (fun a b => a.1 < b.1) ∧
      ∀ c v, (c, v) ∈ rows ↔ m.get? [c] = some v) ∧
    (∃ rows : List (Nat × String), keyNamesExt m = rows.map some ++ [none] ∧ rows.Pairwise (fun a b => a.1 < b.1) ∧
      ∀ c v, (c, v) ∈ rows ↔ m.get? [0xe0, c] = some v) := by
  constructor
  · obtain ⟨rows, h1, h2⟩ := sorted_rows wf (fun x => x.1.length == 1) (fun c => [c]) (fun k => k.getD 0 0)
      (fun x => length_one_iff x.1) (fun c => rfl) (by
        intro a b h
        simp only [tupleLe, Bool.and_true, Bool.or_eq_true, decide_eq_true_eq, beq_iff_eq] at h
        omega)
    exact ⟨rows, by unfold keyNames; rw [h1], h2⟩
  · obtain ⟨rows, h1, h2⟩ := sorted_rows wf (fun x => x.1.length == 2 && x.1[0]? == some 0xe0) (fun c => [0xe0, c])
      (fun k => k.getD 1 0) (fun x => length_two_iff x.1 0xe0) (fun c => rfl) (by
        intro a b h
        simp only [tupleLe, lt_self_iff_false, decide_false, Bool.false_or, beq_self_eq_true, Bool.true_and, Bool.or_eq_true,
          decide_eq_true_eq, Bool.and_eq_true, beq_iff_eq, and_true] at h
        omega)
    exact ⟨rows, by unfold keyNamesExt; rw [h1], h2⟩

example : Dict.WF Data.qwertyScancodeToVk ∧ Dict.WF Data.qwertyScancodeToName ∧
    vscToVk Data.qwertyScancodeToVk 0xe1 = [some (0x1d, [.key 0x13])] ∧ (vscToVk Data.qwertyScancodeToVk 0xe0).length = 38 ∧
    (ausVK Data.qwertyScancodeToVk)[0x1e]? = some [.key 0x41] ∧ (ausVK Data.qwertyScancodeToVk)[0]? = some [vkNull] := by
  refine ⟨?_, ?_, ?_, ?_, ?_, ?_⟩
  · unfold Dict.WF; decide +kernel
  · unfold Dict.WF; decide +kernel
  all_goals decide +kernel

/-! ### C78 -/

/-- **C78** holds for the tables of names, of modifiers and of characters: each ends with the row of zeros. -/
theorem C78_partial (m : Dict (List Nat) String) (e : List CharEntry) (tables : List (Option WTable)) (h : vkToWchar e = .ok tables) :
    Terminated (keyNames m) ∧ Terminated (keyNamesExt m) ∧ Terminated vkToBits ∧ Terminated tables ∧
      ∀ t, some t ∈ tables → Terminated t.rows := by
  refine ⟨⟨_, by unfold keyNames; rw [show (fun x : List Nat × String => some (x.1.getD 0 0, x.2)) = some ∘ fun x => (x.1.getD 0 0, x.2) from rfl, ← List.map_map]⟩,
    ⟨_, by unfold keyNamesExt; rw [show (fun x : List Nat × String => some (x.1.getD 1 0, x.2)) = some ∘ fun x => (x.1.getD 1 0, x.2) from rfl, ← List.map_map]⟩, ⟨_, rfl⟩, ?_⟩
  have hgen : ∀ n g p t, generate n g p = .ok t → Terminated t.rows := by
    intro n g p t h
    obtain ⟨rows, rfl, h2⟩ := generate_ok.1 h
    refine ⟨rows.filterMap id, ?_⟩
    simp only [List.append_cancel_right_eq]
    clear h
    induction h2 with
    | nil => rfl
    | cons h _ ih =>
      obtain ⟨cs, rfl, _⟩ := h
      simpa using ih
  simp only [vkToWchar, bind_ok_iff, Except.ok.injEq, mapM_ok_iff] at h
  obtain ⟨ts, h1, num, h2, rfl⟩ := h
  refine ⟨⟨_, rfl⟩, ?_⟩
  intro t ht
  simp only [List.mem_append, List.mem_map, Option.some.injEq, exists_eq_right, List.mem_singleton, reduceCtorEq, or_false] at ht
  rcases ht with ht | rfl
  · obtain ⟨x, _, hx⟩ := forall₂_right_mem h1 ht
    exact hgen _ _ _ _ hx
  · exact hgen _ _ _ _ h2

/-- **C78** is false for the tables of prefixed scancodes, which have no row of zeros at all. -/
theorem C78_false (m : Dict (List Nat) (List VkVal)) (escape : Nat) :
    ¬ Terminated (vscToVk m escape) ∧ none ∉ vscToVk m escape := by
  have h : none ∉ vscToVk m escape := by simp [vscToVk]
  refine ⟨?_, h⟩
  rintro ⟨r, hr⟩
  rw [hr] at h
  simp at h

/-! ### C67 -/

/-- **C67**: every number says the layer whose modifiers are exactly those with their bit set in the index, or fifteen if
there is none. -/
theorem C67_entries : charModifiers.1 = 24 ∧ charModifiers.2.length = 25 ∧
    ∀ i n : Nat, charModifiers.2[i]? = some n ↔ i < 25 ∧ (BitsOfLayer i n ∨ (n = 15 ∧ ¬ ∃ k, BitsOfLayer i k)) := by
  have hex : ∀ i, (∃ k, BitsOfLayer i k) ↔ (List.range 9).any (bitsOk i) = true := by
    intro i
    simp only [bitsOk_iff, List.any_eq_true, List.mem_range]
    constructor
    · rintro ⟨k, hk⟩
      exact ⟨k, by unfold bitsOk at hk; simp only [Bool.and_eq_true, decide_eq_true_eq] at hk; exact hk.1, hk⟩
    · rintro ⟨k, _, hk⟩
      exact ⟨k, hk⟩
  have hall : ∀ i < 25, ∀ n < 16, modNumber i = n ↔ (bitsOk i n = true ∨ (n = 15 ∧ (List.range 9).any (bitsOk i) = false)) := by
    decide +kernel
  have hmax : ∀ i < 25, modNumber i < 16 := by decide +kernel
  refine ⟨rfl, by simp [charModifiers], ?_⟩
  intro i n
  rw [hex, bitsOk_iff, Bool.not_eq_true]
  simp only [charModifiers, List.getElem?_map]
  by_cases hi : i < 25
  · rw [List.getElem?_range hi]
    simp only [Option.map_some, Option.some.injEq, hi, true_and]
    by_cases hn : n < 16
    · exact hall i hi n hn
    · have := hmax i hi
      constructor
      · intro h; omega
      · rintro (h | ⟨h, _⟩)
        · unfold bitsOk at h
          simp only [Bool.and_eq_true, decide_eq_true_eq] at h
          omega
        · omega
  · rw [List.getElem?_eq_none (by simp; omega)]
    simp [hi]

/-- **C67**: each of the layers is found at exactly one index. -/
theorem C67_layers (k : Nat) (hk : k < layerKeys.length) : ∃! i : Nat, charModifiers.2[i]? = some k := by
  have h : ∀ k < 9, ∃ i ∈ List.range 25, modNumber i = k ∧ ∀ j ∈ List.range 25, modNumber j = k → j = i := by decide +kernel
  obtain ⟨i, hi, h1, h2⟩ := h k hk
  rw [List.mem_range] at hi
  refine ⟨i, ?_, ?_⟩
  · simp only [charModifiers, List.getElem?_map]
    rw [List.getElem?_range hi, Option.map_some, h1]
  · intro j hj
    simp only [charModifiers, List.getElem?_map] at hj
    by_cases hj' : j < 25
    · rw [List.getElem?_range hj'] at hj
      exact h2 j (List.mem_range.2 hj') (by simpa using hj)
    · rw [List.getElem?_eq_none (by simp; omega)] at hj
      simp at hj

/-- Layer 4 is at SHIFT and OEM_102, CONTROL with OEM_8 is disabled. -/
example : charModifiers.2[17]? = some 4 ∧ charModifiers.2[10]? = some 15 ∧ BitsOfLayer 17 4 := by
  refine ⟨by decide +kernel, by decide +kernel, _, rfl, by decide +kernel⟩

/-! ### C68 -/

/-- **C68**: there is one table for each number of texts, by increasing number, holding all entries with that many texts in
their order, and then that of the numpad. -/
theorem C68_tables (m : List CharEntry) (tables : List (Option WTable)) (h : vkToWchar m = .ok tables) :
    ∃ (ns : List Nat) (ts : List (Option WTable)), ns.Pairwise (· < ·) ∧ (∀ n, n ∈ ns ↔ ∃ e ∈ m, e.2.2.length = n) ∧
      List.Forall₂ (TableFor m) ns ts ∧ tables = ts ++ [some numpadTable, none] := by
  simp only [vkToWchar, bind_ok_iff, Except.ok.injEq, mapM_ok_iff, generate_numpad] at h
  obtain ⟨ts, h1, _, rfl, rfl⟩ := h
  obtain ⟨g1, g2, g3⟩ := groupby_sorted (fun x : CharEntry => x.2.2.length) _ (insertionSort_sorted _ m)
  refine ⟨_, ts.map some, g1, ?_, ?_, by simp⟩
  · intro n
    rw [g2 n]
    constructor
    · rintro ⟨e, he, hn⟩; exact ⟨e, (List.mem_insertionSort _).1 he, hn⟩
    · rintro ⟨e, he, hn⟩; exact ⟨e, (List.mem_insertionSort _).2 he, hn⟩
  · rw [List.forall₂_map_left_iff, List.forall₂_map_right_iff]
    have h1' := List.forall₂_iff_get.1 h1
    refine List.forall₂_iff_get.2 ⟨h1'.1, ?_⟩
    intro i hi hi'
    have := h1'.2 i hi hi'
    simp only [List.get_eq_getElem] at this ⊢
    obtain ⟨rows, hr1, hr2⟩ := generate_ok.1 this
    refine ⟨rows, by rw [hr1]; simp, ?_⟩
    rw [g3 _ (List.getElem_mem hi)] at hr2
    rw [filter_insertionSort_len] at hr2
    exact hr2

/-- **C68**: it works exactly if every text is missing or a single character. -/
theorem C68_works (m : List CharEntry) : (∃ tables, vkToWchar m = .ok tables) ↔
    ∀ e ∈ m, ∀ v ∈ e.2.2, v = .other 0 ∨ ∃ c, v = .str [c] := by
  obtain ⟨g1, g2, g3⟩ := groupby_sorted (fun x : CharEntry => x.2.2.length) _ (insertionSort_sorted _ m)
  have hmem : ∀ e, e ∈ m ↔ ∃ g ∈ groupby (fun x : CharEntry => x.2.2.length)
      (m.insertionSort fun a b => a.2.2.length ≤ b.2.2.length), e ∈ g.2 := by
    intro e
    constructor
    · intro he
      obtain ⟨g, hg, hn⟩ := List.mem_map.1 ((g2 e.2.2.length).2 ⟨e, (List.mem_insertionSort _).2 he, rfl⟩)
      refine ⟨g, hg, ?_⟩
      rw [g3 g hg, filter_insertionSort_len, List.mem_filter]
      exact ⟨he, by simpa using hn.symm⟩
    · rintro ⟨g, hg, he⟩
      rw [g3 g hg, filter_insertionSort_len, List.mem_filter] at he
      exact he.1
  have hgen : ∀ n g p, (∃ t, generate n g p = .ok t) ↔ ∀ e ∈ g, ∀ v ∈ e.2.2, v = .other 0 ∨ ∃ c, v = .str [c] := by
    intro n g p
    simp only [generate, bind_ok_iff, Except.ok.injEq]
    constructor
    · rintro ⟨t, rows, h, _⟩ e he v hv
      obtain ⟨r, h2⟩ := (mapM_exists_iff _ _).1 ⟨rows, h⟩ e he
      simp only [bind_ok_iff] at h2
      obtain ⟨cs, h3, _⟩ := h2
      obtain ⟨n, hn⟩ := (mapM_exists_iff _ _).1 ⟨cs, h3⟩ v hv
      rcases wcharRepr_ok.1 hn with ⟨h, _⟩ | ⟨c, h, _⟩
      · exact .inl h
      · exact .inr ⟨c, h⟩
    · intro h
      obtain ⟨rows, hr⟩ := (mapM_exists_iff (fun e : CharEntry => (do
          let chars ← e.2.2.mapM wcharRepr
          .ok (some (⟨e.1, e.2.1, chars⟩ : WRow)) : Py (Option WRow))) g).2 (by
        intro e he
        obtain ⟨cs, hcs⟩ := (mapM_exists_iff wcharRepr e.2.2).2 (by
          intro v hv
          rcases h e he v hv with rfl | ⟨c, rfl⟩
          · exact ⟨_, rfl⟩
          · exact ⟨_, rfl⟩)
        exact ⟨_, by rw [hcs]; rfl⟩)
      exact ⟨_, rows, hr, rfl⟩
  simp only [vkToWchar, bind_ok_iff, Except.ok.injEq, generate_numpad]
  constructor
  · rintro ⟨_, ts, h, _⟩ e he
    obtain ⟨g, hg, heg⟩ := (hmem e).1 he
    exact (hgen _ _ _).1 ((mapM_exists_iff _ _).1 ⟨ts, h⟩ g hg) e heg
  · intro h
    obtain ⟨ts, hts⟩ := (mapM_exists_iff (fun x : Nat × List CharEntry => generate x.1 x.2)
      (groupby (fun x : CharEntry => x.2.2.length) (m.insertionSort fun a b => a.2.2.length ≤ b.2.2.length))).2 (by
      intro g hg
      exact (hgen _ _ _).2 fun e he => h e ((hmem e).2 ⟨g, hg, he⟩))
    exact ⟨_, ts, hts, _, rfl, rfl⟩

/-- Three entries, the first and the last with two texts. -/
example : vkToWchar [(.key 0x41, 0, [.str ['a'], .str ['A']]), (.key 0x20, 0, [.str [' ']]), (.key 0x42, 0, [.str ['b'], .other 0])] =
    .ok [some ⟨"aVkToWch1", 1, [some ⟨.key 0x20, 0, [0x20]⟩, none]⟩,
      some ⟨"aVkToWch2", 2, [some ⟨.key 0x41, 0, [0x61, 0x41]⟩, some ⟨.key 0x42, 0, [0x62, 0xF000]⟩, none]⟩,
      some numpadTable, none] := by
  decide +kernel

example : vkToWchar [(.key 0x41, 0, [.str ['a', 'b']])] = .error .genericException := by decide +kernel

/-! ### C79 -/

theorem winKbdButton_ok {m : Dict (List Nat) (List VkVal)} {name : String} {layers : List Layer} {kb : PhysicalKeyboard} {b : Btn}
    {o : Option CharEntry} (h : winKbdButton m (KeyboardLayout.mk' name layers kb) b = .ok o) :
    (¬ Used layers b.i ∧ o = none) ∨ (Used layers b.i ∧ ∃ c vks vk, windowsCode b = some c ∧ m.get? c = some vks ∧
      vks.find? isKey = some vk ∧ o = some (vk, 0, layers.map fun l => toWindows ((l.layout.get? b.i).getD (.other 0)))) := by
  have hL : (KeyboardLayout.mk' name layers kb).layers = layers := rfl
  have htext : ((KeyboardLayout.mk' name layers kb).getButtonText b.i).map (fun v => v.getD (.other 0)) =
      layers.map fun l => (l.layout.get? b.i).getD (.other 0) := by
    simp [KeyboardLayout.getButtonText, hL]
  have hused : (layers.map fun l => (l.layout.get? b.i).getD (LVal.other 0)).all (fun v => v = .other 0) = true ↔ ¬ Used layers b.i := by
    unfold Used
    rw [List.all_eq_true]
    constructor
    · rintro h ⟨l, hl, v, hv, hne⟩
      have := h _ (List.mem_map.2 ⟨l, hl, rfl⟩)
      rw [hv] at this
      simp [hne] at this
    · intro h v hv
      obtain ⟨l, hl, rfl⟩ := List.mem_map.1 hv
      cases hg : l.layout.get? b.i with
      | none => simp
      | some w =>
        simp only [Option.getD_some, decide_eq_true_eq]
        by_contra hne
        exact h ⟨l, hl, w, hg, hne⟩
  unfold winKbdButton at h
  rw [htext] at h
  by_cases hu : Used layers b.i
  · rw [if_neg (by rw [hused]; exact fun h => h hu)] at h
    right
    refine ⟨hu, ?_⟩
    simp only [bind_ok_iff, Except.ok.injEq] at h
    obtain ⟨code, h1, vks, h2, vk, h3, rfl⟩ := h
    have hcode : codeOf "windows" b = some code := by
      unfold Btn.scancodeAt at h1
      unfold codeOf
      cases hs : b.scancode with
      | none => rw [hs] at h1; cases h1
      | some sc => rw [hs] at h1; exact Dict.getItem_eq_ok.1 h1
    unfold vkAt at h2
    cases hc : code.codes with
    | none => rw [hc] at h2; cases h2
    | some c =>
      rw [hc] at h2
      refine ⟨c, vks, vk, ?_, Dict.getItem_eq_ok.1 h2, firstKey_ok.1 h3, by simp⟩
      unfold windowsCode
      rw [hcode]
      exact hc
  · rw [if_pos (hused.2 hu)] at h
    cases h
    exact .inl ⟨hu, rfl⟩

/-- **C79**: if no two buttons in use have the same virtual key, then pressing a button (the last one with its scancode)
gives a virtual key whose characters are those the layout has for the button, layer by layer. -/
theorem C79_types (m : Dict (List Nat) (List VkVal)) (wf : Dict.WF m) (name : String) (layers : List Layer) (kb : PhysicalKeyboard)
    (hnd : (kb.keys.map Btn.i).Nodup) (d : Driver) (hok : winKbd m (KeyboardLayout.mk' name layers kb) kb = .ok d)
    (hcoded : ∀ b ∈ kb.keys, ∀ c, windowsCode b = some c → Coded c)
    (b : Btn) (hlast : LastOfCode "windows" kb b) (hu : Used layers b.i) (c : List Nat) (hc : windowsCode b = some c)
    (hdist : ∀ b', LastOfCode "windows" kb b' → Used layers b'.i → ∀ c', windowsCode b' = some c' → vkOf d c' = vkOf d c → b' = b) :
    ∃ vk, vkOf d c = some vk ∧ ∀ k < layers.length, ∃ n, charOf d vk k = some n ∧ DriverSays layers b.i k n := by
  simp only [winKbd, bind_ok_iff, Except.ok.injEq] at hok
  obtain ⟨reps, h1, entries, h2, wchars, h3, rfl⟩ := hok
  obtain ⟨r1, r2, r3, r4⟩ := unique_reps hnd h1
  rw [mapM_ok_iff _ _ _] at h2
  have wf' := wf_driverScancodes wf
  -- virtual keys
  have hvk : ∀ c, Coded c → ∀ vks vk, (driverScancodes m).get? c = some vks → vks.find? isKey = some vk →
      vkOf ⟨ausVK (driverScancodes m), vscToVk (driverScancodes m) 0xe0, vscToVk (driverScancodes m) 0xe1, wchars, charModifiers⟩ c = some vk := by
    intro c hc vks vk hg hf
    rcases hc with ⟨i, hi, rfl⟩ | ⟨i, rfl⟩ | ⟨i, rfl⟩
    · simp only [vkOf]
      rw [((C66_unprefixed (driverScancodes m)).2 i hi).1 vks hg]
      exact hf
    · obtain ⟨rows, e1, e2, e3⟩ := C66_prefixed (driverScancodes m) wf' 0xe0
      simp only [vkOf, if_true]
      rw [e1, rowOf_of_mem e2 ((e3 _ _).2 hg)]
      exact hf
    · obtain ⟨rows, e1, e2, e3⟩ := C66_prefixed (driverScancodes m) wf' 0xe1
      simp only [vkOf]
      rw [if_neg (by decide), if_pos trivial, e1, rowOf_of_mem e2 ((e3 _ _).2 hg)]
      exact hf
  -- the entry of the button
  obtain ⟨o, ho, hb⟩ := forall₂_left_mem h2 ((r3 b).2 hlast)
  rcases winKbdButton_ok hb with ⟨hnu, _⟩ | ⟨_, c', vks, vk, w1, w2, w3, rfl⟩
  · exact absurd hu hnu
  rw [hc] at w1
  cases w1
  have hvkb := hvk c (hcoded b (r2 b ((r3 b).2 hlast)) c hc) vks vk w2 w3
  refine ⟨vk, hvkb, ?_⟩
  -- entries with that key
  have huniq : ∀ e ∈ entries.filterMap id, e.1 = vk → e = (vk, 0, layers.map fun l => toWindows ((l.layout.get? b.i).getD (.other 0))) := by
    intro e he hev
    obtain ⟨o', ho', hoe⟩ := List.mem_filterMap.1 he
    simp only [id_eq] at hoe
    subst hoe
    obtain ⟨b', hb', hbo⟩ := forall₂_right_mem h2 ho'
    rcases winKbdButton_ok hbo with ⟨_, hx⟩ | ⟨hu', c', vks', vk', v1, v2, v3, hx⟩
    · cases hx
    · cases hx
      simp only at hev
      subst hev
      have hvkb' := hvk c' (hcoded b' (r2 b' hb') c' v1) vks' vk' v2 v3
      have := hdist b' ((r3 b').1 hb') hu' c' v1 (hvkb'.trans hvkb.symm)
      rw [this]
  have hmem : (vk, 0, layers.map fun l => toWindows ((l.layout.get? b.i).getD (LVal.other 0))) ∈ entries.filterMap id :=
    List.mem_filterMap.2 ⟨_, ho, rfl⟩
  obtain ⟨ns, ts, t1, t2, t3, rfl⟩ := C68_tables _ _ h3
  have hrow : ∀ e r, RowSays e r → ∃ cs, r = some ⟨e.1, e.2.1, cs⟩ ∧ List.Forall₂ WcharSays e.2.2 cs := fun e r h => h
  -- all rows in front of the numpad come from entries
  have hrows : ∀ r, r ∈ (ts.filterMap id).flatMap (fun t => t.rows.filterMap id) →
      ∃ e ∈ entries.filterMap id, r.vk = e.1 ∧ List.Forall₂ WcharSays e.2.2 r.chars := by
    intro r hr
    obtain ⟨t, ht, hrt⟩ := List.mem_flatMap.1 hr
    obtain ⟨o', ho', hot⟩ := List.mem_filterMap.1 ht
    simp only [id_eq] at hot
    subst hot
    obtain ⟨n, _, rows, htn, hrs⟩ := forall₂_right_mem t3 ho'
    cases htn
    simp only [List.filterMap_append, List.mem_append] at hrt
    rcases hrt with hrt | hrt
    · obtain ⟨x, hx, hxr⟩ := List.mem_filterMap.1 hrt
      simp only [id_eq] at hxr
      subst hxr
      obtain ⟨e, he, hes⟩ := forall₂_right_mem hrs hx
      obtain ⟨cs, hcs, hcc⟩ := hes
      cases hcs
      exact ⟨e, (List.mem_filter.1 he).1, rfl, hcc⟩
    · simp at hrt
  have hfound : ∃ r ∈ (ts.filterMap id).flatMap (fun t => t.rows.filterMap id), r.vk = vk := by
    obtain ⟨t, ht, rows, htn, hrs⟩ := forall₂_left_mem t3 ((t2 _).2 ⟨_, hmem, rfl⟩)
    obtain ⟨r, hr, cs, hcs, _⟩ := forall₂_left_mem hrs (List.mem_filter.2 ⟨hmem, by simp⟩)
    subst hcs
    refine ⟨⟨vk, 0, cs⟩, List.mem_flatMap.2 ⟨_, List.mem_filterMap.2 ⟨t, ht, htn⟩, ?_⟩, rfl⟩
    simp only [List.filterMap_append, List.mem_append]
    exact .inl (List.mem_filterMap.2 ⟨_, hr, rfl⟩)
  obtain ⟨r, hr⟩ : ∃ r, ((ts.filterMap id).flatMap (fun t => t.rows.filterMap id)).find? (fun r => r.vk = vk) = some r := by
    obtain ⟨r, hr, hrv⟩ := hfound
    rw [← Option.isSome_iff_exists, List.find?_isSome]
    exact ⟨r, hr, by simpa using hrv⟩
  have hr1 : r.vk = vk := by simpa using List.find?_some hr
  obtain ⟨e, he, he1, he2⟩ := hrows r (List.mem_of_find?_eq_some hr)
  have heq := huniq e he (he1.symm.trans hr1)
  subst heq
  simp only at he2
  intro k hk
  rw [List.forall₂_map_left_iff] at he2
  have hg := List.forall₂_iff_get.1 he2
  have hkc : k < r.chars.length := by omega
  refine ⟨r.chars[k], ?_, ?_⟩
  · simp only [charOf, List.filterMap_append, List.flatMap_append, List.find?_append, hr, Option.some_or, Option.bind_some]
    exact List.getElem?_eq_getElem hkc
  · have hw := hg.2 k hk hkc
    simp only [List.get_eq_getElem] at hw
    refine ⟨layers[k], List.getElem?_eq_getElem hk, ?_⟩
    cases hgg : (layers[k]).layout.get? b.i with
    | none =>
      rw [hgg] at hw
      right
      rcases hw with ⟨_, hn⟩ | ⟨c, hx, _⟩
      · exact ⟨.inl rfl, hn⟩
      · simp [toWindows] at hx
    | some v =>
      rw [hgg] at hw
      simp only [Option.getD_some, toWindows] at hw
      by_cases hv : v = .str ['\n']
      · left
        subst hv
        refine ⟨'\n', rfl, ?_⟩
        rcases hw with ⟨hx, _⟩ | ⟨c, hx, hn⟩
        · simp at hx
        · simp only [if_true, LVal.str.injEq, List.cons.injEq, and_true] at hx
          subst hx
          exact hn
      · rw [if_neg hv] at hw
        rcases hw with ⟨rfl, hn⟩ | ⟨c, rfl, hn⟩
        · exact .inr ⟨.inr rfl, hn⟩
        · left
          refine ⟨c, rfl, ?_⟩
          rw [if_neg]
          · exact hn
          · rintro rfl; exact hv rfl

/-- The layout has a value for the button. -/
def usedB (L : KeyboardLayout) (b : Btn) : Bool :=
  L.layers.any fun l => match l.layout.get? b.i with
    | none => false
    | some v => v ≠ .other 0

theorem usedB_iff (L : KeyboardLayout) (b : Btn) : usedB L b = true ↔ Used L.layers b.i := by
  unfold usedB Used
  rw [List.any_eq_true]
  refine exists_congr fun l => and_congr_right fun _ => ?_
  cases l.layout.get? b.i <;> simp

def codedB : List Nat → Bool
  | [i] => i < 128
  | [p, _] => p = 0xe0 || p = 0xe1
  | _ => false

theorem codedB_coded {c : List Nat} (h : codedB c = true) : Coded c := by
  match c, h with
  | [i], h => exact .inl ⟨i, by simpa [codedB] using h, rfl⟩
  | [p, i], h =>
    simp only [codedB, Bool.or_eq_true, decide_eq_true_eq] at h
    rcases h with rfl | rfl
    · exact .inr (.inl ⟨_, rfl⟩)
    · exact .inr (.inr ⟨_, rfl⟩)

/-- The codes of the buttons of a set. -/
def codesOf (kb : PhysicalKeyboard) (s : FSet) : List (List Nat) :=
  (kb.keys.filter fun b => b.i ∈ s).filterMap windowsCode

/-- The side conditions for the shipped layout, computed. -/
def driverChecks (L : KeyboardLayout) (kb : PhysicalKeyboard) (reps : List Btn) (d : Driver) : List Bool :=
  [kb.keys.all fun b => match windowsCode b with
      | some c => codedB c
      | none => false,
    decide (((reps.filter (usedB L)).map fun b => (windowsCode b).bind (vkOf d)).Nodup),
    kb.keys.all fun b => !usedB L b || reps.any fun b' => windowsCode b' = windowsCode b &&
      L.layers.all fun l => l.layout.get? b'.i = l.layout.get? b.i,
    (List.range L.layers.length).all fun k => match L.layers[k]? with
      | some l => l.modifier.all fun s => decide (heldLayer d (codesOf kb s) = some k)
      | none => false]

def driverShipped : Py (List Bool) := do
  let (_, kb, L) ← loadFirst Data.arLulua
  let reps ← unique (scancodeKey "windows") kb.keys
  let d ← winKbd Data.qwertyScancodeToVk L kb
  .ok (decide ((kb.keys.map Btn.i).Nodup) :: driverChecks L kb reps d)

/-- **C79**: with the driver for `ar-lulua` every button in use types what the layout says, on all layers, and holding the
modifiers of a layer selects it. -/
theorem C79_shipped (t : InternTable) (kb : PhysicalKeyboard) (L : KeyboardLayout) (hl : loadFirst Data.arLulua = .ok (t, kb, L)) :
    ∃ d, winKbd Data.qwertyScancodeToVk L kb = .ok d ∧
      (∀ b ∈ kb.keys, Used L.layers b.i → ∃ c vk, windowsCode b = some c ∧ vkOf d c = some vk ∧
        ∀ k < L.layers.length, ∃ n, charOf d vk k = some n ∧ DriverSays L.layers b.i k n) ∧
      ∀ k l, L.layers[k]? = some l → ∀ s ∈ l.modifier, heldLayer d (codesOf kb s) = some k := by
  have hcheck : driverShipped = .ok [true, true, true, true, true] := by decide +kernel
  have wf : Dict.WF Data.qwertyScancodeToVk := by unfold Dict.WF; decide +kernel
  obtain ⟨name, layers, rfl⟩ : ∃ name layers, L = KeyboardLayout.mk' name layers kb := by
    unfold loadFirst at hl
    simp only [bind_ok_iff, Except.ok.injEq, Prod.mk.injEq] at hl
    obtain ⟨⟨t', kb', _⟩, _, L', h, rfl, rfl, rfl⟩ := hl
    simp only [GenericLayout.specialize, bind_ok_iff, Except.ok.injEq] at h
    obtain ⟨layers, _, rfl⟩ := h
    exact ⟨_, _, rfl⟩
  simp only [driverShipped, hl, bind_ok_iff, Except.ok.injEq, driverChecks, List.cons.injEq, decide_eq_true_eq, and_true] at hcheck
  obtain ⟨x, rfl, reps, hreps, d, hd, hnd, c1, c2, c3, c4⟩ := hcheck
  dsimp only at hreps hd hnd c1 c2 c3 c4
  obtain ⟨r1, r2, r3, r4⟩ := unique_reps hnd hreps
  refine ⟨d, hd, ?_, ?_⟩
  · have hcoded : ∀ b ∈ kb.keys, ∃ c, windowsCode b = some c ∧ Coded c := by
      intro b hb
      have := List.all_eq_true.1 c1 b hb
      cases hc : windowsCode b with
      | none => rw [hc] at this; cases this
      | some c => rw [hc] at this; exact ⟨c, rfl, codedB_coded this⟩
    intro b hb hu
    have := List.all_eq_true.1 c3 b hb
    rw [(usedB_iff _ _).2 hu] at this
    simp only [Bool.not_true, Bool.false_or, List.any_eq_true, Bool.and_eq_true, decide_eq_true_eq, List.all_eq_true] at this
    obtain ⟨b', hb', hcode, hsame⟩ := this
    have hsame' : ∀ l ∈ layers, l.layout.get? b'.i = l.layout.get? b.i := hsame
    have hu' : Used layers b'.i := by
      obtain ⟨l, hl, v, hv, hne⟩ := hu
      exact ⟨l, hl, v, (hsame' l hl).trans hv, hne⟩
    obtain ⟨c, hc, _⟩ := hcoded b hb
    obtain ⟨vk, hvk, hall⟩ := C79_types _ wf name layers kb hnd d hd
      (fun x hx cx hcx => by obtain ⟨c', h1, h2⟩ := hcoded x hx; rw [hcx] at h1; cases h1; exact h2)
      b' ((r3 b').1 hb') hu' c (hcode.trans hc) (by
        intro x hx hxu cx hcx heq
        refine List.inj_on_of_nodup_map c2 (List.mem_filter.2 ⟨(r3 x).2 hx, (usedB_iff _ _).2 hxu⟩)
          (List.mem_filter.2 ⟨hb', (usedB_iff _ _).2 hu'⟩) ?_
        simp only [hcx, hcode.trans hc, Option.bind_some]
        exact heq)
    refine ⟨c, vk, hc, hvk, ?_⟩
    intro k hk
    obtain ⟨n, h1, l, h2, h3⟩ := hall k hk
    refine ⟨n, h1, l, h2, ?_⟩
    rw [← hsame' l (List.mem_of_getElem? h2)]
    exact h3
  · intro k l hkl s hs
    have hk : k < (KeyboardLayout.mk' name layers kb).layers.length := by
      by_contra h
      rw [List.getElem?_eq_none (by omega)] at hkl
      cases hkl
    have := List.all_eq_true.1 c4 k (List.mem_range.2 hk)
    rw [hkl] at this
    simpa using List.all_eq_true.1 this s hs

/-- It has four layers, the first for no modifier and for the others one or two buttons each. -/
example : ((loadFirst Data.arLulua).bind fun x => .ok (x.2.2.layers.map fun l => (l.modifier.map List.length, l.layout.length))) =
    .ok [([0], 48), ([1, 1], 38), ([1, 1], 12), ([1, 1], 18)] := by decide +kernel

end Lulua.Props
