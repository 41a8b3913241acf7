import Verif.Proofs.WinKbdMeaning
import Verif.Props.WinKbdText

/-!
# The C text of the Windows driver as a program

* C114 `C114_works`, `C114_reads`, `C114_scancodes`, `C114_names`, `C114_layers`, `C114_chars`, `C114_driver`, `C114_shipped`:
  the text of `makeDriverSources` is C, and the tables in it say what they are meant to say.

`typedefs` and `entrypoint` are not part of the text, see C123. The types of the former are known to the reader in
`Verif.Spec.CProgram`.
-/

namespace Lulua.Props
open Spec

/-! ### C114 -/

/-- **C114**: the text is written whenever the tables of characters are. -/
theorem C114_works (printable : Char → Bool) (order : List Nat → List Nat) (m : Dict (List Nat) (List VkVal)) (charmap : List CharEntry) :
    (∃ text, driverText printable order m charmap = .ok text) ↔ ∃ tables, vkToWchar charmap = .ok tables := by
  rw [← C112_works printable (vkCName Data.vkval)]
  simp only [driverText, bind_ok_iff, Except.ok.injEq]
  constructor
  · rintro ⟨_, chars, h, _⟩
    exact ⟨chars, h⟩
  · rintro ⟨chars, h⟩
    exact ⟨_, chars, h, rfl⟩

theorem nonempty_of_one {m : Dict (List Nat) (List VkVal)} (hs : Scancodes m) : ∀ x ∈ m, x.2 ≠ [] := fun x hx => (hs.good x hx).1

/-- **C114**: it reads as a program, the same whatever characters are printable and whatever order sets have. -/
theorem C114_reads (m : Dict (List Nat) (List VkVal)) (hne : ∀ x ∈ m, x.2 ≠ []) (charmap : List CharEntry)
    (tables : List (Option WTable)) (ht : vkToWchar charmap = .ok tables) :
    ∃ p, ∀ printable order, ∃ text, driverText printable order m charmap = .ok text ∧ cProgram text = some p := by
  refine ⟨driverProgram m charmap, fun printable order => ?_⟩
  obtain ⟨text, h⟩ := (C114_works printable order m charmap).2 ⟨tables, ht⟩
  exact ⟨text, h, driverText_program C112_names hne h⟩

theorem rowOf_iff {ν : Type} {rows : List (Nat × ν)} (hs : rows.Pairwise fun a b => a.1 < b.1) (l : List (Option (Nat × ν)))
    (hl : l.filterMap id = rows) (c : Nat) (f : Option ν) (hf : ∀ v, (c, v) ∈ rows ↔ f = some v) : rowOf l c = f := by
  have e : rowOf l c = rowOf (rows.map some) c := by
    unfold rowOf
    rw [hl]
    congr 2
    simp
  rw [e]
  cases f with
  | some v => exact rowOf_of_mem hs ((hf v).2 rfl)
  | none =>
    unfold rowOf
    rw [Option.map_eq_none_iff, List.find?_eq_none]
    intro x hx hxc
    simp only [decide_eq_true_eq] at hxc
    have hx' : x ∈ rows := by simpa using hx
    have : (c, x.2) ∈ rows := hxc ▸ hx'
    cases (hf x.2).1 this

theorem orAll_lt {l : List Nat} (h : ∀ n ∈ l, n < 65536) : orAll l < 65536 := by
  have : ∀ (l : List Nat) a, a < 2 ^ 16 → (∀ n ∈ l, n < 2 ^ 16) → l.foldl (fun a b => a ||| b) a < 2 ^ 16 := by
    intro l
    induction l with
    | nil => exact fun a ha _ => ha
    | cons x xs ih =>
      exact fun a ha hx => ih _ (Nat.or_lt_two_pow ha (hx x List.mem_cons_self)) fun n hn => hx n (List.mem_cons_of_mem _ hn)
  exact this l 0 (by decide) h

theorem member_lt {v : VkVal} (h : Member v) : vkNumber v < 65536 := by
  have h1 : ∀ n ∈ Data.vkval.map Prod.snd, n < 65536 := by decide +kernel
  have h2 : ∀ n ∈ vkFlags.map Prod.snd, n < 65536 := by decide +kernel
  cases v with
  | key n => exact h1 n h
  | flag n => exact h2 n h

theorem stored_all {v : List VkVal} (h : ∀ x ∈ v, Member x) : stored v = orAll (v.map vkNumber) := by
  unfold stored
  refine Nat.mod_eq_of_lt (orAll_lt ?_)
  intro n hn
  obtain ⟨x, hx, rfl⟩ := List.mem_map.1 hn
  exact member_lt (h x hx)

/-- **C114**: the number for a scancode is that of the virtual key together with its flags. If there is none, then an
unprefixed scancode has the number 255, and a prefixed one has none. -/
theorem C114_scancodes (m : Dict (List Nat) (List VkVal)) (wf : Dict.WF m) (hs : Scancodes m) (charmap : List CharEntry)
    (printable : Char → Bool) (order : List Nat → List Nat) (text : Text) (h : driverText printable order m charmap = .ok text) :
    ∃ p, cProgram text = some p ∧
      (∀ i < 128, p.vk [i] = some (((m.get? [i]).map fun v => orAll (v.map vkNumber)).getD 255)) ∧
      (∀ i, 128 ≤ i → p.vk [i] = none) ∧
      ∀ e, e = 0xe0 ∨ e = 0xe1 → ∀ c, p.vk [e, c] = (m.get? [e, c]).map fun v => orAll (v.map vkNumber) := by
  refine ⟨_, driverText_program C112_names (nonempty_of_one hs) h, ?_, ?_, ?_⟩
  · intro i hi
    rw [vk_row C112_names hs]
    show (ausVK m)[i]?.map stored = _
    have hu := (C66_unprefixed m).2 i hi
    cases hg : m.get? [i] with
    | none => rw [hu.2 hg]; rfl
    | some v => rw [hu.1 v hg, Option.map_some, stored_all (hs.member _ (Dict.mem_of_get? hg))]; rfl
  · intro i hi
    rw [vk_row C112_names hs]
    show (ausVK m)[i]?.map stored = none
    rw [List.getElem?_eq_none (by rw [(C66_unprefixed m).1]; exact hi)]
    rfl
  · intro e he c
    have hr : rowOf (vscToVk m e) c = m.get? [e, c] := by
      obtain ⟨rows, e1, e2, e3⟩ := C66_prefixed m wf e
      exact rowOf_iff e2 _ (by rw [e1]; simp) c _ (e3 c)
    rw [vk_row C112_names hs]
    have hd : driverRow m [e, c] = m.get? [e, c] := by
      rw [← hr]
      rcases he with rfl | rfl <;> rfl
    rw [hd]
    cases hg : m.get? [e, c] with
    | none => rfl
    | some v => rw [Option.map_some, Option.map_some, stored_all (hs.member _ (Dict.mem_of_get? hg))]

/-- **C114**: the names of keys are those of `qwertyScancodeToName`, and none is missing. -/
theorem C114_names (m : Dict (List Nat) (List VkVal)) (hne : ∀ x ∈ m, x.2 ≠ []) (charmap : List CharEntry)
    (printable : Char → Bool) (order : List Nat → List Nat) (text : Text) (h : driverText printable order m charmap = .ok text) :
    ∃ p, cProgram text = some p ∧ ∀ c, p.keyName false c = (Data.qwertyScancodeToName.get? [c]).map String.toList ∧
      p.keyName true c = (Data.qwertyScancodeToName.get? [0xe0, c]).map String.toList := by
  have wf : Dict.WF Data.qwertyScancodeToName := by unfold Dict.WF; decide +kernel
  refine ⟨_, driverText_program C112_names hne h, fun c => ?_⟩
  obtain ⟨⟨r1, a1, a2, a3⟩, r2, b1, b2, b3⟩ := C66_names Data.qwertyScancodeToName wf
  obtain ⟨k1, k2⟩ := keyName_rows m charmap c
  rw [k1, k2]
  generalize Data.qwertyScancodeToName = names at *
  rw [rowOf_iff a2 _ (by rw [a1]; simp) c _ (a3 c), rowOf_iff b2 _ (by rw [b1]; simp) c _ (b3 c)]
  exact ⟨rfl, rfl⟩

/-- A modifier is held, on the left or on the right. -/
def HeldKey (p : CProgram) (codes : List (List Nat)) (vk : Nat) : Prop := ∃ code ∈ codes, ∃ n, p.vk code = some n ∧ baseKey (n % 256) = vk

theorem testBit_or (j : Nat) (l : List Nat) (a : Nat) :
    (l.foldl (fun n i => n ||| 2 ^ i) a).testBit j = true ↔ a.testBit j = true ∨ j ∈ l := by
  induction l generalizing a with
  | nil => simp
  | cons x xs ih =>
    rw [List.foldl_cons, ih, Nat.testBit_or, Nat.testBit_two_pow, Bool.or_eq_true, List.mem_cons, decide_eq_true_eq]
    tauto

theorem or_lt (l : List Nat) (h : ∀ i ∈ l, i < 5) : l.foldl (fun n i => n ||| 2 ^ i) 0 < 32 := by
  have : ∀ (l : List Nat) a, a < 2 ^ 5 → (∀ i ∈ l, i < 5) → l.foldl (fun n i => n ||| 2 ^ i) a < 2 ^ 5 := by
    intro l
    induction l with
    | nil => exact fun a ha _ => ha
    | cons x xs ih =>
      exact fun a ha hx => ih _ (Nat.or_lt_two_pow ha (Nat.pow_lt_pow_right (by decide) (hx x List.mem_cons_self))) fun n hn => hx n (List.mem_cons_of_mem _ hn)
  exact this l 0 (by decide) h

/-- **C114**: the layer of number `k` is selected exactly if the modifiers held are those of the layer. -/
theorem C114_layers (m : Dict (List Nat) (List VkVal)) (hs : Scancodes m) (charmap : List CharEntry)
    (printable : Char → Bool) (order : List Nat → List Nat) (text : Text) (h : driverText printable order m charmap = .ok text) :
    ∃ p, cProgram text = some p ∧ ∀ codes k keys, layerKeys[k]? = some keys →
      (p.layer codes = some k ↔ ∀ x ∈ modifierBits, x.1 ∈ keys ↔ HeldKey p codes x.1) := by
  refine ⟨_, driverText_program C112_names (nonempty_of_one hs) h, fun codes k keys hk => ?_⟩
  let d : Driver := ⟨ausVK m, vscToVk m 0xe0, vscToVk m 0xe1, [], charModifiers⟩
  have hd : DriverHas d m := ⟨rfl, rfl, rfl⟩
  have hvk := fun code => vk_vkOf C112_names hs charmap hd code
  rw [layer_held C112_names hs charmap hd rfl codes]
  generalize driverProgram m charmap = p at hvk
  have hb : ∀ code i, bitOf d code = some i ↔ ∃ n, p.vk code = some n ∧ ∃ x ∈ modifierBits, x.1 = baseKey (n % 256) ∧ x.2 = i := by
    intro code i
    have hfind : ∀ q, (modifierBits.find? fun x => x.1 = q).map Prod.snd = some i ↔ ∃ x ∈ modifierBits, x.1 = q ∧ x.2 = i := by
      intro q
      have hnd : (modifierBits.map Prod.fst).Nodup := by decide
      rw [Option.map_eq_some_iff]
      constructor
      · rintro ⟨x, hx, rfl⟩
        exact ⟨x, List.mem_of_find?_eq_some hx, by simpa using List.find?_some hx, rfl⟩
      · rintro ⟨x, hx, hq, rfl⟩
        cases hf : modifierBits.find? fun x => x.1 = q with
        | none => exact absurd hq (by simpa using List.find?_eq_none.1 hf x hx)
        | some y =>
          have hy : y.1 = q := by simpa using List.find?_some hf
          have := List.inj_on_of_nodup_map hnd hx (List.mem_of_find?_eq_some hf) (hq.trans hy.symm)
          exact ⟨y, rfl, by rw [this]⟩
    have hc := hvk code
    unfold bitOf
    cases hv : vkOf d code with
    | none =>
      rw [hv, Option.map_none, Option.map_eq_none_iff] at hc
      rw [hc]
      simp
    | some v =>
      obtain ⟨a, rfl⟩ := vkOf_key hs hd hv
      rw [hv, Option.map_some, Option.map_eq_some_iff] at hc
      obtain ⟨n, hn, hna⟩ := hc
      change n % 256 = a at hna
      simp only [hn, Option.some.injEq, exists_eq_left', hna]
      exact hfind _
  have hbit : ∀ x ∈ modifierBits, x.2 ∈ codes.filterMap (bitOf d) ↔ HeldKey p codes x.1 := by
    intro x hx
    have hnd : (modifierBits.map Prod.snd).Nodup := by decide
    rw [List.mem_filterMap]
    constructor
    · rintro ⟨code, hc, hcb⟩
      obtain ⟨n, hn, y, hy, hyn, hyx⟩ := (hb code _).1 hcb
      have := List.inj_on_of_nodup_map hnd hy hx hyx
      exact ⟨code, hc, n, hn, by rw [← hyn, this]⟩
    · rintro ⟨code, hc, n, hn, hnx⟩
      exact ⟨code, hc, (hb code _).2 ⟨n, hn, x, hx, hnx.symm, rfl⟩⟩
  have hlt : ∀ i ∈ codes.filterMap (bitOf d), i < 5 := by
    intro i hi
    obtain ⟨code, _, hcb⟩ := List.mem_filterMap.1 hi
    obtain ⟨n, _, y, hy, _, rfl⟩ := (hb code _).1 hcb
    have : ∀ y ∈ modifierBits, y.2 < 5 := by decide
    exact this y hy
  have hk9 : k < 9 := by
    have := (List.getElem?_eq_some_iff.1 hk).1
    exact this
  unfold heldLayer
  have h67 := (C67_entries.2.2 ((codes.filterMap (bitOf d)).foldl (fun n i => n ||| 2 ^ i) 0) k)
  rw [show d.modifiers = charModifiers from rfl, h67]
  have h25 : ∀ i < 32, ∀ k < 9, bitsOk i k = true → i < 25 := by decide +kernel
  have hB : BitsOfLayer ((codes.filterMap (bitOf d)).foldl (fun n i => n ||| 2 ^ i) 0) k ↔ ∀ x ∈ modifierBits, x.1 ∈ keys ↔ HeldKey p codes x.1 := by
    unfold BitsOfLayer
    constructor
    · rintro ⟨keys', hk', hx⟩ x hxm
      rw [hk] at hk'
      cases hk'
      rw [← hx x hxm, testBit_or, ← hbit x hxm]
      simp
    · intro hx
      refine ⟨keys, hk, fun x hxm => ?_⟩
      rw [hx x hxm, testBit_or, ← hbit x hxm]
      simp
  rw [← hB]
  constructor
  · rintro ⟨_, hh | ⟨rfl, _⟩⟩
    · exact hh
    · omega
  · intro hh
    exact ⟨h25 _ (or_lt _ hlt) k hk9 ((bitsOk_iff _ _).1 hh), .inl hh⟩

/-- **C114**: the characters of an entry that is the only one for its virtual key, cut off after 16 bits. -/
theorem C114_chars (m : Dict (List Nat) (List VkVal)) (hne : ∀ x ∈ m, x.2 ≠ []) (charmap : List CharEntry)
    (hkey : ∀ e ∈ charmap, KeyEntry e) (hlen : ∀ e ∈ charmap, 1 ≤ e.2.2.length ∧ e.2.2.length ≤ 8)
    (printable : Char → Bool) (order : List Nat → List Nat) (text : Text) (h : driverText printable order m charmap = .ok text) :
    ∃ p, cProgram text = some p ∧ ∀ e ∈ charmap, (∀ e' ∈ charmap, e'.1 = e.1 → e' = e) → ∀ k,
      (∀ c, e.2.2[k]? = some (.str [c]) → p.char (vkNumber e.1) k = some (c.toNat % 65536)) ∧
      (e.2.2[k]? = some (.other 0) → p.char (vkNumber e.1) k = some 0xF000) ∧
      (e.2.2[k]? = none → p.char (vkNumber e.1) k = none) := by
  refine ⟨_, driverText_program C112_names hne h, fun e he hone k => ?_⟩
  obtain ⟨tables, ht⟩ := (C114_works printable order m charmap).1 ⟨text, h⟩
  obtain ⟨n, hn, _⟩ := hkey e he
  obtain ⟨es, hmem, hchar⟩ := charOf_entries ht (d := ⟨[], [], [], tables, (0, [])⟩) rfl
  have hfind : (es ++ numpad).find? (fun x => x.1 = e.1) = some e := by
    rw [List.find?_append]
    cases hf : es.find? (fun x => x.1 = e.1) with
    | none => exact absurd (List.find?_eq_none.1 hf e ((hmem e).2 he)) (by simp)
    | some y =>
      have hy := List.find?_some hf
      simp only [decide_eq_true_eq] at hy
      rw [hone y ((hmem y).1 (List.mem_of_find?_eq_some hf)) hy]
      rfl
  have hc := char_charOf C112_names m hkey ht hlen (d := ⟨[], [], [], tables, (0, [])⟩) rfl (vkNumber e.1) k
  rw [show VkVal.key (vkNumber e.1) = e.1 by rw [hn]; rfl, hchar, hfind, Option.bind_some] at hc
  rw [hc]
  refine ⟨?_, ?_, ?_⟩
  · intro c hx; rw [hx]; rfl
  · intro hx; rw [hx]; rfl
  · intro hx; rw [hx]; rfl

theorem scancodes_set {m : Dict (List Nat) (List VkVal)} (hs : Scancodes m) {k : List Nat} {n : Nat} (hn : Member (.key n))
    (hk : ∀ e c, k = [e, c] → c < 256) : Scancodes (m.set k [.key n]) := by
  refine ⟨?_, ?_, ?_⟩ <;> intro x hx <;> rcases Dict.mem_set hx with hx | hx
  · intro v hv
    rw [hx] at hv
    rw [List.mem_singleton.1 hv]
    exact hn
  · exact hs.member x hx
  · rw [hx]; rfl
  · exact hs.one x hx
  · rw [hx]; exact hk
  · exact hs.byte x hx

theorem scancodes_driver {m : Dict (List Nat) (List VkVal)} (hs : Scancodes m) : Scancodes (driverScancodes m) := by
  have h1 : Member (.key 0xE2) := by decide +kernel
  have h2 : Member (.key 0xDF) := by decide +kernel
  unfold driverScancodes
  exact scancodes_set (scancodes_set (scancodes_set (scancodes_set hs h1 (by simp)) h1 (by simp)) h2 (by simp)) h2 (by simp)

theorem firstKey_key {vks : List VkVal} {vk : VkVal} (h : firstKey vks = .ok vk) : ∃ n, vk = .key n ∧ .key n ∈ vks := by
  induction vks with
  | nil => cases h
  | cons v vs ih =>
    cases v with
    | key n =>
      simp only [firstKey, Except.ok.injEq] at h
      exact ⟨n, h.symm, List.mem_cons_self⟩
    | flag n =>
      obtain ⟨k, h1, h2⟩ := ih h
      exact ⟨k, h1, List.mem_cons_of_mem _ h2⟩

/-- The entries for a layout are for virtual keys, and there is a text for each layer. -/
theorem entries_key {m : Dict (List Nat) (List VkVal)} (hs' : Scancodes m) {L : KeyboardLayout} {buttons : List Btn} {entries : List (Option CharEntry)}
    (hen : buttons.mapM (winKbdButton m L) = .ok entries) : ∀ e ∈ entries.filterMap id, KeyEntry e ∧ e.2.1 = 0 ∧ e.2.2.length = L.layers.length ∧
      ∀ v ∈ e.2.2, ∃ l ∈ L.layers, ∃ i, v = toWindows ((l.layout.get? i).getD (.other 0)) := by
  intro e he
  obtain ⟨o, ho, hoe⟩ := List.mem_filterMap.1 he
  cases hoe
  rw [mapM_ok_iff] at hen
  obtain ⟨b, _, hbe⟩ := forall₂_right_mem hen ho
  unfold winKbdButton at hbe
  simp only at hbe
  split at hbe
  · cases hbe
  · simp only [bind_ok_iff, Except.ok.injEq, Option.some.injEq] at hbe
    obtain ⟨code, _, vks, hv, vk, hk, rfl⟩ := hbe
    refine ⟨?_, ?_⟩
    · obtain ⟨n, rfl, hn⟩ := firstKey_key hk
      refine ⟨n, rfl, ?_⟩
      unfold vkAt at hv
      split at hv
      · exact hs'.member _ (Dict.mem_of_get? (Dict.getItem_eq_ok.1 hv)) _ hn
      · cases hv
    · refine ⟨rfl, by simp only [List.length_map, KeyboardLayout.getButtonText], ?_⟩
      intro v hv
      simp only [KeyboardLayout.getButtonText, List.mem_map] at hv
      obtain ⟨x, ⟨y, ⟨l, hl, rfl⟩, rfl⟩, rfl⟩ := hv
      exact ⟨l, hl, _, rfl⟩

/-- **C114**: for a layout with one to eight layers, what is typed by the driver compiled from the text is what the driver of
C78 and C79 says: virtual key, layer, and the character of both, cut off after 16 bits. -/
theorem C114_driver (printable : Char → Bool) (order : List Nat → List Nat) (m : Dict (List Nat) (List VkVal)) (hs : Scancodes m)
    (L : KeyboardLayout) (kb : PhysicalKeyboard) (h1 : 1 ≤ L.layers.length) (h8 : L.layers.length ≤ 8) (d : Driver)
    (hd : winKbd m L kb = .ok d) :
    ∃ text p, winKbdText printable order m L kb = .ok text ∧ cProgram text = some p ∧ ∀ held code, p.typed held code =
      (vkOf d code).bind fun vk => (heldLayer d held).bind fun k => (charOf d vk k).bind fun c => typedUnit (c % 65536) := by
  simp only [winKbd, bind_ok_iff, Except.ok.injEq] at hd
  obtain ⟨buttons, hb, entries, hen, wchars, hw, rfl⟩ := hd
  have hs' := scancodes_driver hs
  have hentry : ∀ e ∈ entries.filterMap id, KeyEntry e ∧ 1 ≤ e.2.2.length ∧ e.2.2.length ≤ 8 := by
    intro e he
    obtain ⟨k1, _, k2, _⟩ := entries_key hs' hen e he
    exact ⟨k1, k2 ▸ h1, k2 ▸ h8⟩
  obtain ⟨text, h⟩ := (C114_works printable order (driverScancodes m) _).2 ⟨wchars, hw⟩
  refine ⟨text, _, ?_, driverText_program C112_names (nonempty_of_one hs') h, ?_⟩
  · simp only [winKbdText, bind_ok_iff]
    exact ⟨buttons, hb, entries, hen, h⟩
  intro held code
  generalize hdd : (⟨ausVK (driverScancodes m), vscToVk (driverScancodes m) 0xe0, vscToVk (driverScancodes m) 0xe1, wchars, charModifiers⟩ : Driver) = d
  have hd : DriverHas d (driverScancodes m) := by subst hdd; exact ⟨rfl, rfl, rfl⟩
  have hvk := vk_vkOf C112_names hs' (entries.filterMap id) hd code
  have hlay := layer_held C112_names hs' (entries.filterMap id) hd (by subst hdd; rfl) held
  have hch := char_charOf C112_names (driverScancodes m) (fun e he => (hentry e he).1) hw (fun e he => (hentry e he).2) (d := d) (by subst hdd; rfl)
  generalize driverProgram (driverScancodes m) (entries.filterMap id) = p at hvk hlay hch
  unfold CProgram.typed
  cases hv : vkOf d code with
  | none =>
    rw [hv, Option.map_none, Option.map_eq_none_iff] at hvk
    rw [hvk]
    rfl
  | some v =>
    obtain ⟨a, rfl⟩ := vkOf_key hs' hd hv
    rw [hv, Option.map_some, Option.map_eq_some_iff] at hvk
    obtain ⟨n, hn, hna⟩ := hvk
    change n % 256 = a at hna
    simp only [hn, hlay, hna, hch, Option.bind_eq_bind, Option.bind_some, Option.bind_map, Function.comp_def]

/-- The shipped map of scancodes is as assumed. -/
theorem scancodes_shipped : Scancodes Data.qwertyScancodeToVk ∧ Dict.WF Data.qwertyScancodeToVk := by
  have h1 : Data.qwertyScancodeToVk.all (fun x => (x.2.all fun v => decide (Member v)) && decide ((x.2.filter isKey).length = 1) &&
      match x.1 with
      | [_, c] => decide (c < 256)
      | _ => true) = true := by decide +kernel
  have h2 : Dict.WF Data.qwertyScancodeToVk := by unfold Dict.WF; decide +kernel
  refine ⟨⟨?_, ?_, ?_⟩, h2⟩ <;> intro x hx <;> have := List.all_eq_true.1 h1 x hx <;>
    simp only [Bool.and_eq_true, decide_eq_true_eq, List.all_eq_true] at this
  · exact this.1.1
  · exact this.1.2
  · intro e c hxe
    rw [hxe] at this
    simpa using this.2

/-- **C114**: with the driver compiled from the text for `ar-lulua`, pressing a button in use while the buttons of a
modifier set of layer `k` are held types what the layout has for the button on that layer, and nothing if it has nothing. -/
theorem C114_shipped (printable : Char → Bool) (order : List Nat → List Nat) (t : InternTable) (kb : PhysicalKeyboard)
    (L : KeyboardLayout) (hl : loadFirst Data.arLulua = .ok (t, kb, L)) :
    ∃ text p, winKbdText printable order Data.qwertyScancodeToVk L kb = .ok text ∧ cProgram text = some p ∧
      ∀ b ∈ kb.keys, Used L.layers b.i → ∃ c, windowsCode b = some c ∧
        ∀ k l, L.layers[k]? = some l → ∀ s ∈ l.modifier, TypesFor L.layers b.i k (p.typed (codesOf kb s) c) := by
  have hcheck : fitsShipped = .ok true := by decide +kernel
  simp only [fitsShipped, hl, bind_ok_iff, Except.ok.injEq, Bool.and_eq_true, decide_eq_true_eq] at hcheck
  obtain ⟨x, rfl, ⟨h1, h8⟩, hfit⟩ := hcheck
  dsimp only at h1 h8 hfit
  obtain ⟨d, hd, htypes, hheld⟩ := C79_shipped t kb L hl
  obtain ⟨text, p, htext, hp, hall⟩ := C114_driver printable order _ scancodes_shipped.1 L kb h1 h8 d hd
  refine ⟨text, p, htext, hp, ?_⟩
  intro b hb hu
  obtain ⟨c, vk, hc, hvk, hk⟩ := htypes b hb hu
  refine ⟨c, hc, ?_⟩
  intro k l hkl s hsl
  obtain ⟨n, hn, l', hll, hsays⟩ := hk k (List.getElem?_eq_some_iff.1 hkl).1
  refine ⟨l', hll, ?_⟩
  rw [hall, hvk, Option.bind_some, hheld k l hkl s hsl, Option.bind_some, hn, Option.bind_some]
  rcases hsays with ⟨ch, hch, rfl⟩ | ⟨hno, rfl⟩
  · left
    refine ⟨ch, hch, ?_⟩
    have := List.all_eq_true.1 (List.all_eq_true.1 hfit l' (List.mem_of_getElem? hll)) _ (Dict.mem_of_get? hch)
    simp only [decide_eq_true_eq] at this
    generalize hg : (if ch = '\n' then 13 else ch.toNat) = n
    have hlt : n < 0xF000 := by
      rw [← hg]
      split
      · omega
      · exact this
    rw [Nat.mod_eq_of_lt (by omega), typedUnit, if_neg (by omega)]
  · exact .inr ⟨hno, by decide⟩

/-- Lines of the tables: an unprefixed scancode, a prefixed one, a name, and a number of a layer. -/
example : ausVKLine (vkCName Data.vkval) 0x45 [.key 0x90, .flag 0x0100, .flag 0x0200] =
      "\t /* 45 */ VIRTUALKEY_NUMLOCK | VIRTUALKEYFLAG_EXT | VIRTUALKEYFLAG_MULTIVK,".toList ∧
    vscLine (vkCName Data.vkval) (0x1d, [.key 0xA3, .flag 0x0100]) = "\t{ 0x1d, VIRTUALKEY_RCONTROL | VIRTUALKEYFLAG_EXT },".toList ∧
    nameLine (0x1c, "Enter") = "\t{0x1c, L\"Enter\"},".toList ∧
    modLine (vkCName Data.vkval) id 17 = "\t\t0x4, /* VIRTUALKEY_SHIFT | VIRTUALKEY_OEM_102 */".toList ∧
    modLine (vkCName Data.vkval) id 4 = "\t\t0xf, /* disabled */".toList := by
  decide +kernel

/-- Two scancodes and a character: the text is read, and the key typed. -/
example : ∃ text p, driverText (fun _ => true) id [([0x1e], [.key 0x41]), ([0xe0, 0x1d], [.key 0xA3, .flag 0x0100])]
      [(.key 0x41, 0, [.str ['a'], .other 0])] = .ok text ∧ cProgram text = some p ∧ p.vk [0x1e] = some 0x41 ∧ p.vk [0x1f] = some 0xFF ∧
      p.vk [0xe0, 0x1d] = some 0x1A3 ∧ p.char 0x41 0 = some 97 ∧ p.char 0x41 1 = some 0xF000 ∧ p.keyName false 0x1c = some "Enter".toList := by
  have hs : Scancodes [([0x1e], [.key 0x41]), ([0xe0, 0x1d], [.key 0xA3, .flag 0x0100])] := by
    refine ⟨?_, ?_, ?_⟩ <;> intro x hx <;> simp only [List.mem_cons, List.not_mem_nil, or_false] at hx <;> rcases hx with rfl | rfl
    · decide +kernel
    · decide +kernel
    · rfl
    · rfl
    · simp
    · simp
  obtain ⟨text, h⟩ := (C114_works (fun _ => true) id [([0x1e], [.key 0x41]), ([0xe0, 0x1d], [.key 0xA3, .flag 0x0100])]
    [(.key 0x41, 0, [.str ['a'], .other 0])]).2 ⟨[some ⟨"aVkToWch2", 2, [some ⟨.key 0x41, 0, [97, 0xF000]⟩, none]⟩, some numpadTable, none], by decide +kernel⟩
  obtain ⟨p, hp, h1, _, h3⟩ := C114_scancodes _ (by unfold Dict.WF; decide) hs _ _ _ _ h
  obtain ⟨q, hq, h4⟩ := C114_names _ (nonempty_of_one hs) _ _ _ _ h
  obtain ⟨r, hr, h5⟩ := C114_chars _ (nonempty_of_one hs) _ (by decide +kernel) (by decide) _ _ _ h
  rw [hp] at hq hr
  cases hq
  cases hr
  have h6 := h5 _ List.mem_cons_self (by simp)
  refine ⟨text, p, h, hp, ?_, ?_, ?_, (h6 0).1 'a' rfl, (h6 1).2.1 rfl, ?_⟩
  · rw [h1 0x1e (by decide)]; decide
  · rw [h1 0x1f (by decide)]; decide
  · rw [h3 0xe0 (.inl rfl)]; decide
  · rw [(h4 0x1c).1]; decide +kernel

end Lulua.Props
