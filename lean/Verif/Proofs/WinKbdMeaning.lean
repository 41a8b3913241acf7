import Verif.Proofs.WinKbdValues

/-!
# What the driver does
-/

namespace Lulua
open Spec

theorem table_mem {p : CProgram} (hnd : (p.defs.map CDef.name).Nodup) {d : CDef} (hd : d ∈ p.defs) {type name : String}
    (hname : name.toList = d.name) (htype : d.type = type.toList) : p.table type name = some d.init := by
  unfold CProgram.table
  rw [hname, defNamed_mem hnd hd]
  simp only [Option.bind_eq_bind, Option.bind_some, if_pos htype]

theorem program_nodup (m : Dict (List Nat) (List VkVal)) (charmap : List CharEntry) : ((driverProgram m charmap).defs.map CDef.name).Nodup :=
  driver_names (groupby_sorted (fun x : CharEntry => x.2.2.length) _ (insertionSort_sorted _ charmap)).1 m _

theorem driverDefs_mem {m : Dict (List Nat) (List VkVal)} (charmap : List CharEntry) {d : CDef} (h : d ∈ driverDefs m Data.qwertyScancodeToName) :
    d ∈ (driverProgram m charmap).defs := List.mem_append_left _ h

theorem find_numberKey {α : Type} {ms : List (Text × Nat)} {g : α → CInit} {f : α → Nat} (xs : List α)
    (h : ∀ x ∈ xs, numberKey ms (g x) = some (f x)) (c : Nat) :
    (xs.map g).find? (fun r => numberKey ms r = some c) = (xs.find? fun x => f x = c).map g := by
  induction xs with
  | nil => rfl
  | cons x xs ih =>
    have hx := h x List.mem_cons_self
    rw [List.map_cons, List.find?_cons, List.find?_cons, ih fun y hy => h y (List.mem_cons_of_mem _ hy)]
    simp only [hx, Option.some.injEq]
    by_cases hc : f x = c <;> simp [hc]

theorem numberKey_list {ms : List (Text × Nat)} {x : CInit} {l : List CInit} {n : Nat} (h : cValue ms x = some n) :
    numberKey ms (.list (x :: l)) = some (n % 256) := by
  rw [numberKey, h]
  rfl

theorem cValue_hexWord {w : Nat} (hw : 1 ≤ w) (n : Nat) : cValue driverMacros (.expr [.word (hexWord w n)]) = some n := cWord_hex hw n

/-! ### Scancodes -/

/-- The number stored for virtual keys and flags. -/
def stored (v : List VkVal) : Nat := orAll (v.map vkNumber) % 65536

theorem vk_get {p : CProgram} {α : Type} {L : List α} {g : α → CInit} {f : α → Nat} (ht : p.table "unsigned short" "ausVK" = some (L.map g))
    (hg : ∀ v ∈ L, cValue p.macros (g v) = some (f v)) (i : Nat) : p.vk [i] = L[i]?.map fun v => f v % 65536 := by
  unfold CProgram.vk
  simp only [ht, Option.bind_eq_bind, Option.bind_some, List.getElem?_map]
  cases h : L[i]? with
  | none => rfl
  | some v => simp only [Option.map_some, Option.bind_some, hg v (List.mem_of_getElem? h)]

theorem vk_unprefixed (hn : CNames (vkCName Data.vkval)) {m : Dict (List Nat) (List VkVal)} (hm : ∀ x ∈ m, x.2 ≠ [] ∧ ∀ v ∈ x.2, Member v)
    (charmap : List CharEntry) (i : Nat) : (driverProgram m charmap).vk [i] = (ausVK m)[i]?.map stored := by
  have ht := table_mem (p := driverProgram m charmap) (program_nodup m charmap) (driverDefs_mem charmap (d := ausDef (vkCName Data.vkval) m) (by simp [driverDefs]))
    (type := "unsigned short") (name := "ausVK") rfl (show "unsigned".toList ++ ' ' :: "short".toList = "unsigned short".toList by decide)
  refine vk_get (f := fun v => orAll (v.map vkNumber)) ht ?_ i
  intro v h
  have hv : v ≠ [] ∧ ∀ x ∈ v, Member x := by
    obtain ⟨j, _, rfl⟩ := List.mem_map.1 h
    cases hg : m.get? [j] with
    | none =>
      refine ⟨by simp, fun x hx => ?_⟩
      rw [Option.getD_none, List.mem_singleton] at hx
      subst hx
      decide +kernel
    | some w => exact hm _ (Dict.mem_of_get? hg)
  exact cOr_names hn hv.1 hv.2

theorem vk_rows (hn : CNames (vkCName Data.vkval)) {m : Dict (List Nat) (List VkVal)} (hm : ∀ x ∈ m, x.2 ≠ [] ∧ ∀ v ∈ x.2, Member v)
    (hb : ∀ x ∈ m, ∀ e c, x.1 = [e, c] → c < 256) (e c : Nat) :
    (((((vscToVk m e).filterMap id).map fun x => CInit.list [.expr [.word (hexWord 1 x.1)], .expr (orToks (vkCName Data.vkval) x.2)]).find?
      fun r => numberKey driverMacros r = some c).bind fun row => match row with
        | .list [_, x] => (cValue driverMacros x).bind fun n => some (n % 65536)
        | _ => none) = (rowOf (vscToVk m e) c).map stored := by
  have hk : ∀ x ∈ (vscToVk m e).filterMap id, numberKey driverMacros (.list [.expr [.word (hexWord 1 x.1)], .expr (orToks (vkCName Data.vkval) x.2)]) = some x.1 := by
    intro x hx
    obtain ⟨k, h1, h2⟩ := vscToVk_mem hx
    rw [numberKey_list (cValue_hexWord (by omega) x.1), Nat.mod_eq_of_lt (hb _ h1 _ _ h2)]
  rw [find_numberKey (f := fun x : Nat × List VkVal => x.1) _ hk]
  unfold rowOf
  cases h : ((vscToVk m e).filterMap id).find? fun r => r.1 = c with
  | none => rfl
  | some x =>
    obtain ⟨k, h1, _⟩ := vscToVk_mem (List.mem_of_find?_eq_some h)
    simp only [Option.map_some, Option.bind_some]
    have : cValue driverMacros (.expr (orToks (vkCName Data.vkval) x.2)) = some (orAll (x.2.map vkNumber)) := cOr_names hn (hm _ h1).1 (hm _ h1).2
    rw [this]
    rfl

theorem vk_prefixed (hn : CNames (vkCName Data.vkval)) {m : Dict (List Nat) (List VkVal)} (hm : ∀ x ∈ m, x.2 ≠ [] ∧ ∀ v ∈ x.2, Member v)
    (hb : ∀ x ∈ m, ∀ e c, x.1 = [e, c] → c < 256) (charmap : List CharEntry) (e c : Nat) :
    (driverProgram m charmap).vk [e, c] = (if e = 0xe0 then rowOf (vscToVk m 0xe0) c else if e = 0xe1 then rowOf (vscToVk m 0xe1) c else none).map stored := by
  have h0 := table_mem (p := driverProgram m charmap) (program_nodup m charmap) (driverDefs_mem charmap
    (d := vscDef (vkCName Data.vkval) "aE0VscToVk".toList ((vscToVk m 0xe0).filterMap id)) (by simp [driverDefs])) (type := "VSC_VK") (name := "aE0VscToVk") rfl rfl
  have h1 := table_mem (p := driverProgram m charmap) (program_nodup m charmap) (driverDefs_mem charmap
    (d := vscDef (vkCName Data.vkval) "aE1VscToVk".toList ((vscToVk m 0xe1).filterMap id)) (by simp [driverDefs])) (type := "VSC_VK") (name := "aE1VscToVk") rfl rfl
  unfold CProgram.vk
  by_cases he : e = 0xe0
  · simp only [if_pos he, h0, Option.bind_eq_bind, Option.bind_some]
    exact vk_rows hn hm hb 0xe0 c
  · by_cases he1 : e = 0xe1
    · simp only [if_neg he, if_pos he1, h1, Option.bind_eq_bind, Option.bind_some]
      exact vk_rows hn hm hb 0xe1 c
    · simp only [if_neg he, if_neg he1]
      rfl

/-! ### Virtual keys -/

theorem orAll_mod (l : List Nat) : orAll l % 256 = orAll (l.map (· % 256)) := by
  induction l with
  | nil => rfl
  | cons a l ih =>
    rw [orAll_cons, List.map_cons, orAll_cons, ← ih]
    exact Nat.or_mod_two_pow (n := 8)

theorem stored_key {v : List VkVal} (hm : ∀ x ∈ v, Member x) (h1 : (v.filter isKey).length = 1) {n : Nat} (hk : v.find? isKey = some (.key n)) :
    stored v % 256 = n := by
  have hlt : ∀ n ∈ Data.vkval.map Prod.snd, n < 256 := by decide +kernel
  have hfl : ∀ n ∈ vkFlags.map Prod.snd, n % 256 = 0 := by decide
  unfold stored
  rw [Nat.mod_mod_of_dvd _ (by decide : 256 ∣ 65536), orAll_mod, List.map_map]
  have hz : ∀ v : List VkVal, (∀ x ∈ v, Member x) → v.filter isKey = [] → orAll (v.map ((· % 256) ∘ vkNumber)) = 0 := by
    intro v
    induction v with
    | nil => intro _ _; rfl
    | cons x v ih =>
      intro hm h
      cases x with
      | key a => simp [isKey] at h
      | flag a =>
        have ha := hfl a (hm _ List.mem_cons_self)
        rw [List.filter_cons_of_neg (by simp [isKey])] at h
        rw [List.map_cons, orAll_cons, ih (fun y hy => hm y (List.mem_cons_of_mem _ hy)) h]
        simp [vkNumber, ha]
  induction v with
  | nil => cases hk
  | cons x v ih =>
    cases x with
    | key a =>
      simp only [List.find?_cons, isKey, Option.some.injEq, VkVal.key.injEq] at hk
      subst hk
      rw [List.filter_cons_of_pos (by rfl), List.length_cons] at h1
      rw [List.map_cons, orAll_cons, hz v (fun y hy => hm y (List.mem_cons_of_mem _ hy)) (List.length_eq_zero_iff.1 (by omega)), Nat.or_zero]
      exact Nat.mod_eq_of_lt (hlt a (hm _ List.mem_cons_self))
    | flag a =>
      have ha := hfl a (hm _ List.mem_cons_self)
      rw [List.filter_cons_of_neg (by simp [isKey])] at h1
      simp only [List.find?_cons, isKey] at hk
      rw [List.map_cons, orAll_cons, ih (fun y hy => hm y (List.mem_cons_of_mem _ hy)) h1 hk]
      simp [vkNumber, ha]

/-! ### Modifiers -/

theorem find_isKey {v : List VkVal} (h1 : (v.filter isKey).length = 1) : ∃ n, v.find? isKey = some (.key n) := by
  cases h : v.find? isKey with
  | none =>
    have : v.filter isKey = [] := by
      rw [List.filter_eq_nil_iff]
      exact List.find?_eq_none.1 h
    rw [this] at h1
    cases h1
  | some x =>
    have := List.find?_some h
    cases x with
    | key n => exact ⟨n, rfl⟩
    | flag n => cases this

theorem Spec.Scancodes.good {m : Dict (List Nat) (List VkVal)} (h : Scancodes m) : ∀ x ∈ m, x.2 ≠ [] ∧ ∀ v ∈ x.2, Member v := by
  intro x hx
  refine ⟨?_, h.member x hx⟩
  intro he
  have := h.one x hx
  rw [he] at this
  cases this

/-- What the tables have for a scancode. -/
def driverRow (m : Dict (List Nat) (List VkVal)) : List Nat → Option (List VkVal)
  | [i] => (ausVK m)[i]?
  | [e, c] => if e = 0xe0 then rowOf (vscToVk m 0xe0) c else if e = 0xe1 then rowOf (vscToVk m 0xe1) c else none
  | _ => none

theorem vk_row (hn : CNames (vkCName Data.vkval)) {m : Dict (List Nat) (List VkVal)} (hs : Scancodes m) (charmap : List CharEntry)
    (code : List Nat) : (driverProgram m charmap).vk code = (driverRow m code).map stored := by
  match code with
  | [] => rfl
  | [i] => exact vk_unprefixed hn hs.good charmap i
  | [e, c] => exact vk_prefixed hn hs.good hs.byte charmap e c
  | _ :: _ :: _ :: _ => rfl

theorem driverRow_good {m : Dict (List Nat) (List VkVal)} (hs : Scancodes m) {code : List Nat} {v : List VkVal} (h : driverRow m code = some v) :
    (∀ x ∈ v, Member x) ∧ (v.filter isKey).length = 1 := by
  have hr : ∀ e c, rowOf (vscToVk m e) c = some v → (∀ x ∈ v, Member x) ∧ (v.filter isKey).length = 1 := by
    intro e c h
    unfold rowOf at h
    rw [Option.map_eq_some_iff] at h
    obtain ⟨x, hx, rfl⟩ := h
    obtain ⟨k, hk, _⟩ := vscToVk_mem (List.mem_of_find?_eq_some hx)
    exact ⟨hs.member _ hk, hs.one _ hk⟩
  match code, h with
  | [i], h =>
    obtain ⟨j, _, rfl⟩ := List.mem_map.1 (List.mem_of_getElem? h)
    cases hg : m.get? [j] with
    | none =>
      refine ⟨fun x hx => ?_, rfl⟩
      rw [Option.getD_none, List.mem_singleton] at hx
      subst hx
      decide +kernel
    | some w => exact ⟨hs.member _ (Dict.mem_of_get? hg), hs.one _ (Dict.mem_of_get? hg)⟩
  | [e, c], h =>
    change (if e = 0xe0 then rowOf (vscToVk m 0xe0) c else if e = 0xe1 then rowOf (vscToVk m 0xe1) c else none) = some v at h
    split at h
    · exact hr _ _ h
    · split at h
      · exact hr _ _ h
      · cases h

/-- The driver has these scancodes. -/
structure DriverHas (d : Driver) (m : Dict (List Nat) (List VkVal)) : Prop where
  vks : d.vks = ausVK m
  e0 : d.e0 = vscToVk m 0xe0
  e1 : d.e1 = vscToVk m 0xe1

theorem vkOf_row {d : Driver} {m : Dict (List Nat) (List VkVal)} (hd : DriverHas d m) (code : List Nat) :
    vkOf d code = (driverRow m code).bind fun v => v.find? isKey := by
  match code with
  | [] => rfl
  | [i] => rw [vkOf, driverRow, hd.vks]
  | [e, c] => rw [vkOf, driverRow, hd.e0, hd.e1]
  | _ :: _ :: _ :: _ => rfl

theorem vk_vkOf (hn : CNames (vkCName Data.vkval)) {m : Dict (List Nat) (List VkVal)} (hs : Scancodes m) (charmap : List CharEntry) {d : Driver}
    (hd : DriverHas d m) (code : List Nat) : ((driverProgram m charmap).vk code).map (· % 256) = (vkOf d code).map vkNumber := by
  rw [vk_row hn hs, vkOf_row hd]
  cases h : driverRow m code with
  | none => rfl
  | some v =>
    obtain ⟨h1, h2⟩ := driverRow_good hs h
    obtain ⟨n, hk⟩ := find_isKey h2
    simp only [Option.map_some, Option.bind_some, stored_key h1 h2 hk, hk, vkNumber]

theorem vkOf_key {m : Dict (List Nat) (List VkVal)} (hs : Scancodes m) {d : Driver} (hd : DriverHas d m) {code : List Nat} {v : VkVal}
    (h : vkOf d code = some v) : ∃ n, v = .key n := by
  rw [vkOf_row hd] at h
  cases hr : driverRow m code with
  | none => rw [hr] at h; cases h
  | some w =>
    rw [hr, Option.bind_some] at h
    obtain ⟨n, hk⟩ := find_isKey (driverRow_good hs hr).2
    rw [hk] at h
    cases h
    exact ⟨n, rfl⟩

theorem rows_until {p : CProgram} {α : Type} {g : α → CInit} {f : α → Nat} {xs : List α} (hg : ∀ x ∈ xs, numberKey p.macros (g x) = some (f x))
    (h0 : ∀ x ∈ xs, f x ≠ 0) {e : CInit} (he : numberKey p.macros e = some 0) : p.rows (xs.map g ++ [e]) = xs.map g := by
  unfold CProgram.rows
  refine takeWhile_rows _ ?_ _ (by simp [he]) []
  intro r hr
  obtain ⟨x, hx, rfl⟩ := List.mem_map.1 hr
  simp [hg x hx, h0 x hx]

theorem modBits_get {p : CProgram} {L : List (Nat × Nat)} {g : Nat × Nat → CInit} (hg : ∀ x, ∃ a b, g x = .list [a, b] ∧ cValue p.macros b = some x.2)
    {bits : List CInit} (hb : p.rows bits = L.map g) (hk : ∀ x ∈ L, numberKey p.macros (g x) = some x.1) (code : List Nat) :
    p.modBits bits code = ((p.vk code).map (· % 256)).bind fun k => (L.find? fun x => x.1 = baseKey k).map fun x => x.2 % 256 := by
  unfold CProgram.modBits
  cases h : p.vk code with
  | none => rfl
  | some n =>
    simp only [Option.bind_eq_bind, Option.bind_some, Option.map_some, hb, find_numberKey (f := fun x : Nat × Nat => x.1) _ hk]
    cases hf : L.find? fun x => x.1 = baseKey (n % 256) with
    | none => rfl
    | some x =>
      obtain ⟨a, b, h1, h2⟩ := hg x
      simp only [Option.map_some, Option.bind_some, h1, h2]

theorem bits_shift (k : Nat) : ((vkToBitsTable.find? fun x => x.1 = k).map fun x => x.2 % 256) =
    ((modifierBits.find? fun x => x.1 = k).map Prod.snd).map (2 ^ ·) := by
  simp only [vkToBitsTable, modifierBits, List.find?_cons]
  repeat' split
  all_goals first | rfl | simp_all

theorem modBits_bitOf (hn : CNames (vkCName Data.vkval)) {m : Dict (List Nat) (List VkVal)} (hs : Scancodes m) (charmap : List CharEntry) {d : Driver}
    (hd : DriverHas d m) (code : List Nat) :
    (driverProgram m charmap).modBits (bitsDef (vkCName Data.vkval)).init code = (bitOf d code).map (2 ^ ·) := by
  have hmem : ∀ x ∈ vkToBitsTable, Member (.key x.1) := by decide +kernel
  have hlt : ∀ x ∈ vkToBitsTable, x.1 % 256 = x.1 ∧ x.1 ≠ 0 := by decide
  have hk : ∀ x ∈ vkToBitsTable, numberKey (driverProgram m charmap).macros
      (.list [.expr [.word (vkCName Data.vkval (.key x.1))], .expr [.word (hexWord 1 x.2)]]) = some x.1 := by
    intro x hx
    have hv : cValue driverMacros (.expr [.word (vkCName Data.vkval (.key x.1))]) = some x.1 := cWord_member hn (hmem x hx)
    have := numberKey_list (l := [.expr [.word (hexWord 1 x.2)]]) hv
    rw [(hlt x hx).1] at this
    exact this
  have h0 : numberKey (driverProgram m charmap).macros (.list [.expr [.word ['0']], .expr [.word "0x0".toList]]) = some 0 := by
    have : cValue driverMacros (.expr [.word ['0']]) = some 0 := by
      show cWord driverMacros ['0'] = some 0
      rw [cWord_digit (c := '0') (r := []) rfl (by decide)]
      decide
    exact numberKey_list this
  have hrows := rows_until (p := driverProgram m charmap) (f := fun x : Nat × Nat => x.1) hk (fun x hx => (hlt x hx).2) h0
  have hget := modBits_get (fun x => ⟨_, _, rfl, cValue_hexWord (by omega) x.2⟩) hrows hk code
  unfold bitsDef
  rw [hget, vk_vkOf hn hs charmap hd]
  unfold bitOf
  cases h : vkOf d code with
  | none => rfl
  | some v =>
    obtain ⟨n, rfl⟩ := vkOf_key hs hd h
    simp only [Option.map_some, Option.bind_some, vkNumber]
    exact bits_shift _

theorem layer_get {p : CProgram} {name : Text} {max : CInit} {bits : List CInit} {nums : List Nat} {g : Nat → CInit} {n : Nat}
    (ht : p.table "MODIFIERS" "CharModifiers" = some [.expr [.punct '&', .word name, .punct '[', .word ['0'], .punct ']'], max, .list (nums.map g)])
    (hb : p.table "VK_TO_BIT" (String.ofList name) = some bits) (hmax : cValue p.macros max = some n) (hn : nums.length = n + 1)
    (hg : ∀ k ∈ nums, cValue p.macros (g k) = some k) (hlt : ∀ k ∈ nums, k < 256) (codes : List (List Nat)) :
    p.layer codes = nums[orAll (codes.filterMap (p.modBits bits))]? := by
  unfold CProgram.layer
  simp only [ht, Option.bind_eq_bind, Option.bind_some, hb, hmax, true_and, List.getElem?_map]
  rw [show (codes.filterMap (p.modBits bits)).foldl (fun a b => a ||| b) 0 = orAll (codes.filterMap (p.modBits bits)) from rfl]
  generalize orAll (codes.filterMap (p.modBits bits)) = i
  by_cases hi : i ≤ n
  · rw [if_pos hi]
    have h := List.getElem?_eq_getElem (l := nums) (i := i) (by omega)
    have hm := List.mem_of_getElem? h
    simp only [h, Option.map_some, Option.bind_some, hg _ hm, Nat.mod_eq_of_lt (hlt _ hm)]
  · rw [if_neg hi, List.getElem?_eq_none (by omega)]

theorem layer_held (hn : CNames (vkCName Data.vkval)) {m : Dict (List Nat) (List VkVal)} (hs : Scancodes m) (charmap : List CharEntry) {d : Driver}
    (hd : DriverHas d m) (hmod : d.modifiers = charModifiers) (codes : List (List Nat)) :
    (driverProgram m charmap).layer codes = heldLayer d codes := by
  have ht := table_mem (p := driverProgram m charmap) (program_nodup m charmap) (driverDefs_mem charmap
    (d := modsDef ((List.range 25).map modNumber)) (by simp [driverDefs])) (type := "MODIFIERS") (name := "CharModifiers") rfl rfl
  have hb := table_mem (p := driverProgram m charmap) (program_nodup m charmap) (driverDefs_mem charmap
    (d := bitsDef (vkCName Data.vkval)) (by simp [driverDefs])) (type := "VK_TO_BIT") (name := String.ofList "aVkToBits".toList) (by rw [String.toList_ofList]; rfl) rfl
  have h24 : cValue (driverProgram m charmap).macros (.expr [.word "24".toList]) = some 24 := by
    show cWord driverMacros "24".toList = some 24
    rw [cWord_digit (c := '2') (r := ['4']) (by decide) (by decide)]
    decide
  rw [layer_get ht hb h24 (by simp) (fun k _ => cValue_hexWord (by omega) k) (by
    have : ∀ i < 25, modNumber i < 256 := by decide +kernel
    intro k hk
    obtain ⟨i, hi, rfl⟩ := List.mem_map.1 hk
    exact this i (List.mem_range.1 hi))]
  unfold heldLayer
  rw [hmod]
  have e : codes.filterMap ((driverProgram m charmap).modBits (bitsDef (vkCName Data.vkval)).init) = (codes.filterMap (bitOf d)).map (2 ^ ·) := by
    rw [List.map_filterMap]
    congr 1
    funext code
    exact modBits_bitOf hn hs charmap hd code
  rw [e]
  unfold orAll
  rw [List.foldl_map]
  rfl

/-! ### Names -/

theorem keyName_get {p : CProgram} {ext : Bool} {L : List (Nat × String)} {e : CInit} (he : numberKey p.macros e = some 0)
    {g : Nat × String → CInit} (hg : ∀ x, ∃ a, g x = .list [a, .expr [.word ['L'], .str x.2.toList]])
    (ht : p.table "VSC_LPWSTR" (if ext then "aKeyNamesExt" else "aKeyNames") = some (L.map g ++ [e]))
    (hk : ∀ x ∈ L, numberKey p.macros (g x) = some x.1) (h0 : ∀ x ∈ L, x.1 ≠ 0) (c : Nat) :
    p.keyName ext c = (L.find? fun x => x.1 = c).map fun x => x.2.toList := by
  unfold CProgram.keyName
  simp only [ht, Option.bind_eq_bind, Option.bind_some, rows_until (f := fun x : Nat × String => x.1) hk h0 he,
    find_numberKey (f := fun x : Nat × String => x.1) _ hk]
  cases hf : L.find? fun x => x.1 = c with
  | none => rfl
  | some x =>
    obtain ⟨a, ha⟩ := hg x
    simp only [Option.map_some, Option.bind_some, ha, if_true]

theorem keyName_rows (m : Dict (List Nat) (List VkVal)) (charmap : List CharEntry) (c : Nat) :
    (driverProgram m charmap).keyName false c = (rowOf (keyNames Data.qwertyScancodeToName) c).map String.toList ∧
      (driverProgram m charmap).keyName true c = (rowOf (keyNamesExt Data.qwertyScancodeToName) c).map String.toList := by
  have h0 : numberKey (driverProgram m charmap).macros (.list [.expr [.word "0x00".toList], .expr [.word "NULL".toList]]) = some 0 := by
    have : cValue driverMacros (.expr [.word "0x00".toList]) = some 0 := by
      show cWord driverMacros "0x00".toList = some 0
      rw [cWord_digit (c := '0') (r := "x00".toList) (by decide) (by decide)]
      decide +kernel
    exact numberKey_list this
  have hlt : ∀ x ∈ (keyNames Data.qwertyScancodeToName).filterMap id ++ (keyNamesExt Data.qwertyScancodeToName).filterMap id,
      x.1 % 256 = x.1 ∧ x.1 ≠ 0 := by decide +kernel
  have hk : ∀ x : Nat × String, x.1 % 256 = x.1 → numberKey (driverProgram m charmap).macros
      (.list [.expr [.word (hexWord 2 x.1)], .expr [.word ['L'], .str x.2.toList]]) = some x.1 := by
    intro x hx
    have := numberKey_list (l := [.expr [.word ['L'], .str x.2.toList]]) (cValue_hexWord (w := 2) (by omega) x.1)
    rw [hx] at this
    exact this
  have t1 := table_mem (p := driverProgram m charmap) (program_nodup m charmap) (driverDefs_mem charmap
    (d := namesDef "aKeyNames".toList ((keyNames Data.qwertyScancodeToName).filterMap id)) (by simp [driverDefs])) (type := "VSC_LPWSTR") (name := "aKeyNames") rfl rfl
  have t2 := table_mem (p := driverProgram m charmap) (program_nodup m charmap) (driverDefs_mem charmap
    (d := namesDef "aKeyNamesExt".toList ((keyNamesExt Data.qwertyScancodeToName).filterMap id)) (by simp [driverDefs])) (type := "VSC_LPWSTR") (name := "aKeyNamesExt") rfl rfl
  refine ⟨?_, ?_⟩
  · rw [keyName_get (ext := false) h0 (fun x => ⟨_, rfl⟩) t1 (fun x hx => hk x (hlt x (List.mem_append_left _ hx)).1)
      (fun x hx => (hlt x (List.mem_append_left _ hx)).2), rowOf, Option.map_map]
    rfl
  · rw [keyName_get (ext := true) h0 (fun x => ⟨_, rfl⟩) t2 (fun x hx => hk x (hlt x (List.mem_append_right _ hx)).1)
      (fun x hx => (hlt x (List.mem_append_right _ hx)).2), rowOf, Option.map_map]
    rfl

/-! ### Characters -/

theorem cValue_char (hn : CNames (vkCName Data.vkval)) {v : LVal} {n : Nat} (h : wcharRepr v = .ok n) :
    cValue driverMacros (.expr [charTok v]) = some n := by
  rcases wcharRepr_ok.1 h with ⟨rfl, rfl⟩ | ⟨c, rfl, rfl⟩
  · show cWord driverMacros "WCHAR_NONE".toList = some 0xF000
    refine cWord_macro hn ?_
    unfold driverMacros
    exact List.mem_append_right _ (List.mem_append_right _ List.mem_cons_self)
  · have e : charTok (.str [c]) = .word ('0' :: 'x' :: (hex4 c.toNat ++ ['u'])) := by
      rw [charTok]
      congr 1
    rw [e]
    show cWord driverMacros ('0' :: 'x' :: (hex4 c.toNat ++ ['u'])) = some c.toNat
    rw [cWord_digit (c := '0') (r := 'x' :: (hex4 c.toNat ++ ['u'])) rfl (by decide), cNumber_hex, hex4_value]

theorem row_key (hn : CNames (vkCName Data.vkval)) {e : CharEntry} (h : KeyEntry e) :
    numberKey driverMacros (rowInit (vkCName Data.vkval) e) = some (vkNumber e.1) ∧ vkNumber e.1 ≠ 0 := by
  obtain ⟨n, he, hm⟩ := h
  have hlt : ∀ n ∈ Data.vkval.map Prod.snd, n % 256 = n ∧ n ≠ 0 := by decide +kernel
  have hv : cValue driverMacros (.expr [.word (vkCName Data.vkval e.1)]) = some (vkNumber e.1) := by
    rw [he]
    exact cWord_member hn hm
  have := numberKey_list (l := [.expr [.word (natText e.2.1)], .list (e.2.2.map fun v => .expr [charTok v])]) hv
  have h2 := hlt n hm
  rw [he] at this ⊢
  rw [show vkNumber (.key n) = n from rfl, h2.1] at this
  exact ⟨by unfold rowInit; rw [he]; exact this, h2.2⟩

theorem find_key (v : Nat) {es : List CharEntry} (h : ∀ e ∈ es, KeyEntry e) :
    (es.find? fun e => vkNumber e.1 = v) = es.find? fun e => e.1 = .key v := by
  induction es with
  | nil => rfl
  | cons e es ih =>
    obtain ⟨n, he, _⟩ := h e List.mem_cons_self
    rw [List.find?_cons, List.find?_cons, ih fun x hx => h x (List.mem_cons_of_mem _ hx), he]
    by_cases hv : n = v <;> simp [vkNumber, hv]

theorem charRows_get {p : CProgram} (hnd : (p.defs.map CDef.name).Nodup) {vkName : VkVal → Text} {pre : Text} {x : Nat × List CharEntry}
    (hd : tableDef vkName pre x ∈ p.defs) (h1 : 1 ≤ x.1) (h8 : x.1 ≤ 8)
    (hk : ∀ e ∈ x.2, numberKey p.macros (rowInit vkName e) = some (vkNumber e.1) ∧ vkNumber e.1 ≠ 0)
    (h0 : numberKey p.macros (endInit x.1) = some 0) : p.charRows (refInit x.1 pre) = some (x.2.map (rowInit vkName)) := by
  have hm : natText x.1 ∈ ["1", "2", "3", "4", "5", "6", "7", "8"].map String.toList := by
    have : ∀ n < 9, 1 ≤ n → natText n ∈ ["1", "2", "3", "4", "5", "6", "7", "8"].map String.toList := by decide +kernel
    exact this _ (by omega) h1
  have ht := table_mem hnd hd (type := String.ofList ("VK_TO_WCHARS".toList ++ natText x.1)) (name := String.ofList (wtableName x.1 pre))
    (by rw [String.toList_ofList]; rfl) (by rw [String.toList_ofList]; rfl)
  unfold CProgram.charRows refInit
  simp only
  rw [ht]
  simp only [Option.bind_eq_bind, Option.bind_some]
  rw [if_pos ⟨trivial, hm, trivial⟩]
  congr 1
  exact rows_until (f := fun e : CharEntry => vkNumber e.1) (fun e he => (hk e he).1) (fun e he => (hk e he).2) h0

theorem char_get {p : CProgram} {refs : List CInit} {e : CInit} (ht : p.table "VK_TO_WCHAR_TABLE" "aVkToWcharTable" = some (refs ++ [e]))
    (hr : ∀ r ∈ refs, firstIs "NULL" r = false) (he : firstIs "NULL" e = true) {rows : List (List CInit)}
    (hm : refs.mapM p.charRows = some rows) {vkName : VkVal → Text} {es : List CharEntry} (hes : rows.flatten = es.map (rowInit vkName))
    (hk : ∀ e ∈ es, numberKey p.macros (rowInit vkName e) = some (vkNumber e.1))
    (hc : ∀ e ∈ es, ∀ v ∈ e.2.2, ∃ n, wcharRepr v = .ok n ∧ cValue p.macros (.expr [charTok v]) = some n) (vk k : Nat) :
    p.char vk k = ((es.find? fun e => vkNumber e.1 = vk).bind fun e => e.2.2[k]?.bind fun x => (wcharRepr x).toOption).map (· % 65536) := by
  have htw : (refs ++ [e]).takeWhile (fun r => !firstIs "NULL" r) = refs :=
    takeWhile_rows refs (fun r h => by rw [hr r h]; rfl) e (by rw [he]; rfl) []
  unfold CProgram.char
  simp only [ht, Option.bind_eq_bind, Option.bind_some, htw, hm, hes, find_numberKey (f := fun e : CharEntry => vkNumber e.1) _ hk]
  cases hf : es.find? fun e => vkNumber e.1 = vk with
  | none => rfl
  | some x =>
    simp only [Option.map_some, Option.bind_some, rowInit, List.getElem?_map]
    cases hx : x.2.2[k]? with
    | none => rfl
    | some v =>
      obtain ⟨n, h1, h2⟩ := hc x (List.mem_of_find?_eq_some hf) v (List.mem_of_getElem? hx)
      simp only [Option.map_some, Option.bind_some, h1, h2]
      rfl

theorem numpad_keys : ∀ e ∈ numpad, KeyEntry e := by decide +kernel

theorem char_charOf (hn : CNames (vkCName Data.vkval)) (m : Dict (List Nat) (List VkVal)) {charmap : List CharEntry}
    (hkey : ∀ e ∈ charmap, KeyEntry e) {tables : List (Option WTable)} (ht : vkToWchar charmap = .ok tables)
    (hlen : ∀ e ∈ charmap, 1 ≤ e.2.2.length ∧ e.2.2.length ≤ 8) {d : Driver} (hd : d.wchars = tables) (vk k : Nat) :
    (driverProgram m charmap).char vk k = (charOf d (.key vk) k).map (· % 65536) := by
  have hg := groupby_sorted (fun x : CharEntry => x.2.2.length) _ (insertionSort_sorted _ charmap)
  have h18 : ∀ x ∈ charGroups charmap, 1 ≤ x.1 ∧ x.1 ≤ 8 := by
    intro x hx
    obtain ⟨e, he, hxe⟩ := (hg.2.1 x.1).1 (List.mem_map_of_mem hx)
    have := hlen e ((List.mem_insertionSort _).1 he)
    rw [hxe] at this
    exact this
  have hke : ∀ x ∈ charGroups charmap, ∀ e ∈ x.2, KeyEntry e := by
    intro x hx e he
    rw [hg.2.2 x hx] at he
    exact hkey e ((List.mem_insertionSort _).1 (List.mem_filter.1 he).1)
  have h0 : ∀ n, numberKey (driverProgram m charmap).macros (endInit n) = some 0 := by
    intro n
    have : cValue driverMacros word0 = some 0 := by
      show cWord driverMacros ['0'] = some 0
      rw [cWord_digit (c := '0') (r := []) rfl (by decide)]
      decide
    exact numberKey_list this
  have hnd := program_nodup m charmap
  have hsub : ∀ d ∈ charDefs (vkCName Data.vkval) (charGroups charmap), d ∈ (driverProgram m charmap).defs := fun d h => List.mem_append_right _ h
  clear hg
  simp only [vkToWchar, bind_ok_iff, Except.ok.injEq] at ht
  generalize hp : driverProgram m charmap = p at hnd hsub h0 ⊢
  have hmac : p.macros = driverMacros := by rw [← hp]; rfl
  change ∃ ts, List.mapM _ (charGroups charmap) = _ ∧ _ at ht
  generalize charGroups charmap = groups at h18 ht hsub hke
  obtain ⟨ts, h1, num, h2, rfl⟩ := ht
  rw [mapM_ok_iff] at h1
  obtain ⟨R1, f1, e1⟩ := tables_rows h1
  obtain ⟨R2, f2, e2⟩ := tables_rows (groups := [(1, numpad)]) (ts := [num]) (.cons h2 .nil)
  have f := List.rel_append f1 f2
  have hrows : ((d.wchars.filterMap id).flatMap fun t => t.rows.filterMap id) = (R1 ++ R2).filterMap id := by
    rw [hd, List.filterMap_append (l := R1), ← e1, ← e2]
    simp [List.flatMap_def]
  have hall : ∀ e ∈ (groups.map Prod.snd).flatten ++ ([(1, numpad)].map Prod.snd).flatten, KeyEntry e := by
    intro e he
    rcases List.mem_append.1 he with he | he
    · obtain ⟨l, hl, he⟩ := List.mem_flatten.1 he
      obtain ⟨x, hx, rfl⟩ := List.mem_map.1 hl
      exact hke x hx e he
    · exact numpad_keys e (by simpa using he)
  unfold charOf
  rw [hrows, find_chars f, ← find_key vk hall]
  have hrefs := table_mem hnd (hsub (refsDef (groups.map Prod.fst)) (by simp [charDefs])) (type := "VK_TO_WCHAR_TABLE") (name := "aVkToWcharTable") rfl rfl
  have ei : (refsDef (groups.map Prod.fst)).init = ((groups.map fun x => refInit x.1 []) ++ [refInit 1 "Num".toList]) ++ [nullInit] := by
    rw [List.append_assoc, show (groups.map fun x => refInit x.1 []) = (groups.map Prod.fst).map fun n => refInit n [] by rw [List.map_map]; rfl]
    rfl
  rw [ei] at hrefs
  refine char_get (vkName := vkCName Data.vkval) hrefs ?_ (by decide) (rows := (groups.map fun x => x.2.map (rowInit (vkCName Data.vkval))) ++ [numpad.map (rowInit (vkCName Data.vkval))]) ?_ ?_ ?_ ?_ vk k
  · intro r hr
    rcases List.mem_append.1 hr with hr | hr
    · obtain ⟨x, _, rfl⟩ := List.mem_map.1 hr
      rfl
    · rw [List.mem_singleton] at hr
      subst hr
      rfl
  · have hsub' : ∀ x ∈ groups, tableDef (vkCName Data.vkval) [] x ∈ p.defs := fun x hx =>
      hsub _ (List.mem_append_left _ (List.mem_map_of_mem hx))
    have g1 : (groups.map fun x => refInit x.1 []).mapM p.charRows = some (groups.map fun x => x.2.map (rowInit (vkCName Data.vkval))) := by
      clear hsub h1 f1 e1 f hrows hrefs ei hall
      induction groups with
      | nil => rfl
      | cons x xs ih =>
        rw [List.map_cons, List.mapM_cons, charRows_get hnd (hsub' x List.mem_cons_self) (h18 x List.mem_cons_self).1 (h18 x List.mem_cons_self).2
          (fun e he => by rw [hmac]; exact row_key hn (hke x List.mem_cons_self e he)) (h0 _),
          ih (fun y hy => h18 y (List.mem_cons_of_mem _ hy)) (fun y hy => hke y (List.mem_cons_of_mem _ hy)) (fun y hy => hsub' y (List.mem_cons_of_mem _ hy))]
        rfl
    have g2 := charRows_get hnd (pre := "Num".toList) (x := (1, numpad)) (hsub (tableDef (vkCName Data.vkval) "Num".toList (1, numpad)) (by simp [charDefs])) (by decide) (by decide)
      (fun e he => by rw [hmac]; exact row_key hn (numpad_keys e he)) (h0 _)
    rw [List.mapM_append, g1, List.mapM_cons, g2]
    rfl
  · simp [List.map_flatten, List.map_map, Function.comp_def]
  · intro e he
    rw [hmac]
    exact (row_key hn (hall e he)).1
  · intro e he v hv
    obtain ⟨n, hw⟩ := chars_ok f he v hv
    rw [hmac]
    exact ⟨n, hw, cValue_char hn hw⟩

end Lulua
