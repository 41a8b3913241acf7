import Verif.Proofs.Keyboard

/-!
# Properties C10–C16: buttons, keyboards, generic layouts
-/

namespace Lulua.Props
open Lulua Spec

/-! ### C10: a button is its name -/

/-- Whatever buttons a process creates, in whatever order and however often: two of them are equal
exactly if they were created with the same name, and each still has that name at the end. -/
theorem C10_equal_iff_same_name (names : List String) :
    let r := createAll InternTable.initial names
    ∃ hl : r.2.length = names.length,
      ∀ i j (hi : i < names.length) (hj : j < names.length),
        (r.2[i] = r.2[j] ↔ names[i] = names[j]) ∧ r.1.nameOf r.2[i] = .ok names[i] := by
  obtain ⟨h1, h2, h3⟩ := represents_createAll represents_initial names
  refine ⟨h2, fun i j hi hj => ?_⟩
  have hi' := h3 i hi (by omega)
  have hj' := h3 j hj (by omega)
  refine ⟨?_, h1.nameOf_ok.2 hi'⟩
  constructor
  · intro e
    rw [e, hj'] at hi'
    simpa using hi'.symm
  · intro e
    exact h1.inj (h1.nameOf_ok.2 hi') (h1.nameOf_ok.2 (by rw [e]; exact hj'))

example : (createAll InternTable.initial ["a", "b", "a", "c", "b"]).2 = [0, 1, 0, 2, 1] := by
  decide +kernel

/-! ### C11: pickled buttons in another process -/

/-- A button number means, in a process that created buttons `names`, the name at that position of
the list of distinct names in creation order; a number outside is a `KeyError`. -/
theorem C11_name_by_creation_order (names : List String) (i : Button) :
    (tableAfter names).nameOf i =
      match (distinct names)[i]? with
      | some n => .ok n
      | none => .error .keyError :=
  (represents_tableAfter names).nameOf i

/-- A button pickled (only its number is stored) in a process with creation history `h₁` has the
same name in a process with history `h₂` for every button of the first process exactly if the
second created the same names first, in the same order. -/
theorem C11_pickled_buttons (h₁ h₂ : List String) :
    (∀ i n, (tableAfter h₁).nameOf i = .ok n → (tableAfter h₂).nameOf i = .ok n) ↔
      distinct h₁ <+: distinct h₂ := by
  simp only [(represents_tableAfter h₁).nameOf_ok, (represents_tableAfter h₂).nameOf_ok]
  constructor
  · intro h
    rw [List.prefix_iff_getElem?]
    intro i hi
    exact h i _ (List.getElem?_eq_getElem hi)
  · intro h i n hi
    exact prefix_getElem? h hi

/-- In particular, creating more buttons later never renames one. -/
theorem C11_later_buttons_keep_names (names more : List String) (i : Button) (n : String)
    (h : (tableAfter names).nameOf i = .ok n) : (tableAfter (names ++ more)).nameOf i = .ok n := by
  refine (C11_pickled_buttons names (names ++ more)).2 ?_ i n h
  unfold distinct
  rw [List.foldl_append]
  exact foldl_addName_prefix _ _

/-- Loading keyboards in a different order gives the unpickled button another name. -/
theorem C11_order_matters :
    (tableAfter ["Bl1", "Bl2"]).nameOf 0 = .ok "Bl1" ∧
    (tableAfter ["Bl2", "Bl1"]).nameOf 0 = .ok "Bl2" := by decide +kernel

example : distinct ["Bl1", "Bl2", "Bl1"] <+: distinct ["Bl1", "Bl2", "Bl3"] := by decide +kernel

/-! ### C12: keyboard lookups -/

/-- Looking up a name succeeds with the first button of that name, or raises `KeyError` if the
keyboard has none. -/
theorem C12_find (t : InternTable) (kb : PhysicalKeyboard) (hn : Named t kb.keys) (name : String) :
    (∃ b pre post, kb.find t name = .ok b ∧ kb.keys = pre ++ b :: post ∧
      t.nameOf b.i = .ok name ∧ ∀ x ∈ pre, t.nameOf x.i ≠ .ok name) ∨
    (kb.find t name = .error .keyError ∧ ¬ HasButton t kb name) := by
  cases h : kb.find t name with
  | ok b =>
    obtain ⟨pre, post, h1, h2, h3⟩ := findLoop_ok h
    exact .inl ⟨b, pre, post, rfl, h1, h2, h3⟩
  | error e =>
    obtain ⟨h1, h2⟩ := findLoop_error hn h
    exact .inr ⟨by rw [h1], fun ⟨b, hb, hb'⟩ => h2 b hb hb'⟩

/-- Every button of a keyboard without duplicates is found by its name. -/
theorem C12_find_every_button (names : List String) (kb : PhysicalKeyboard)
    (hn : Named (tableAfter names) kb.keys) (hd : (kb.keys.map Btn.i).Nodup) (b : Btn)
    (hb : b ∈ kb.keys) :
    ∃ n, (tableAfter names).nameOf b.i = .ok n ∧ kb.find (tableAfter names) n = .ok b := by
  obtain ⟨n, hbn⟩ := hn b hb
  refine ⟨n, hbn, ?_⟩
  rcases C12_find _ kb hn n with ⟨x, pre, post, h1, h2, h3, h4⟩ | ⟨_, h2⟩
  · rw [h1]
    congr 1
    have hi : x.i = b.i := (represents_tableAfter names).inj h3 hbn
    have hx : x ∈ kb.keys := by rw [h2]; simp
    exact List.inj_on_of_nodup_map hd hx hb hi
  · exact absurd ⟨b, hb, hbn⟩ h2

/-- The length is the number of buttons enumerated. -/
theorem C12_len (kb : PhysicalKeyboard) : kb.len = kb.keys.length := len_eq_keys kb

/-- The buttons enumerated are those of the rows, rows in order, left before right. -/
theorem C12_keys (kb : PhysicalKeyboard) :
    kb.keys = (kb.rows.map fun r => r.1 ++ r.2).flatten := by
  simp [PhysicalKeyboard.keys, List.flatMap]

/-- The row of a button is the last row containing it; a button that is in no row is a
`KeyError`. -/
theorem C12_getRow (name description : String) (rows : List (Row Btn)) (b : Button) :
    (∃ i, ∃ h : i < rows.length, (PhysicalKeyboard.mk' name description rows).getRow b = .ok i ∧
      InRow rows[i] b ∧ ∀ j (hj : j < rows.length), i < j → ¬ InRow rows[j] b) ∨
    ((PhysicalKeyboard.mk' name description rows).getRow b = .error .keyError ∧
      ∀ i (h : i < rows.length), ¬ InRow rows[i] b) := by
  unfold PhysicalKeyboard.mk' PhysicalKeyboard.getRow Dict.getItem
  rcases rowTable_get? 0 rows [] b with ⟨i, hi, h1, h2, h3⟩ | ⟨h1, h2⟩
  · left
    refine ⟨i, hi, ?_, h1, h2⟩
    simp only [h3, Nat.zero_add]
  · right
    refine ⟨?_, h1⟩
    simp only [h2, Dict.get?_nil]

/-- If no button is in two rows, the row of a button is the row it is in. -/
theorem C12_getRow_unique (name description : String) (rows : List (Row Btn)) (b : Button)
    (i : Nat) (h : i < rows.length) (hb : InRow rows[i] b)
    (hu : ∀ j (hj : j < rows.length), InRow rows[j] b → j = i) :
    (PhysicalKeyboard.mk' name description rows).getRow b = .ok i := by
  rcases C12_getRow name description rows b with ⟨j, hj, h1, h2, _⟩ | ⟨_, h2⟩
  · rw [h1, hu j hj h2]
  · exact absurd hb (h2 i h)

/-- A letter button without scancodes, for the examples. -/
def demoBtn (i : Nat) : Btn :=
  { i := i, kind := .letter, width := 1, isMarked := false, scancode := none, span := none }

/-- Two rows of three buttons; the tables after creating their names. -/
def demoKb : PhysicalKeyboard :=
  PhysicalKeyboard.mk' "demo" "" [([demoBtn 0], [demoBtn 1]), ([], [demoBtn 2])]

def demoTable : InternTable := tableAfter ["Bl1", "Br1", "Cr1"]

theorem demoKb_named : Named demoTable demoKb.keys := by
  intro b hb
  have h : demoKb.keys = [demoBtn 0, demoBtn 1, demoBtn 2] := by decide +kernel
  rw [h] at hb
  simp only [List.mem_cons, List.not_mem_nil, or_false] at hb
  rcases hb with rfl | rfl | rfl
  · exact ⟨"Bl1", by decide +kernel⟩
  · exact ⟨"Br1", by decide +kernel⟩
  · exact ⟨"Cr1", by decide +kernel⟩

example : demoKb.find demoTable "Cr1" = .ok (demoBtn 2) ∧ demoKb.getRow 2 = .ok 1 ∧
    demoKb.find demoTable "Fr1" = .error .keyError := by decide +kernel

/-! ### C13: keyboard serialization round trip -/

/-- Serializing a keyboard built by the constructors and deserializing the result in the same
process gives the same keyboard: rows, kinds, widths, marks, scancodes, spans and numbers. -/
theorem C13_keyboard_roundtrip (names : List String) (name description : String)
    (rows : List (Row Btn))
    (hc : ∀ r ∈ rows, ∀ b ∈ r.1 ++ r.2, Constructed (tableAfter names) b) :
    ∃ d kb' d', (PhysicalKeyboard.mk' name description rows).serialize (tableAfter names) = .ok (d, kb') ∧
      PhysicalKeyboard.deserialize (tableAfter names) d =
        .ok (tableAfter names, PhysicalKeyboard.mk' name description rows, d') := by
  obtain ⟨ds, bs', h1, ds', h2⟩ := rows_roundtrip (represents_tableAfter names) hc
  refine ⟨⟨name, description, ds⟩, { PhysicalKeyboard.mk' name description rows with rows := bs' },
    ⟨name, description, ds'⟩, ?_, ?_⟩
  · simp only [PhysicalKeyboard.serialize, PhysicalKeyboard.mk', h1, bind, Except.bind]
  · simp only [PhysicalKeyboard.deserialize, h2, bind, Except.bind]

/-- Every keyboard that deserialization returns satisfies the hypothesis of the round trip. -/
theorem C13_deserialized_is_constructed (names : List String) (d d' : KeyboardData)
    (t : InternTable) (kb : PhysicalKeyboard)
    (h : PhysicalKeyboard.deserialize (tableAfter names) d = .ok (t, kb, d')) :
    ∀ r ∈ kb.rows, ∀ b ∈ r.1 ++ r.2, Constructed t b := by
  unfold PhysicalKeyboard.deserialize at h
  cases h1 : deserializeRows (tableAfter names) d.rows with
  | error e => simp [h1, bind, Except.bind] at h
  | ok r =>
    obtain ⟨t1, rows, drows⟩ := r
    simp only [h1, bind, Except.bind, Except.ok.injEq, Prod.mk.injEq] at h
    obtain ⟨rfl, rfl, _⟩ := h
    exact (deserializeRows_ok (represents_tableAfter names) h1).1

/-- Deserializing a canonical description and serializing the keyboard gives the description. -/
theorem C13_description_roundtrip (names : List String) (d : KeyboardData)
    (hc : ∀ r ∈ d.rows, ∀ b ∈ r.1 ++ r.2, Canonical b) :
    ∃ t kb d', PhysicalKeyboard.deserialize (tableAfter names) d = .ok (t, kb, d') ∧
      ∃ kb', kb.serialize t = .ok (d, kb') := by
  obtain ⟨t', _, bs, ds', h1, _, _, h2⟩ := dataRows_roundtrip (represents_tableAfter names) hc
  obtain ⟨bs', h3⟩ := h2 t' (fun _ _ h => h)
  refine ⟨t', PhysicalKeyboard.mk' d.name d.description bs, ⟨d.name, d.description, ds'⟩,
    by simp only [PhysicalKeyboard.deserialize, h1, bind, Except.bind], ?_⟩
  exact ⟨_, by simp only [PhysicalKeyboard.serialize, PhysicalKeyboard.mk', h3, bind, Except.bind]; rfl⟩

/-- The return button of ibmpc105, spanning two rows, with scancodes. -/
def demoReturn : Btn :=
  { i := 0, kind := .multi, width := 3/2, isMarked := false,
    scancode := some [("xorg", .num 36), ("windows", .tuple [0x1c])], span := some 2 }

example : Constructed (tableAfter ["CD_ret"]) demoReturn where
  named := ⟨"CD_ret", by decide +kernel⟩
  windows := by
    intro d v hd hv
    simp only [demoReturn, Option.some.injEq] at hd
    subst hd
    exact ⟨[0x1c], by simpa [Dict.get?] using hv.symm⟩
  span := by simp [demoReturn]

/-- Its description. -/
def demoReturnData : ButtonData :=
  ⟨some "CD_ret", some "multi", some (3/2), none, some (some [("windows", .list [0x1c])]), some 2⟩

example : Canonical demoReturnData where
  name := rfl
  width := rfl
  isMarked := by simp [demoReturnData]
  kind := by simp [demoReturnData]
  span := by simp [demoReturnData]
  scancode := rfl
  windows := by
    intro s v hs hv
    simp only [demoReturnData, Option.some.injEq] at hs
    subst hs
    exact ⟨[0x1c], by simpa [Dict.get?] using hv.symm⟩

/-! ### C14: side effects of (de)serialization

The expectation that neither changes its argument is false. -/

/-- Serializing a button that has windows scancodes changes the button: its tuple of scancodes
becomes a list. -/
theorem C14_serialize_changes_button (t : InternTable) (b b' : Btn) (d : ButtonData)
    (sc : Dict String ScVal) (l : List ScAtom) (hsc : b.scancode = some sc)
    (hw : sc.get? "windows" = some (.tuple l)) (h : b.serialize t = .ok (d, b')) :
    b'.scancode = some (sc.set "windows" (.list l)) ∧ b' ≠ b := by
  unfold Btn.serialize at h
  cases hn : t.nameOf b.i with
  | error e => simp [hn, bind, Except.bind] at h
  | ok n =>
    have hconv : Scancode.convWindows ScVal.toList b.scancode = .ok (some (sc.set "windows" (.list l))) := by
      simp [hsc, Scancode.convWindows, hw, ScVal.toList, bind, Except.bind]
    simp only [hn, hconv, bind, Except.bind, Except.ok.injEq, Prod.mk.injEq] at h
    obtain ⟨_, rfl⟩ := h
    refine ⟨rfl, ?_⟩
    intro e
    have e2 : some (sc.set "windows" (.list l)) = some sc := by
      have := congrArg Btn.scancode e; simpa [hsc] using this
    have e3 := congrArg (fun x => (x.getD []).get? "windows") e2
    simp only [Option.getD_some, Dict.get?_set_self, hw, Option.some.injEq, reduceCtorEq] at e3

/-- Deserializing removes the kind from the description, so deserializing the same description
again gives a plain button, or a `TypeError` if it was a multi row button. -/
theorem C14_deserialize_consumes_kind (names : List String) (t : InternTable) (b : Btn)
    (d d' : ButtonData) (h : Btn.deserialize (tableAfter names) d = .ok (t, b, d')) :
    d'.kind = none ∧
    (b.kind = .multi → Btn.deserialize t d' = .error .typeError) ∧
    (∀ t2 b2 d2, Btn.deserialize t d' = .ok (t2, b2, d2) → b2.kind = .standard) := by
  unfold Btn.deserialize at h
  cases hk : kindMap (d.kind.getD "standard") with
  | error e => simp [hk, bind, Except.bind] at h
  | ok kind =>
    cases hc : construct (tableAfter names) kind { d with kind := none } with
    | error e => simp [hk, hc, bind, Except.bind] at h
    | ok r =>
      obtain ⟨t1, b1⟩ := r
      simp only [hk, hc, bind, Except.bind, Except.ok.injEq, Prod.mk.injEq] at h
      obtain ⟨rfl, rfl, rfl⟩ := h
      obtain ⟨n, sc, hn, _, hcon, hkind, _, _, _, hspan, _⟩ := construct_ok (represents_tableAfter names) hc
      refine ⟨rfl, ?_, ?_⟩
      · intro hm
        obtain ⟨s, hs⟩ := Option.isSome_iff_exists.1 (hcon.span.2 hm)
        rw [hs] at hspan
        simp only at hspan hn
        simp only [Btn.deserialize, Option.getD_none, kindMap, if_true, bind, Except.bind, construct, hn,
          ← hspan]
      · intro t2 b2 d2 h2
        unfold Btn.deserialize at h2
        simp only [Option.getD_none, kindMap, if_true, bind, Except.bind] at h2
        cases hc2 : construct t1 .standard ⟨d.name, none, d.width, d.isMarked,
            d.scancode.map fun _ => b1.scancode, d.span⟩ with
        | error e => rw [hc2] at h2; simp at h2
        | ok r2 =>
          rw [hc2] at h2
          simp only [Except.ok.injEq, Prod.mk.injEq] at h2
          obtain ⟨_, rfl, _⟩ := h2
          obtain ⟨ns, hr⟩ : ∃ ns, Represents t1 ns := by
            obtain ⟨_, _, _, e, _⟩ := construct_ok (represents_tableAfter names) hc
            exact ⟨_, by rw [e]; exact (represents_intern (represents_tableAfter names) _).1⟩
          obtain ⟨_, _, _, _, _, hk2, _⟩ := construct_ok hr hc2
          exact hk2

/-- A letter button deserialized twice from the same dict is a letter button only once. -/
theorem C14_second_deserialize_differs :
    ∃ t b d' t2 b2 d2,
      Btn.deserialize InternTable.initial { name := some "Cl1", kind := some "letter" } = .ok (t, b, d') ∧
      Btn.deserialize t d' = .ok (t2, b2, d2) ∧ b.kind = .letter ∧ b2.kind = .standard ∧ b ≠ b2 :=
  ⟨_, _, _, _, _, _, rfl, rfl, rfl, rfl, by decide +kernel⟩

/-- What does hold: a button without windows scancodes is not changed by serializing it, and a
description without kind and windows scancodes is not changed by deserializing it. -/
theorem C14_no_side_effect_partial (t : InternTable) :
    (∀ b d b', (∀ sc, b.scancode = some sc → sc.get? "windows" = none) →
      Btn.serialize t b = .ok (d, b') → b' = b) ∧
    (∀ d t' b d', d.kind = none → (∀ sc, d.scancode = some (some sc) → sc.get? "windows" = none) →
      Btn.deserialize t d = .ok (t', b, d') → d' = d) := by
  constructor
  · intro b d b' hw h
    unfold Btn.serialize at h
    cases hn : t.nameOf b.i with
    | error e => simp [hn, bind, Except.bind] at h
    | ok n =>
      have hconv : Scancode.convWindows ScVal.toList b.scancode = .ok b.scancode := by
        cases hb : b.scancode with
        | none => rfl
        | some sc => simp [Scancode.convWindows, hw sc hb]
      simp only [hn, hconv, bind, Except.bind, Except.ok.injEq, Prod.mk.injEq] at h
      exact h.2.symm
  · intro d t' b d' hk hw h
    obtain ⟨name, kind, width, isMarked, scancode, span⟩ := d
    simp only at hk hw
    subst hk
    have hconv : Scancode.convWindows ScVal.toTuple (scancode.getD none) = .ok (scancode.getD none) := by
      cases hs : scancode with
      | none => rfl
      | some sc =>
        cases sc with
        | none => rfl
        | some x => simp [Scancode.convWindows, hw x hs]
    cases name with
    | none => simp [Btn.deserialize, construct, kindMap, bind, Except.bind] at h
    | some n =>
      cases span with
      | some s => simp [Btn.deserialize, construct, kindMap, bind, Except.bind] at h
      | none =>
        simp only [Btn.deserialize, construct, kindMap, if_true, bind, Except.bind, Option.getD_none,
          hconv, Except.ok.injEq, Prod.mk.injEq] at h
        obtain ⟨_, rfl, rfl⟩ := h
        cases scancode <;> rfl

/-! ### C15: generic layout round trip -/

/-- Deserializing a serialized layout gives an equal layout, whatever order the members of the
modifier sets are written in. -/
theorem C15_layout_roundtrip (order : List String → List String)
    (ho : ∀ s, (order s).Perm s) (g : GenericLayout) :
    let g' := GenericLayout.deserialize (g.serialize order)
    g'.name = g.name ∧ List.Forall₂ SameLayer g'.layers g.layers := by
  refine ⟨rfl, ?_⟩
  simp only [GenericLayout.deserialize, GenericLayout.serialize, List.map_map]
  rw [List.forall₂_map_left_iff]
  refine List.forall₂_same.2 ?_
  intro l _
  refine ⟨rfl, ?_⟩
  simp only [Function.comp, List.map_map]
  rw [List.forall₂_map_left_iff]
  refine List.forall₂_same.2 ?_
  intro m _ n
  simp only [Function.comp, mem_nameSet]
  exact (ho m).mem_iff

/-- Serializing a deserialized description gives the description, up to order and repetition of
names in its modifier lists. -/
theorem C15_description_roundtrip (order : List String → List String)
    (ho : ∀ s, (order s).Perm s) (d : LayoutData) :
    let d' := (GenericLayout.deserialize d).serialize order
    d'.name = d.name ∧ List.Forall₂ SameLayer d'.layout d.layout := by
  refine ⟨rfl, ?_⟩
  simp only [GenericLayout.deserialize, GenericLayout.serialize, List.map_map]
  rw [List.forall₂_map_left_iff]
  refine List.forall₂_same.2 ?_
  intro l _
  refine ⟨rfl, ?_⟩
  simp only [Function.comp, List.map_map]
  rw [List.forall₂_map_left_iff]
  refine List.forall₂_same.2 ?_
  intro m _ n
  simp only [Function.comp]
  rw [(ho _).mem_iff, mem_nameSet]

/-- Exactly the same description comes back if no modifier list repeats a name and the members are
written in the order they were read. -/
theorem C15_description_exact (d : LayoutData)
    (hd : ∀ l ∈ d.layout, ∀ m ∈ l.modifier, m.Nodup) :
    (GenericLayout.deserialize d).serialize id = d := by
  obtain ⟨name, layout⟩ := d
  simp only [GenericLayout.deserialize, GenericLayout.serialize, List.map_map, LayoutData.mk.injEq,
    true_and]
  conv_rhs => rw [← List.map_id layout]
  apply List.map_congr_left
  intro l hl
  obtain ⟨ms, es⟩ := l
  simp only [Function.comp, List.map_id, id, GLayer.mk.injEq, and_true]
  conv_rhs => rw [← List.map_id ms]
  apply List.map_congr_left
  intro m hm
  exact nameSet_of_nodup (hd _ hl m hm)

/-- A layout with two modifier sets, read back with the members reversed. -/
def demoGeneric : GenericLayout :=
  { name := "demo",
    layers := [{ modifier := [[]], layout := [("Bl1", .str ['a'])] },
               { modifier := [["Br1", "Cr1"], ["Cr1"]], layout := [("Bl1", .str ['A', 'b'])] }] }

example : (∀ s : List String, (s.reverse).Perm s) ∧
    (demoGeneric.serialize List.reverse).layout ≠ demoGeneric.layers := by
  refine ⟨fun s => List.reverse_perm s, by decide +kernel⟩

/-! ### C16: specialization -/

/-- Specializing a layout succeeds exactly if the keyboard has every button the layout mentions,
as key or modifier, and raises `KeyError` otherwise. -/
theorem C16_specialize_succeeds_iff (t : InternTable) (g : GenericLayout) (kb : PhysicalKeyboard)
    (hn : Named t kb.keys) :
    ((∃ l, g.specialize t kb = .ok l) ↔ ∀ l ∈ g.layers, ∀ n ∈ layerNames l, HasButton t kb n) ∧
    (∀ e, g.specialize t kb = .error e → e = .keyError) := by
  unfold GenericLayout.specialize
  rcases specLayers_iff hn g.layers with ⟨⟨ls, h1⟩, h2⟩ | ⟨h1, l, hl, n, hln, hno⟩
  · simp only [h1, bind, Except.bind]
    exact ⟨⟨fun _ => h2, fun _ => ⟨_, rfl⟩⟩, by simp⟩
  · simp only [h1, bind, Except.bind]
    exact ⟨⟨by simp, fun h => absurd (h l hl n hln) hno⟩, by rintro e he; simpa using he.symm⟩

/-- The specialized layout has the same layers in the same order, with each button's text on the
button of that name and nothing else, and the modifier sets translated name by name. -/
theorem C16_specialize_correct (names : List String) (g : GenericLayout) (kb : PhysicalKeyboard)
    (hn : Named (tableAfter names) kb.keys) (hd : ∀ l ∈ g.layers, Dict.WF l.layout)
    (L : KeyboardLayout) (h : g.specialize (tableAfter names) kb = .ok L) :
    L.name = g.name ∧ List.Forall₂ (Translates (tableAfter names) kb) g.layers L.layers := by
  unfold GenericLayout.specialize at h
  cases h1 : GenericLayout.specLayers (tableAfter names) kb g.layers with
  | error e => simp [h1, bind, Except.bind] at h
  | ok ls =>
    simp only [h1, bind, Except.bind, Except.ok.injEq] at h
    subst h
    exact ⟨rfl, specLayers_translates (represents_tableAfter names) hn hd h1⟩

example : ∃ L, demoGeneric.specialize demoTable demoKb = .ok L ∧
    L.layers = [{ modifier := [[]], layout := [(0, .str ['a'])] },
                { modifier := [[1, 2], [2]], layout := [(0, .str ['A', 'b'])] }] :=
  ⟨_, rfl, by decide +kernel⟩

example : ∀ l ∈ demoGeneric.layers, Dict.WF l.layout := by decide +kernel

end Lulua.Props
