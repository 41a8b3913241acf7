import Std.Data.String.ToNat
import Verif.Proofs.Xml
import Verif.Props.Export

/-!
# Properties of the XML files for macOS and AnySoftKeyboard
-/

namespace Lulua.Props
open Lulua Spec

/-- **C111**: what `serializeXml` writes is read as the element it was written for, if every value consists of characters
XML has; otherwise it cannot be read. -/
theorem C111_roundtrip (e : Xml) (he : Xml.Named e) (e' : Xml) :
    ReadsAs (serializeXml e) e' ↔ e' = e ∧ ∀ v ∈ Xml.values e, XmlText v := by
  have h := fun n => xmlElement_serialize e he n []
  simp only [List.append_nil] at h
  unfold ReadsAs
  constructor
  · rintro ⟨n, hn⟩
    rw [h n] at hn
    split at hn
    · rename_i hc
      exact ⟨(Prod.mk.inj (Option.some.inj hn)).1.symm, hc.2⟩
    · cases hn
  · rintro ⟨rfl, hv⟩
    exact ⟨e'.need, by rw [h, if_pos ⟨le_refl _, hv⟩]⟩

/-- **C111**: when what is written is well-formed. -/
theorem C111_wellFormed (e : Xml) (he : Xml.Named e) : WellFormed (serializeXml e) ↔ ∀ v ∈ Xml.values e, XmlText v := by
  unfold WellFormed
  simp only [C111_roundtrip e he]
  exact ⟨fun ⟨_, _, h⟩ => h, fun h => ⟨e, rfl, h⟩⟩

/-! ### Names -/

def nameOk (s : Text) : Bool := (match s with | [] => false | c :: _ => xmlNameStart c) && s.all xmlNameChar

theorem nameOk_iff (s : Text) : nameOk s = true → XmlName s := by
  intro h
  unfold nameOk at h
  rw [Bool.and_eq_true] at h
  refine ⟨?_, List.all_eq_true.1 h.2⟩
  cases s with
  | nil => cases h.1
  | cons c t => exact ⟨c, t, rfl, h.1⟩

theorem allNamed_iff (es : List Xml) : Xml.AllNamed es ↔ ∀ e ∈ es, Xml.Named e := by
  induction es with
  | nil => simp [Xml.AllNamed]
  | cons e es ih => simp [Xml.AllNamed, ih]

theorem mem_allValues (es : List Xml) (v : Text) : v ∈ Xml.allValues es ↔ ∃ e ∈ es, v ∈ Xml.values e := by
  induction es with
  | nil => simp [Xml.allValues]
  | cons e es ih => simp [Xml.allValues, ih]

/-- The names of an element and whether they are fine. -/
def namesOk (tag : String) (ks : List String) : Bool := nameOk tag.toList && (ks.all fun k => nameOk k.toList) && decide ks.Nodup

theorem node_named {tag : String} {attribs : List (String × Text)} {children : List Xml} (h : namesOk tag (attribs.map Prod.fst) = true)
    (hc : ∀ e ∈ children, Xml.Named e) : Xml.Named (.node tag attribs children) := by
  simp only [namesOk, Bool.and_eq_true, List.all_eq_true, decide_eq_true_eq] at h
  obtain ⟨⟨h1, h2⟩, h3⟩ := h
  refine ⟨nameOk_iff _ h1, ?_, ?_, (allNamed_iff _).2 hc⟩
  · intro p hp
    obtain ⟨q, hq, rfl⟩ := List.mem_map.1 hp
    exact nameOk_iff _ (h2 _ (List.mem_map_of_mem hq))
  · have := h3.map (f := String.toList) (fun a b hab => String.toList_inj.1 hab)
    simpa [List.map_map, Function.comp_def] using this

theorem leaf_named {tag : String} {attribs : List (String × Text)} (h : namesOk tag (attribs.map Prod.fst) = true) :
    Xml.Named (.leaf tag attribs) := node_named h (by simp)

theorem node_values (tag : String) (attribs : List (String × Text)) (children : List Xml) :
    (∀ v ∈ Xml.values (.node tag attribs children), XmlText v) ↔
      (∀ p ∈ attribs, XmlText p.2) ∧ ∀ e ∈ children, ∀ v ∈ Xml.values e, XmlText v := by
  simp only [Xml.node, Xml.values, List.map_map, List.mem_append, mem_allValues]
  constructor
  · intro h
    exact ⟨fun p hp => h p.2 (.inl (List.mem_map.2 ⟨p, hp, rfl⟩)), fun e he v hv => h v (.inr ⟨e, he, hv⟩)⟩
  · rintro ⟨h1, h2⟩ v (hv | ⟨e, he, hv⟩)
    · obtain ⟨p, hp, rfl⟩ := List.mem_map.1 hv
      exact h1 p hp
    · exact h2 e he v hv

theorem leaf_values (tag : String) (attribs : List (String × Text)) :
    (∀ v ∈ Xml.values (.leaf tag attribs), XmlText v) ↔ ∀ p ∈ attribs, XmlText p.2 :=
  (node_values tag attribs []).trans (by simp)

/-! ### Numbers -/

theorem natText_xml (n : Nat) : XmlText (natText n) := by
  intro c hc
  have h := Nat.isDigit_of_mem_toDigits (by omega) (by omega) hc
  simp only [Char.isDigit, Bool.and_eq_true, decide_eq_true_eq, ge_iff_le, UInt32.le_iff_toNat_le] at h
  have h1 : 48 ≤ c.toNat := h.1
  have h2 : c.toNat ≤ 57 := h.2
  exact .inr (.inr (.inr (.inl ⟨by omega, by omega⟩)))

theorem natText_inj {m n : Nat} (h : natText m = natText n) : m = n := by
  refine Nat.repr_injective ?_
  unfold Nat.repr
  exact congrArg String.ofList h

/-! ### macOS -/

theorem keylayoutRoot_named (ct : ScVal → Text) (name : Text) (maps : List (List (ScVal × Text))) :
    Xml.Named (keylayoutRoot ct name maps) := by
  refine node_named (show namesOk "keyboard" ["group", "id", "name", "maxout"] = true by decide +kernel) fun e he => ?_
  simp only [List.mem_cons, List.not_mem_nil, or_false] at he
  rcases he with rfl | rfl | rfl
  · refine node_named (by decide +kernel) fun e he => ?_
    obtain ⟨p, _, rfl⟩ := List.mem_map.1 he
    refine node_named (show namesOk "keyMapSelect" ["mapIndex"] = true by decide +kernel) fun e he => ?_
    rw [List.mem_singleton] at he
    subst he
    exact leaf_named (show namesOk "modifier" ["keys"] = true by decide +kernel)
  · refine node_named (by decide +kernel) fun e he => ?_
    obtain ⟨p, _, rfl⟩ := List.mem_map.1 he
    refine node_named (show namesOk "keyMap" ["index"] = true by decide +kernel) fun e he => ?_
    obtain ⟨k, _, rfl⟩ := List.mem_map.1 he
    exact leaf_named (show namesOk "key" ["code", "output"] = true by decide +kernel)
  · refine node_named (by decide +kernel) fun e he => ?_
    rw [List.mem_singleton] at he
    subst he
    exact leaf_named (by decide +kernel)

theorem keylayoutRoot_values (ct : ScVal → Text) (name : Text) (maps : List (List (ScVal × Text))) :
    (∀ v ∈ Xml.values (keylayoutRoot ct name maps), XmlText v) ↔
      XmlText name ∧ ∀ m ∈ maps, ∀ k ∈ m, XmlText (ct k.1) ∧ XmlText k.2 := by
  unfold keylayoutRoot
  rw [node_values]
  have a1 : (∀ v ∈ Xml.values (Xml.node "modifierMap" [("id", ['0']), ("defaultIndex", ['0'])]
      (["", "anyShift caps?", "caps", "anyOption"].zipIdx.map fun p =>
        Xml.node "keyMapSelect" [("mapIndex", natText p.2)] [.leaf "modifier" [("keys", p.1.toList)]])), XmlText v) := by
    decide +kernel
  have a3 : (∀ v ∈ Xml.values (Xml.node "layouts" []
      [.leaf "layout" [("first", ['0']), ("last", ['0']), ("modifiers", ['0']), ("mapSet", ['1'])]]), XmlText v) := by
    decide +kernel
  have a0 : XmlText ['0'] := by decide +kernel
  have a1' : XmlText ['1'] := by decide +kernel
  have a3' : XmlText ['3'] := by decide +kernel
  have a14 : XmlText "14242".toList := by decide +kernel
  have a2 : (∀ v ∈ Xml.values (Xml.node "keyMapSet" [("id", ['1'])]
      (maps.zipIdx.map fun p => Xml.node "keyMap" [("index", natText p.2)]
        (p.1.map fun k => .leaf "key" [("code", ct k.1), ("output", k.2)]))), XmlText v) ↔
      ∀ m ∈ maps, ∀ k ∈ m, XmlText (ct k.1) ∧ XmlText k.2 := by
    rw [node_values]
    simp only [List.mem_singleton, forall_eq, a1', true_and, List.forall_mem_map, node_values, natText_xml, leaf_values,
      List.forall_mem_cons]
    constructor
    · intro h m hm
      obtain ⟨i, hi, rfl⟩ := List.mem_iff_getElem.1 hm
      exact h (maps[i], i) (by rw [List.mem_zipIdx_iff_getElem?]; simp [hi])
    · intro h p hp
      exact h p.1 (List.fst_mem_of_mem_zipIdx hp)
  constructor
  · rintro ⟨h1, h2⟩
    exact ⟨h1 ("name", name) (by simp), a2.1 (h2 _ (by simp))⟩
  · rintro ⟨h1, h2⟩
    constructor
    · intro p hp
      simp only [List.mem_cons, List.not_mem_nil, or_false] at hp
      rcases hp with rfl | rfl | rfl | rfl
      exacts [a0, a14, h1, a3']
    · intro e he
      simp only [List.mem_cons, List.not_mem_nil, or_false] at he
      rcases he with rfl | rfl | rfl
      exacts [a1, a2.2 h2, a3]

/-- **C111**: the file for macOS can be read if and only if the name and all texts of the layout consist of characters XML has.
(What is missing is that it is written like this for other layouts, too.) -/
theorem C111_partial (ct : ScVal → Text) (name : String) (L : KeyboardLayout) (kb : PhysicalKeyboard) (maps : List (List (ScVal × Text)))
    (h : keylayout (some name) L kb = .ok maps) (hct : ∀ m ∈ maps, ∀ k ∈ m, XmlText (ct k.1)) :
    WellFormed (serializeXml (keylayoutRoot ct name.toList maps)) ↔
      XmlText name.toList ∧ ∀ l ∈ L.layers, ∀ e ∈ l.layout, ∃ t, e.2 = .str t ∧ XmlText t := by
  rw [C111_wellFormed _ (keylayoutRoot_named ..), keylayoutRoot_values]
  refine and_congr_right fun _ => ?_
  have hm := C84_maps _ L kb maps h
  constructor
  · intro h1 l hl e he
    obtain ⟨ks, hks, h2⟩ := forall₂_left_mem hm hl
    obtain ⟨k, hk, _, h4⟩ := forall₂_left_mem h2 he
    exact ⟨k.2, h4, (h1 ks hks k hk).2⟩
  · intro h1 ks hks k hk
    refine ⟨hct ks hks k hk, ?_⟩
    obtain ⟨l, hl, h2⟩ := forall₂_right_mem hm hks
    obtain ⟨e, he, _, h4⟩ := forall₂_right_mem h2 hk
    obtain ⟨t, h5, h6⟩ := h1 l hl e he
    rw [h4] at h5
    cases h5
    exact h6

theorem lookup_leaf (tag : String) (attribs : List (String × Text)) (cs : List Xml) (k : String) :
    (Xml.node tag attribs cs).attrib k = attribs.lookup k := by
  simp only [Xml.node, Xml.attrib]
  induction attribs with
  | nil => rfl
  | cons p ps ih =>
    obtain ⟨a, b⟩ := p
    by_cases h : k = a
    · subst h; simp
    · have h' : k.toList ≠ a.toList := fun hh => h (String.toList_inj.1 hh)
      simp only [List.map_cons, List.lookup_cons, beq_eq_false_iff_ne.2 h, beq_eq_false_iff_ne.2 h', ih]

theorem tagged_all {t : String} {es : List Xml} (h : ∀ e ∈ es, e.tag = t.toList) : tagged t es = es := by
  unfold tagged
  rw [List.filter_eq_self]
  simpa using h

theorem find_index {α : Type} (f : α × Nat → Xml) (xs : List α) (hf : ∀ p, (f p).attrib "index" = some (natText p.2)) (i : Nat) :
    (xs.zipIdx.map f).find? (fun m => m.attrib "index" = some (natText i)) = xs[i]?.map fun x => f (x, i) := by
  rw [List.find?_map]
  have h : ((fun m : Xml => decide (m.attrib "index" = some (natText i))) ∘ f) = fun p : α × Nat => decide (p.2 = i) := by
    funext p
    simp only [Function.comp_apply, hf, Option.some.injEq]
    exact decide_eq_decide.2 ⟨natText_inj, fun h => by rw [h]⟩
  rw [h]
  suffices ∀ n, (xs.zipIdx n).find? (fun p => decide (p.2 = n + i)) = xs[i]?.map fun x => (x, n + i) by
    have := this 0
    simp only [Nat.zero_add] at this
    rw [this, Option.map_map]
    rfl
  clear h hf f
  induction xs generalizing i with
  | nil => simp
  | cons x xs ih =>
    intro n
    rw [List.zipIdx_cons, List.find?_cons]
    cases i with
    | zero => simp
    | succ i =>
      simp only [List.getElem?_cons_succ]
      rw [show decide (n = n + (i + 1)) = false by simp]
      have := ih i (n + 1)
      rw [show n + 1 + i = n + (i + 1) by omega] at this
      exact this

/-- **C111**: a program that reads the file finds, for each combination of modifiers, the codes and texts of the layer. -/
theorem C111_maps (ct : ScVal → Text) (name : Text) (maps : List (List (ScVal × Text))) (root : Xml)
    (h : ReadsAs (serializeXml (keylayoutRoot ct name maps)) root) (i : Nat) (keys : String)
    (hk : ["", "anyShift caps?", "caps", "anyOption"][i]? = some keys) :
    keyMapFor root keys.toList = maps[i]?.map fun m => m.map fun k => (some (ct k.1), some k.2) := by
  obtain ⟨rfl, _⟩ := (C111_roundtrip _ (keylayoutRoot_named ..) _).1 h
  have hsel : (tagged "keyMapSelect" ((tagged "modifierMap" (keylayoutRoot ct name maps).children).flatMap Xml.children)) =
      ["", "anyShift caps?", "caps", "anyOption"].zipIdx.map fun p =>
        .node "keyMapSelect" [("mapIndex", natText p.2)] [.leaf "modifier" [("keys", p.1.toList)]] := by
    rfl
  have hmaps : (tagged "keyMap" ((tagged "keyMapSet" (keylayoutRoot ct name maps).children).flatMap Xml.children)) =
      maps.zipIdx.map fun p => .node "keyMap" [("index", natText p.2)]
        (p.1.map fun k => .leaf "key" [("code", ct k.1), ("output", k.2)]) := by
    have : (tagged "keyMapSet" (keylayoutRoot ct name maps).children).flatMap Xml.children =
      maps.zipIdx.map (fun p => .node "keyMap" [("index", natText p.2)]
        (p.1.map fun k => .leaf "key" [("code", ct k.1), ("output", k.2)])) ++ [] := rfl
    rw [this, List.append_nil]
    exact tagged_all fun e he => by
      obtain ⟨p, _, rfl⟩ := List.mem_map.1 he
      rfl
  have hfind : ∃ cs, (["", "anyShift caps?", "caps", "anyOption"].zipIdx.map fun p =>
        Xml.node "keyMapSelect" [("mapIndex", natText p.2)] [.leaf "modifier" [("keys", p.1.toList)]]).find? (fun s =>
        (tagged "modifier" s.children).any fun m => m.attrib "keys" = some keys.toList) =
      some (Xml.node "keyMapSelect" [("mapIndex", natText i)] cs) := by
    match i, hk with
    | 0, hk => cases hk; exact ⟨_, rfl⟩
    | 1, hk => cases hk; exact ⟨_, rfl⟩
    | 2, hk => cases hk; exact ⟨_, rfl⟩
    | 3, hk => cases hk; exact ⟨_, rfl⟩
    | n + 4, hk => simp at hk
  obtain ⟨cs, hfind⟩ := hfind
  unfold keyMapFor
  rw [hsel, hmaps, hfind]
  simp only [Option.bind_eq_bind, Option.bind_some, lookup_leaf, List.lookup_cons, beq_self_eq_true]
  rw [find_index _ _ (fun p => by rw [lookup_leaf]; rfl)]
  cases maps[i]? with
  | none => rfl
  | some m =>
    simp only [Option.map_some, Option.bind_some]
    congr 1
    have : (Xml.node "keyMap" [("index", natText i)] (m.map fun k => Xml.leaf "key" [("code", ct k.1), ("output", k.2)])).children =
      m.map fun k => Xml.leaf "key" [("code", ct k.1), ("output", k.2)] := rfl
    rw [this, tagged_all (by
      intro e he
      obtain ⟨p, _, rfl⟩ := List.mem_map.1 he
      rfl), List.map_map]
    refine List.map_congr_left fun k _ => ?_
    simp only [Function.comp_apply]
    rw [show Xml.leaf "key" [("code", ct k.1), ("output", k.2)] = Xml.node "key" [("code", ct k.1), ("output", k.2)] [] from rfl,
      lookup_leaf, lookup_leaf]
    rfl

/-- A layer with characters that are escaped, and one that cannot be written. -/
def xmlExample : List (List (ScVal × Text)) := [[(.num 0, ['<', '&', '"']), (.num 49, [' ', '\n'])], [(.num 51, ['\u0008'])]]

def xmlExampleCode : ScVal → Text
  | .num n => natText n
  | _ => []

example : WellFormed (serializeXml (keylayoutRoot xmlExampleCode ['x'] (xmlExample.take 1))) ∧
    ¬ WellFormed (serializeXml (keylayoutRoot xmlExampleCode ['x'] xmlExample)) := by
  rw [C111_wellFormed _ (keylayoutRoot_named ..), keylayoutRoot_values, C111_wellFormed _ (keylayoutRoot_named ..), keylayoutRoot_values]
  decide +kernel

example : serializeXml (.node "key" [("output", ['<', '\t'])] [.leaf "a" [], .leaf "b" [("c", [])]]) =
    "<key output=\"&lt;&#09;\"><a /><b c=\"\" /></key>".toList := by decide +kernel

def isNum : ScVal → Bool
  | .num _ => true
  | _ => false

def macShipped (d : LayoutData) : Bool :=
  match keylayoutShipped d with
  | .ok maps => (maps.all fun m => m.all fun k => isNum k.1) &&
      (decide (XmlText d.name.toList ∧ ∀ m ∈ maps, ∀ k ∈ m, XmlText k.2) == decide (d.name ≠ "ar-lulua"))
  | .error _ => true

theorem macShipped_all : ∀ d ∈ Data.layouts, macShipped d = true := by decide +kernel

/-- **C111** is false: of the files for macOS that can be written at all, the one of the project's own layout cannot be read, as it has a
button with U+0008. -/
theorem C111_false (ct : ScVal → Text) (hct : ∀ n, ct (.num n) = natText n) : ∀ d ∈ Data.layouts, ∀ maps, keylayoutShipped d = .ok maps →
    (WellFormed (serializeXml (keylayoutRoot ct d.name.toList maps)) ↔ d.name ≠ "ar-lulua") := by
  intro d hd maps hm
  have h := macShipped_all d hd
  unfold macShipped at h
  rw [hm] at h
  simp only [Bool.and_eq_true, List.all_eq_true, beq_iff_eq] at h
  rw [C111_wellFormed _ (keylayoutRoot_named ..), keylayoutRoot_values]
  rw [← decide_eq_true_iff (p := d.name ≠ "ar-lulua"), ← h.2, decide_eq_true_iff]
  refine and_congr_right fun _ => forall_congr' fun m => forall_congr' fun hmm => forall_congr' fun k => forall_congr' fun hk => ?_
  have hn := h.1 m hmm k hk
  obtain ⟨c, t⟩ := k
  cases c with
  | num n => simp only [hct, natText_xml, true_and]
  | _ => cases hn

/-! ### AnySoftKeyboard -/

theorem codesText_xml (cs : List Nat) : XmlText (codesText cs) := by
  unfold codesText
  intro c hc
  rw [List.intercalate] at hc
  obtain ⟨l, hl, hc⟩ := List.mem_flatten.1 hc
  have : l = [','] ∨ l ∈ cs.map natText := by
    generalize cs.map natText = xs at hl
    induction xs with
    | nil => simp at hl
    | cons x xs ih =>
      cases xs with
      | nil => right; simpa using hl
      | cons y ys =>
        simp only [List.intersperse_cons₂, List.mem_cons] at hl
        rcases hl with rfl | rfl | hl
        · right; exact List.mem_cons_self
        · left; rfl
        · rcases ih hl with h | h
          · exact .inl h
          · exact .inr (List.mem_cons_of_mem _ h)
  rcases this with rfl | hl
  · rw [List.mem_singleton] at hc
    subst hc
    decide
  · obtain ⟨n, _, rfl⟩ := List.mem_map.1 hl
    exact natText_xml n c hc

theorem askRoot_named (fmt : Rat → Text) (rows : List AskRow) : Xml.Named (askRoot fmt rows askBottomRow) := by
  refine node_named (by decide +kernel) fun e he => ?_
  rcases List.mem_append.1 he with he | he
  · obtain ⟨r, _, rfl⟩ := List.mem_map.1 he
    refine node_named ?_ fun e he => ?_
    · cases r.top
      · exact show namesOk "Row" ["android:keyWidth"] = true by decide +kernel
      · exact show namesOk "Row" ["android:keyWidth", "android:rowEdgeFlags", "android:keyHeight"] = true by decide +kernel
    · obtain ⟨k, _, rfl⟩ := List.mem_map.1 he
      exact leaf_named (show namesOk "Key" ["android:codes", "android:keyLabel", "android:popupCharacters", "ask:hintLabel"] = true by
        decide +kernel)
  · rw [List.mem_singleton] at he
    subst he
    refine node_named (by decide +kernel) fun e he => ?_
    simp only [askBottomRow, askBottomAttribs, List.map_cons, List.map_nil, List.mem_cons, List.not_mem_nil, or_false, or_self] at he
    subst he
    exact leaf_named (by decide +kernel)

theorem askRoot_values (fmt : Rat → Text) (hf : ∀ q, XmlText (fmt q)) (rows : List AskRow) :
    (∀ v ∈ Xml.values (askRoot fmt rows askBottomRow), XmlText v) ↔
      ∀ r ∈ rows, ∀ k ∈ r.keys, XmlText k.label ∧ XmlText k.popup ∧ XmlText k.hint := by
  unfold askRoot
  rw [node_values]
  have b1 : ∀ p ∈ [("xmlns:android", "http://schemas.android.com/apk/res/android".toList),
      ("xmlns:ask", "http://schemas.android.com/apk/res-auto".toList)], XmlText p.2 := by decide +kernel
  have b2 : ∀ v ∈ Xml.values (Xml.node "Row" [("android:rowEdgeFlags", "bottom".toList), ("android:keyHeight", "@integer/key_normal_height".toList)]
        (askBottomRow.map fun a => .leaf "Key" (a.map fun p => (p.1, p.2.toList)))), XmlText v := by decide +kernel
  have b3 : ∀ r : AskRow, ∀ p ∈ (("android:keyWidth", fmt r.width ++ "%p".toList) ::
          if r.top then [("android:rowEdgeFlags", "top".toList), ("android:keyHeight", "@integer/key_short_height".toList)] else []),
        XmlText p.2 := by
    intro r
    rw [List.forall_mem_cons]
    constructor
    · intro c hc
      rcases List.mem_append.1 hc with hc | hc
      · exact hf _ c hc
      · exact (show XmlText "%p".toList by decide +kernel) c hc
    · cases r.top <;> decide +kernel
  rw [and_iff_right b1, List.forall_mem_append, List.forall_mem_singleton, and_iff_left b2, List.forall_mem_map]
  refine forall_congr' fun r => forall_congr' fun _ => ?_
  rw [node_values, and_iff_right (b3 r), List.forall_mem_map]
  refine forall_congr' fun k => forall_congr' fun _ => ?_
  rw [leaf_values]
  simp only [List.forall_mem_cons, codesText_xml, true_and, List.not_mem_nil, false_imp_iff, implies_true, and_true]

/-- **C111**: the file for AnySoftKeyboard can be read if the texts of the letter buttons consist of characters XML has, and has the rows of
`ask`. -/
theorem C111_ask (fmt : Rat → Text) (hf : ∀ q, XmlText (fmt q)) (nfc : Text → Text) (hn : ∀ t, XmlText t → XmlText (nfc t))
    (L : KeyboardLayout) (kb : PhysicalKeyboard) (rows : List AskRow) (bottom : List (Dict String String))
    (h : ask nfc L kb = .ok (rows, bottom))
    (hx : ∀ r ∈ kb.rows, ∀ b ∈ r.1 ++ r.2, b.kind = .letter → ∀ l ∈ L.layers, ∀ t, l.layout.get? b.i = some (.str t) → XmlText t) :
    WellFormed (serializeXml (askRoot fmt rows bottom)) ∧ ∀ root, ReadsAs (serializeXml (askRoot fmt rows bottom)) root →
      askRowsOf root = (rows.map fun r => r.keys.map fun k => (some (codesText k.codes), some k.label, some k.popup)) ++
        [[(none, none, none), (none, none, none), (none, none, none)]] := by
  simp only [ask, bind_ok_iff, Except.ok.injEq, Prod.mk.injEq] at h
  obtain ⟨as, h1, rfl, rfl⟩ := h
  constructor
  · rw [C111_wellFormed _ (askRoot_named ..), askRoot_values fmt hf]
    intro r hr k hk
    obtain ⟨a, ha, rfl⟩ : ∃ a ∈ as, a = some r := by
      obtain ⟨a, ha, h2⟩ := List.mem_filterMap.1 hr
      exact ⟨a, ha, h2⟩
    obtain ⟨row, hrow, h2⟩ := forall₂_right_mem ((mapM_ok_iff _ _ _).1 h1) ha
    simp only [askRow] at h2
    split at h2
    · cases h2
    · rename_i b bs heq
      simp only [bind_ok_iff] at h2
      obtain ⟨i, _, h2⟩ := h2
      split at h2
      · cases h2
      · simp only [bind_ok_iff, Except.ok.injEq, Option.some.injEq] at h2
        obtain ⟨keys, h3, rfl⟩ := h2
        obtain ⟨x, hxm, h4⟩ := forall₂_right_mem ((mapM_ok_iff _ _ _).1 h3) hk
        have hx' : x ∈ row.1 ++ row.2 ∧ x.kind = .letter := by
          rw [List.mem_filter, decide_eq_true_eq] at hxm
          exact ⟨hxm.1, hxm.2.1⟩
        obtain ⟨t, ts, h5, h6, h7, h8⟩ := (askKey_ok h4).texts
        have h9 : ∀ u ∈ t :: ts, XmlText u := by
          intro u hu
          obtain ⟨l, hl, h10⟩ := forall₂_right_mem h5 hu
          rcases h10 with ⟨s, h11, rfl⟩ | ⟨_, rfl⟩
          · exact hn _ (hx row hrow x hx'.1 hx'.2 l hl s h11)
          · intro c hc; cases hc
        have h10 : ∀ us : List Text, (∀ u ∈ us, u ∈ t :: ts) → XmlText us.flatten := by
          intro us hus c hc
          obtain ⟨u, hu, hc⟩ := List.mem_flatten.1 hc
          exact h9 u (hus u hu) c hc
        exact ⟨h6 ▸ h9 t List.mem_cons_self, h7 ▸ h10 ts fun u hu => List.mem_cons_of_mem _ hu,
          h8 ▸ h10 _ fun u hu => List.mem_cons_of_mem _ (List.mem_of_mem_take hu)⟩
  · intro root hr
    obtain ⟨rfl, _⟩ := (C111_roundtrip _ (askRoot_named ..) _).1 hr
    have hc : (askRoot fmt (as.filterMap id) askBottomRow).children = (as.filterMap id).map (fun r : AskRow => Xml.node "Row"
        (("android:keyWidth", fmt r.width ++ "%p".toList) ::
          if r.top then [("android:rowEdgeFlags", "top".toList), ("android:keyHeight", "@integer/key_short_height".toList)] else [])
        (r.keys.map fun k => .leaf "Key" [("android:codes", codesText k.codes), ("android:keyLabel", k.label),
          ("android:popupCharacters", k.popup), ("ask:hintLabel", k.hint)])) ++
      [.node "Row" [("android:rowEdgeFlags", "bottom".toList), ("android:keyHeight", "@integer/key_normal_height".toList)]
        (askBottomRow.map fun a => .leaf "Key" (a.map fun p => (p.1, p.2.toList)))] := rfl
    unfold askRowsOf
    rw [hc, tagged_all (by
      intro e he
      rcases List.mem_append.1 he with he | he
      · obtain ⟨r, _, rfl⟩ := List.mem_map.1 he
        rfl
      · rw [List.mem_singleton] at he
        subst he
        rfl), List.map_append, List.map_map]
    congr 1
    refine List.map_congr_left fun r _ => ?_
    simp only [Function.comp_apply]
    rw [show (Xml.node "Row" (("android:keyWidth", fmt r.width ++ "%p".toList) ::
          if r.top then [("android:rowEdgeFlags", "top".toList), ("android:keyHeight", "@integer/key_short_height".toList)] else [])
        (r.keys.map fun k => Xml.leaf "Key" [("android:codes", codesText k.codes), ("android:keyLabel", k.label),
          ("android:popupCharacters", k.popup), ("ask:hintLabel", k.hint)])).children = (r.keys.map fun k => Xml.leaf "Key"
          [("android:codes", codesText k.codes), ("android:keyLabel", k.label),
          ("android:popupCharacters", k.popup), ("ask:hintLabel", k.hint)]) from rfl, tagged_all (by
      intro e he
      obtain ⟨k, _, rfl⟩ := List.mem_map.1 he
      rfl), List.map_map]
    refine List.map_congr_left fun k _ => ?_
    simp only [Function.comp_apply]
    rw [show ∀ as, Xml.leaf "Key" as = Xml.node "Key" as [] from fun _ => rfl, lookup_leaf, lookup_leaf, lookup_leaf]
    rfl

theorem ask_exists_congr (nfc nfc' : Text → Text) (L : KeyboardLayout) (kb : PhysicalKeyboard) (h : ∃ out, ask nfc L kb = .ok out) :
    ∃ out, ask nfc' L kb = .ok out := by
  obtain ⟨out, h⟩ := h
  simp only [ask, bind_ok_iff, Except.ok.injEq] at h ⊢
  obtain ⟨as, h, _⟩ := h
  suffices ∃ as, kb.rows.mapM (askRow nfc' L kb) = .ok as by
    obtain ⟨as, h⟩ := this
    exact ⟨_, as, h, rfl⟩
  rw [mapM_exists_iff]
  intro r hr
  obtain ⟨a, _, h1⟩ := forall₂_left_mem ((mapM_ok_iff _ _ _).1 h) hr
  unfold askRow at h1 ⊢
  simp only at h1 ⊢
  split at h1
  · exact ⟨_, rfl⟩
  · simp only [bind_ok_iff] at h1 ⊢
    obtain ⟨i, hi, h1⟩ := h1
    split at h1
    · rename_i hc
      exact ⟨none, i, hi, by rw [if_pos hc]⟩
    · rename_i hc
      simp only [bind_ok_iff] at h1
      obtain ⟨keys, h2, _⟩ := h1
      obtain ⟨keys', h3⟩ := (mapM_exists_iff (askKey nfc' L) _).2 fun b hb => by
        obtain ⟨k, _, hk⟩ := forall₂_left_mem ((mapM_ok_iff _ _ _).1 h2) hb
        exact askKey_exists.2 (askKey_exists.1 ⟨k, hk⟩)
      rw [exists_comm]
      refine ⟨i, ?_⟩
      rw [if_neg hc, h3]
      exact ⟨_, hi, rfl⟩

def askShipped (d : LayoutData) : Bool :=
  match loadFirst d with
  | .ok x => (match ask id x.2.2 x.2.1 with | .ok _ => true | .error _ => false) &&
      x.2.1.rows.all fun r => (r.1 ++ r.2).all fun b => if b.kind = .letter then x.2.2.layers.all fun l =>
        match l.layout.get? b.i with
        | some (.str t) => decide (XmlText t)
        | _ => true
      else true
  | .error _ => false

theorem askShipped_all : ∀ d ∈ Data.layouts, d.name ≠ "None" → askShipped d = true := by decide +kernel

/-- **C111**: the files for AnySoftKeyboard of all shipped layouts but the empty one can be written and read. -/
theorem C111_shipped (fmt : Rat → Text) (hf : ∀ q, XmlText (fmt q)) (nfc : Text → Text) (hn : ∀ t, XmlText t → XmlText (nfc t)) :
    ∀ d ∈ Data.layouts, d.name ≠ "None" → ∃ t kb L rows bottom, loadFirst d = .ok (t, kb, L) ∧ ask nfc L kb = .ok (rows, bottom) ∧
      WellFormed (serializeXml (askRoot fmt rows bottom)) := by
  intro d hd hne
  have h := askShipped_all d hd hne
  unfold askShipped at h
  cases hx : loadFirst d with
  | error e => rw [hx] at h; cases h
  | ok x =>
    obtain ⟨t, kb, L⟩ := x
    rw [hx] at h
    simp only [Bool.and_eq_true, List.all_eq_true] at h
    obtain ⟨h1, h2⟩ := h
    obtain ⟨out, h3⟩ := ask_exists_congr id nfc L kb (by
      cases ho : ask id L kb with
      | ok o => exact ⟨o, rfl⟩
      | error e => rw [ho] at h1; cases h1)
    refine ⟨t, kb, L, out.1, out.2, rfl, h3, (C111_ask fmt hf nfc hn L kb out.1 out.2 h3 ?_).1⟩
    intro r hr b hb hk l hl t ht
    have h4 := h2 r hr b hb
    rw [if_pos hk, List.all_eq_true] at h4
    have h5 := h4 l hl
    rw [ht] at h5
    exact of_decide_eq_true h5

end Lulua.Props
