import Verif.Spec.Shipped
import Verif.Proofs.Keyboard
import Verif.Proofs.Layout
import Verif.Proofs.Writer
import Verif.Proofs.Stats2
import Verif.Proofs.Carpalx
import Verif.Props.Keyboard

/-!
# Lemmas about loaded keyboards and layouts
-/

namespace Lulua
open Spec

theorem canonical_iff {d : ButtonData} (h : canonical d = true) : Canonical d := by
  unfold canonical at h
  simp only [Bool.and_eq_true, Bool.or_eq_true, decide_eq_true_eq, beq_iff_eq] at h
  obtain ⟨⟨⟨⟨⟨⟨h1, h2⟩, h3⟩, h4⟩, h5⟩, h6⟩, h7⟩ := h
  refine ⟨h1, h2, h3, by tauto, ?_, h6, ?_⟩
  · rw [h5]; simp
  · intro s v hs hv
    rw [hs] at h7
    simp only [hv] at h7
    cases v with
    | list l => exact ⟨l, rfl⟩
    | num n => simp at h7
    | str n => simp at h7
    | tuple n => simp at h7

/-- A button object and its description have the same name, and both are letters or not. -/
def SameName (t : InternTable) (b : Btn) (d : ButtonData) : Prop :=
  (∃ n, d.name = some n ∧ t.nameOf b.i = .ok n) ∧ (b.kind = .letter ↔ d.kind = some "letter")

theorem serialize_name {t : InternTable} {b b' : Btn} {d : ButtonData} (h : b.serialize t = .ok (d, b')) :
    SameName t b d := by
  simp only [Btn.serialize, bind_ok_iff, Except.ok.injEq, Prod.mk.injEq] at h
  obtain ⟨n, h1, sc, h2, h3, _⟩ := h
  refine ⟨⟨n, by rw [← h3], h1⟩, ?_⟩
  rw [← h3]
  cases b.kind <;> simp [Kind.serializedName]

theorem serializeList_names {t : InternTable} {bs bs' : List Btn} {ds : List ButtonData}
    (h : serializeList t bs = .ok (ds, bs')) : List.Forall₂ (SameName t) bs ds := by
  induction bs generalizing bs' ds with
  | nil =>
    simp only [serializeList, Except.ok.injEq, Prod.mk.injEq] at h
    obtain ⟨rfl, _⟩ := h
    exact .nil
  | cons b bs ih =>
    cases h1 : b.serialize t with
    | error e => simp [serializeList, h1, bind, Except.bind] at h
    | ok r =>
      cases h2 : serializeList t bs with
      | error e => simp [serializeList, h1, h2, bind, Except.bind] at h
      | ok q =>
        simp only [serializeList, h1, h2, bind, Except.bind, Except.ok.injEq, Prod.mk.injEq] at h
        obtain ⟨rfl, _⟩ := h
        exact .cons (serialize_name (b' := r.2) h1) (ih (bs' := q.2) h2)

theorem serializeRows_names {t : InternTable} {rs rs' : List (Row Btn)} {ds : List (Row ButtonData)}
    (h : serializeRows t rs = .ok (ds, rs')) :
    List.Forall₂ (fun r d => List.Forall₂ (SameName t) (r.1 ++ r.2) (d.1 ++ d.2)) rs ds := by
  induction rs generalizing rs' ds with
  | nil =>
    simp only [serializeRows, Except.ok.injEq, Prod.mk.injEq] at h
    obtain ⟨rfl, _⟩ := h
    exact .nil
  | cons r rs ih =>
    obtain ⟨l, r⟩ := r
    cases h1 : serializeList t l with
    | error e => simp [serializeRows, h1, bind, Except.bind] at h
    | ok x =>
      cases h2 : serializeList t r with
      | error e => simp [serializeRows, h1, h2, bind, Except.bind] at h
      | ok y =>
        cases h3 : serializeRows t rs with
        | error e => simp [serializeRows, h1, h2, h3, bind, Except.bind] at h
        | ok z =>
          simp only [serializeRows, h1, h2, h3, bind, Except.bind, Except.ok.injEq, Prod.mk.injEq] at h
          obtain ⟨rfl, _⟩ := h
          refine .cons ?_ (ih (rs' := z.2) h3)
          exact List.rel_append (serializeList_names (bs' := x.2) h1) (serializeList_names (bs' := y.2) h2)

theorem sameName_rowNames {t : InternTable} {bs : List Btn} {ds : List ButtonData}
    (h : List.Forall₂ (SameName t) bs ds) (n : String) :
    n ∈ ds.filterMap ButtonData.name ↔ ∃ b ∈ bs, t.nameOf b.i = .ok n := by
  induction h with
  | nil => simp
  | @cons b d bs ds h1 _ ih =>
    obtain ⟨⟨m, hm, hb⟩, _⟩ := h1
    rw [List.filterMap_cons, hm, List.mem_cons, ih]
    constructor
    · rintro (rfl | ⟨x, hx, hn⟩)
      · exact ⟨b, by simp, hb⟩
      · exact ⟨x, by simp [hx], hn⟩
    · rintro ⟨x, hx, hn⟩
      rcases List.mem_cons.1 hx with rfl | hx
      · rw [hb] at hn
        exact .inl (by simpa using hn.symm)
      · exact .inr ⟨x, hx, hn⟩

/-- What a loaded keyboard looks like. -/
structure LoadedAs (t : InternTable) (kb : PhysicalKeyboard) (d : KeyboardData) : Prop where
  table : ∃ ns, Represents t ns
  built : kb = PhysicalKeyboard.mk' d.name d.description kb.rows
  named : Named t kb.keys
  rows : List.Forall₂ (fun r e => ∀ n, n ∈ rowNames e ↔ ∃ b ∈ r.1 ++ r.2, t.nameOf b.i = .ok n) kb.rows d.rows
  same : List.Forall₂ (fun r e => List.Forall₂ (SameName t) (r.1 ++ r.2) (e.1 ++ e.2)) kb.rows d.rows

/-- Loading a keyboard file in canonical form succeeds. -/
theorem load_keyboard (names : List String) (d : KeyboardData)
    (hc : ∀ r ∈ d.rows, ∀ b ∈ r.1 ++ r.2, Canonical b) :
    ∃ t kb d', PhysicalKeyboard.deserialize (tableAfter names) d = .ok (t, kb, d') ∧ LoadedAs t kb d := by
  obtain ⟨t', ns', bs, ds', h1, hr, _, h2⟩ := dataRows_roundtrip (represents_tableAfter names) hc
  obtain ⟨bs', h3⟩ := h2 t' (fun _ _ h => h)
  obtain ⟨h4, _, _⟩ := deserializeRows_ok (represents_tableAfter names) h1
  refine ⟨t', PhysicalKeyboard.mk' d.name d.description bs, ⟨d.name, d.description, ds'⟩,
    by simp only [PhysicalKeyboard.deserialize, h1, bind, Except.bind], ⟨ns', hr⟩, rfl, ?_, ?_, ?_⟩
  · intro b hb
    simp only [PhysicalKeyboard.keys, PhysicalKeyboard.mk', List.mem_flatMap] at hb
    obtain ⟨r, hr, hb⟩ := hb
    exact (h4 r hr b hb).named
  · refine (serializeRows_names h3).imp ?_
    intro r e h n
    exact sameName_rowNames h n
  · exact serializeRows_names h3

/-- The kind of a button is the one in the file, which has no name twice. -/
theorem LoadedAs.letter {t : InternTable} {kb : PhysicalKeyboard} {d : KeyboardData} (h : LoadedAs t kb d)
    (hnd : (boardNames d).Nodup) {n : String} {b : Btn} (hb : b ∈ kb.keys) (hn : t.nameOf b.i = .ok n) :
    b.kind = .letter ↔ n ∈ letterNames d := by
  have hflat : List.Forall₂ (SameName t) kb.keys (d.rows.flatMap fun e => e.1 ++ e.2) := by
    unfold PhysicalKeyboard.keys
    have := h.same
    generalize kb.rows = rs at this
    generalize d.rows = es at this
    induction this with
    | nil => exact .nil
    | cons h1 _ ih => simp only [List.flatMap_cons]; exact List.rel_append h1 ih
  have hnames : boardNames d = (d.rows.flatMap fun e => e.1 ++ e.2).filterMap ButtonData.name := by
    unfold boardNames rowNames
    rw [List.filterMap_flatMap]
  obtain ⟨e, he, ⟨m, hm, hbm⟩, hk⟩ := forall2_mem_left hflat hb
  rw [hn] at hbm
  obtain rfl := Except.ok.inj hbm
  rw [hk]
  unfold letterNames
  simp only [List.mem_filterMap, List.mem_filter, decide_eq_true_eq]
  constructor
  · intro h1; exact ⟨e, ⟨he, h1⟩, hm⟩
  · rintro ⟨e', ⟨he', h1⟩, hm'⟩
    have : e' = e := by
      rw [hnames] at hnd
      generalize (d.rows.flatMap fun e => e.1 ++ e.2) = l at hnd he he'
      clear hflat hk hnames
      induction l with
      | nil => simp at he
      | cons x l ih =>
        rw [List.filterMap_cons] at hnd
        rcases List.mem_cons.1 he with rfl | he
        · rcases List.mem_cons.1 he' with rfl | he'
          · rfl
          · rw [hm] at hnd
            exact absurd (List.mem_filterMap.2 ⟨e', he', hm'⟩) (List.nodup_cons.1 hnd).1
        · have hnd' : (l.filterMap ButtonData.name).Nodup := by
            cases hx : x.name with
            | none => rw [hx] at hnd; exact hnd
            | some y => rw [hx] at hnd; exact (List.nodup_cons.1 hnd).2
          rcases List.mem_cons.1 he' with rfl | he'
          · rw [hm'] at hnd
            exact absurd (List.mem_filterMap.2 ⟨e, ‹e ∈ l›, hm⟩) (List.nodup_cons.1 hnd).1
          · exact ih hnd' he he'
    rw [← this]; exact h1

theorem LoadedAs.mem {t : InternTable} {kb : PhysicalKeyboard} {d : KeyboardData} (h : LoadedAs t kb d) (n : String) :
    n ∈ boardNames d ↔ HasButton t kb n := by
  unfold boardNames HasButton PhysicalKeyboard.keys
  simp only [List.mem_flatMap]
  constructor
  · rintro ⟨e, he, hn⟩
    obtain ⟨r, hr, h1⟩ := forall2_mem_right h.rows he
    obtain ⟨b, hb, hbn⟩ := (h1 n).1 hn
    exact ⟨b, ⟨r, hr, hb⟩, hbn⟩
  · rintro ⟨b, ⟨r, hr, hb⟩, hbn⟩
    obtain ⟨e, he, h1⟩ := forall2_mem_left h.rows hr
    exact ⟨e, he, (h1 n).2 ⟨b, hb, hbn⟩⟩

theorem LoadedAs.called {t : InternTable} {kb : PhysicalKeyboard} {d : KeyboardData} (h : LoadedAs t kb d) {n : String}
    (hn : n ∈ boardNames d) : ∃ b, Called t kb n b := by
  obtain ⟨b, hb, hbn⟩ := (h.mem n).1 hn
  exact ⟨b.i, ⟨b, hb, rfl⟩, hbn⟩

theorem LoadedAs.mem_of_called {t : InternTable} {kb : PhysicalKeyboard} {d : KeyboardData} (h : LoadedAs t kb d)
    {n : String} {b : Button} (hc : Called t kb n b) : n ∈ boardNames d := by
  obtain ⟨⟨x, hx, rfl⟩, hn⟩ := hc
  exact (h.mem n).2 ⟨x, hx, hn⟩

/-- The row of a button of a loaded keyboard is the one in the file. -/
theorem LoadedAs.getRow {t : InternTable} {kb : PhysicalKeyboard} {d : KeyboardData} (h : LoadedAs t kb d)
    {n : String} {b : Button} (hc : Called t kb n b) :
    ∃ i, ∃ hi : i < d.rows.length, kb.getRow b = .ok i ∧ n ∈ rowNames d.rows[i] := by
  obtain ⟨ns, hr⟩ := h.table
  have hl : kb.rows.length = d.rows.length := h.rows.length_eq
  obtain ⟨⟨x, hx, rfl⟩, hn⟩ := hc
  have hrow : ∀ i (hi : i < kb.rows.length) (hi' : i < d.rows.length) y, InRow kb.rows[i] y → t.nameOf y = .ok n →
      n ∈ rowNames d.rows[i] := by
    intro i hi hi' y hy hyn
    have := List.forall₂_iff_get.1 h.rows |>.2 i hi hi'
    simp only [List.get_eq_getElem] at this
    rw [this]
    obtain ⟨z, hz, rfl⟩ := hy
    exact ⟨z, by simpa using hz, hyn⟩
  rw [h.built]
  rcases Props.C12_getRow d.name d.description kb.rows x.i with ⟨i, hi, h1, h2, _⟩ | ⟨_, h2⟩
  · exact ⟨i, by omega, h1, hrow i hi (by omega) _ h2 hn⟩
  · simp only [PhysicalKeyboard.keys, List.mem_flatMap] at hx
    obtain ⟨r, hr, hx⟩ := hx
    obtain ⟨i, hi, rfl⟩ := List.mem_iff_getElem.1 hr
    exact absurd ⟨x, by simpa using hx, rfl⟩ (h2 i hi)

theorem LoadedAs.getRow_eq {t : InternTable} {kb : PhysicalKeyboard} {d : KeyboardData} (h : LoadedAs t kb d)
    {n : String} {b : Button} (hc : Called t kb n b) {i : Nat}
    (hu : ∀ j (hj : j < d.rows.length), n ∈ rowNames d.rows[j] → j = i) : kb.getRow b = .ok i := by
  obtain ⟨j, hj, h1, h2⟩ := h.getRow hc
  rw [h1, hu j hj h2]

/-! ### Loaded layouts -/

theorem distinctModifiers_iff {ls : List GLayer} (h : distinctModifiers ls = true) :
    ls.Pairwise fun l l' => ∀ m ∈ l.modifier, ∀ m' ∈ l'.modifier, ¬ SameSet m m' := by
  induction ls with
  | nil => exact .nil
  | cons l ls ih =>
    simp only [distinctModifiers, Bool.and_eq_true, List.all_eq_true, Bool.not_eq_true'] at h
    refine .cons ?_ (ih h.2)
    intro l' hl' m hm m' hm' hs
    have := h.1 l' hl' m hm m' hm'
    simp only [sameNames, Bool.and_eq_false_iff, List.all_eq_false, decide_eq_true_eq] at this
    rcases this with ⟨n, h1, h2⟩ | ⟨n, h1, h2⟩
    · exact h2 ((hs n).1 h1)
    · exact h2 ((hs n).2 h1)

/-- What a specialized layout looks like. -/
structure SpecializedAs (t : InternTable) (kb : PhysicalKeyboard) (board : List String) (d : LayoutData) (ls : List Layer) :
    Prop where
  layers : List.Forall₂ (fun g l => Translates t kb { g with modifier := g.modifier.map nameSet } l) d.layout ls
  wf : ∀ l ∈ ls, Dict.WF l.layout

theorem specLayers_wf {t : InternTable} {kb : PhysicalKeyboard} {gs : List GLayer} {ls : List Layer}
    (h : GenericLayout.specLayers t kb gs = .ok ls) : ∀ l ∈ ls, Dict.WF l.layout := by
  induction gs generalizing ls with
  | nil =>
    simp only [GenericLayout.specLayers, Except.ok.injEq] at h
    subst h; simp
  | cons g gs ih =>
    simp only [GenericLayout.specLayers, GenericLayout.specLayer, bind_ok_iff, Except.ok.injEq] at h
    obtain ⟨l, ⟨ms, h1, es, h2, rfl⟩, ls', h3, rfl⟩ := h
    intro l hl
    rcases List.mem_cons.1 hl with rfl | hl
    · exact Dict.wf_ofPairs _
    · exact ih h3 l hl

theorem goodLayer_iff {board : List String} {l : GLayer} (h : goodLayer board l = true) :
    Dict.WF l.layout ∧ l.modifier ≠ [] ∧ (∀ e ∈ l.layout, e.2 ≠ LVal.str []) ∧ ∀ n ∈ layerNames l, n ∈ board := by
  simp only [goodLayer, Bool.and_eq_true, decide_eq_true_eq, List.all_eq_true, Bool.not_eq_true',
    List.isEmpty_eq_false_iff] at h
  exact ⟨h.1.1.1, h.1.1.2, h.1.2, h.2⟩

/-- Loading a well formed layout succeeds. -/
theorem load_layout {t : InternTable} {kb : PhysicalKeyboard} {k : KeyboardData} (hk : LoadedAs t kb k) {d : LayoutData}
    (hg : goodLayout (boardNames k) d = true) :
    ∃ ls, (GenericLayout.deserialize d).specialize t kb = .ok (KeyboardLayout.mk' d.name ls kb) ∧
      SpecializedAs t kb (boardNames k) d ls := by
  obtain ⟨ns, hr⟩ := hk.table
  simp only [goodLayout, Bool.and_eq_true, List.all_eq_true] at hg
  have hgood := fun l hl => goodLayer_iff (hg.1 l hl)
  rcases specLayers_iff hk.named (GenericLayout.deserialize d).layers with ⟨⟨ls, h1⟩, _⟩ | ⟨_, l, hl, n, hn, hno⟩
  · refine ⟨ls, by simp only [GenericLayout.specialize, h1, bind, Except.bind]; rfl, ?_, specLayers_wf h1⟩
    have h2 := specLayers_translates hr hk.named (gs := (GenericLayout.deserialize d).layers) (by
      intro g hg'
      simp only [GenericLayout.deserialize, List.mem_map] at hg'
      obtain ⟨l, hl, rfl⟩ := hg'
      exact (hgood l hl).1) h1
    simp only [GenericLayout.deserialize] at h2
    rw [List.forall₂_map_left_iff] at h2
    exact h2
  · exfalso
    simp only [GenericLayout.deserialize, List.mem_map] at hl
    obtain ⟨g, hg', rfl⟩ := hl
    apply hno
    rw [← hk.mem]
    apply (hgood g hg').2.2.2
    simp only [layerNames, List.mem_append, List.mem_flatten, List.mem_map] at hn ⊢
    rcases hn with hn | ⟨_, ⟨m, hm, rfl⟩, hn⟩
    · exact .inl hn
    · exact .inr ⟨m, hm, mem_nameSet.1 hn⟩

section
variable {t : InternTable} {kb : PhysicalKeyboard} {board : List String} {d : LayoutData} {ls : List Layer}

theorem SpecializedAs.modifier (h : SpecializedAs t kb board d ls) {l : Layer} (hl : l ∈ ls) {m : FSet}
    (hm : m ∈ l.modifier) : ∃ g ∈ d.layout, ∃ ns ∈ g.modifier, ∀ b, b ∈ m ↔ ∃ n ∈ ns, Called t kb n b := by
  obtain ⟨g, hg, ht⟩ := forall2_mem_right h.layers hl
  obtain ⟨s, hs, _, hb⟩ := forall2_mem_right ht.modifiers hm
  simp only [List.mem_map] at hs
  obtain ⟨ns, hns, rfl⟩ := hs
  exact ⟨g, hg, ns, hns, by simpa only [mem_nameSet] using hb⟩

theorem SpecializedAs.entry (h : SpecializedAs t kb board d ls) {l : Layer} (hl : l ∈ ls) {b : Button} {v : LVal}
    (he : (b, v) ∈ l.layout) : ∃ g ∈ d.layout, ∃ n, Called t kb n b ∧ (n, v) ∈ g.layout := by
  obtain ⟨g, hg, ht⟩ := forall2_mem_right h.layers hl
  have hv := Dict.get?_of_mem (h.wf l hl) he
  obtain ⟨n, hn⟩ := ht.nothingElse b v hv
  have := ht.texts n b hn
  exact ⟨g, hg, n, hn, Dict.mem_of_get? (by rw [← this]; exact hv)⟩

theorem SpecializedAs.noEmptyText (h : SpecializedAs t kb board d ls) (hg : goodLayout board d = true) :
    NoEmptyText ls := by
  rintro ⟨l, hl, b, hb⟩
  obtain ⟨g, hg', n, _, hn⟩ := h.entry hl hb
  simp only [goodLayout, Bool.and_eq_true, List.all_eq_true] at hg
  exact (goodLayer_iff (hg.1 g hg')).2.2.1 _ hn rfl

theorem SpecializedAs.reachable (h : SpecializedAs t kb board d ls) (hg : goodLayout board d = true) :
    Reachable ls := by
  intro l hl hm
  obtain ⟨g, hg', ht⟩ := forall2_mem_right h.layers hl
  simp only [goodLayout, Bool.and_eq_true, List.all_eq_true] at hg
  have h1 := (goodLayer_iff (hg.1 g hg')).2.1
  have h2 := ht.modifiers.length_eq
  rw [hm] at h2
  simp at h2
  exact h1 h2

theorem SpecializedAs.unambiguous (h : SpecializedAs t kb board d ls) (hg : goodLayout board d = true)
    (hall : ∀ n ∈ board, ∃ b, Called t kb n b) : UnambiguousModifiers ls := by
  have hg2 := hg
  simp only [goodLayout, Bool.and_eq_true, List.all_eq_true] at hg2
  have hp := distinctModifiers_iff hg2.2
  have hl := h.layers.length_eq
  -- modifiers of both layers come from name lists with the same members
  have key : ∀ i j (hi : i < ls.length) (hj : j < ls.length) (m : FSet), i < j →
      m ∈ (ls[i]).modifier → m ∈ (ls[j]).modifier → False := by
    intro i j hi hj m hij h1 h2
    have g1 := (List.forall₂_iff_get.1 h.layers).2 i (by omega) hi
    have g2 := (List.forall₂_iff_get.1 h.layers).2 j (by omega) hj
    simp only [List.get_eq_getElem] at g1 g2
    obtain ⟨s1, hs1, _, hb1⟩ := forall2_mem_right g1.modifiers h1
    obtain ⟨s2, hs2, _, hb2⟩ := forall2_mem_right g2.modifiers h2
    simp only [List.mem_map] at hs1 hs2
    obtain ⟨m1, hm1, rfl⟩ := hs1
    obtain ⟨m2, hm2, rfl⟩ := hs2
    simp only [mem_nameSet] at hb1 hb2
    have hpw := List.pairwise_iff_getElem.1 hp i j (by omega) (by omega) hij m1 hm1 m2 hm2
    apply hpw
    have name_of : ∀ g ∈ d.layout, ∀ x ∈ g.modifier, ∀ n ∈ x, n ∈ board := by
      intro g hg' x hx n hn
      refine (goodLayer_iff (hg2.1 g hg')).2.2.2 n ?_
      simp only [layerNames, List.mem_append, List.mem_flatten]
      exact .inr ⟨x, hx, hn⟩
    have dir : ∀ (x y : List String), (∀ b, b ∈ m ↔ ∃ n ∈ x, Called t kb n b) → (∀ b, b ∈ m ↔ ∃ n ∈ y, Called t kb n b) →
        (∀ n ∈ x, n ∈ board) → ∀ n ∈ x, n ∈ y := by
      intro x y hx hy hxb n hn
      obtain ⟨b, hb⟩ := hall n (hxb n hn)
      obtain ⟨n', hn', hb'⟩ := (hy b).1 ((hx b).2 ⟨n, hn, hb⟩)
      have e := hb.2.symm.trans hb'.2
      simp only [Except.ok.injEq] at e
      rw [e]; exact hn'
    intro n
    exact ⟨dir m1 m2 hb1 hb2 (name_of _ (List.getElem_mem _) m1 hm1) n,
      dir m2 m1 hb2 hb1 (name_of _ (List.getElem_mem _) m2 hm2) n⟩
  intro i j hi hj m h1 h2
  rcases Nat.lt_trichotomy i j with hij | hij | hij
  · exact (key i j hi hj m hij h1 h2).elim
  · exact hij
  · exact (key j i hj hi m hij h2 h1).elim

theorem getHandFinger_called {fm : Dict String (Direction × Finger)} {n : String} {b : Button} (hc : Called t kb n b)
    {p : Direction × Finger} (hp : fm.get? n = some p) : getHandFinger fm t b = .ok p := by
  simp only [getHandFinger, hc.2, bind, Except.bind, Dict.getItem, hp]

/-- Every button of a well formed layout is on the keyboard. -/
theorem SpecializedAs.names (h : SpecializedAs t kb board d ls) (hg : goodLayout board d = true) :
    ∀ l ∈ ls, (∀ m ∈ l.modifier, ∀ b ∈ m, ∃ n ∈ board, Called t kb n b) ∧
      ∀ e ∈ l.layout, ∃ n ∈ board, Called t kb n e.1 := by
  simp only [goodLayout, Bool.and_eq_true, List.all_eq_true] at hg
  intro l hl
  constructor
  · intro m hm b hb
    obtain ⟨g, hg', ns, hns, hbm⟩ := h.modifier hl hm
    obtain ⟨n, hn, hc⟩ := (hbm b).1 hb
    refine ⟨n, (goodLayer_iff (hg.1 g hg')).2.2.2 n ?_, hc⟩
    simp only [layerNames, List.mem_append, List.mem_flatten]
    exact .inr ⟨ns, hns, hn⟩
  · rintro ⟨b, v⟩ he
    obtain ⟨g, hg', n, hn, hnv⟩ := h.entry hl he
    refine ⟨n, (goodLayer_iff (hg.1 g hg')).2.2.2 n ?_, hn⟩
    simp only [layerNames, List.mem_append, List.mem_map]
    exact .inl ⟨_, hnv, rfl⟩

theorem SpecializedAs.fingered (h : SpecializedAs t kb board d ls) (hg : goodLayout board d = true)
    {fm : Dict String (Direction × Finger)} (hfm : ∀ n ∈ board, ∃ p, fm.get? n = some p) :
    Fingered (getHandFinger fm t) ls := by
  intro l hl
  obtain ⟨h1, h2⟩ := h.names hg l hl
  constructor
  · intro m hm b hb
    obtain ⟨n, hn, hc⟩ := h1 m hm b hb
    obtain ⟨p, hp⟩ := hfm n hn
    exact ⟨p, getHandFinger_called hc hp⟩
  · intro e he
    obtain ⟨n, hn, hc⟩ := h2 e he
    obtain ⟨p, hp⟩ := hfm n hn
    exact ⟨p, getHandFinger_called hc hp⟩

end

/-! ### Triads that can be rated -/

/-- Whatever holds for all presses of buttons that are not ignored holds for all parts of all triads. -/
theorem triads_inv (P : Comb → Prop) (evs : List Event) (s s' : TriadStats)
    (hP : ∀ t c, Event.typed t c ∈ evs → notOn s.ignored c = true → P c)
    (h0 : ∀ c ∈ s.triad, P c) (h1 : ∀ k ∈ s.triads.map Prod.fst, P k.1 ∧ P k.2.1 ∧ P k.2.2)
    (h : evs.foldlM TriadStats.process s = .ok s') : ∀ k ∈ s'.triads.map Prod.fst, P k.1 ∧ P k.2.1 ∧ P k.2.2 := by
  induction evs generalizing s with
  | nil =>
    simp only [List.foldlM_nil, pure, Except.pure, Except.ok.injEq] at h
    subst h; exact h1
  | cons ev evs ih =>
    rw [List.foldlM_cons, bind_ok_iff] at h
    obtain ⟨s1, hs1, h⟩ := h
    cases ev with
    | skip c =>
      simp only [TriadStats.process, Except.ok.injEq] at hs1
      subst hs1
      exact ih { s with triad := [] } (fun t c hc => hP t c (by simp [hc])) (by simp) h1 h
    | typed t c =>
      simp only [TriadStats.process] at hs1
      split_ifs at hs1 with hl
      · simp [bind, Except.bind] at hs1
      obtain ⟨b, hb⟩ := List.length_eq_one_iff.1 (not_not.1 hl)
      simp only [hb, first, bind, Except.bind] at hs1
      split_ifs at hs1 with hig
      · simp only [Except.ok.injEq] at hs1
        subst hs1
        exact ih _ (fun t c hc => hP t c (by simp [hc])) h0 h1 h
      · simp only [Except.ok.injEq] at hs1
        have hPc : P c := hP t c (by simp) (by simp [notOn, hb, hig])
        have ha : ∀ x ∈ (s.append c).triad, P x := by
          intro x hx
          simp only [TriadStats.append] at hx
          have hx' : x ∈ s.triad ++ [c] := by
            split_ifs at hx
            · exact List.mem_of_mem_drop hx
            · exact hx
          rcases List.mem_append.1 hx' with hx' | hx'
          · exact h0 x hx'
          · rw [List.mem_singleton.1 hx']; exact hPc
        have hr : s1.ignored = s.ignored ∧ s1.triad = (s.append c).triad ∧
            ∀ k ∈ s1.triads.map Prod.fst, P k.1 ∧ P k.2.1 ∧ P k.2.2 := by
          subst hs1
          unfold TriadStats.record
          split
          · rename_i x y z hxyz
            refine ⟨rfl, rfl, fun k hk => ?_⟩
            simp only [Dict.bump, Dict.mem_keys_set] at hk
            rcases hk with rfl | hk
            · rw [hxyz] at ha
              exact ⟨ha _ (by simp), ha _ (by simp), ha _ (by simp)⟩
            · exact h1 k hk
          · exact ⟨rfl, rfl, h1⟩
        refine ih s1 (fun t c hc => ?_) (by rw [hr.2.1]; exact ha) hr.2.2 h
        rw [hr.1]
        exact hP t c (by simp [hc])

/-- A button whose name is rated can be rated. -/
theorem rateable_of_name {t : InternTable} {kb : PhysicalKeyboard} {k : KeyboardData} (hk : LoadedAs t kb k)
    {p : ModelParams} {n : String} {b : Button} (hc : Called t kb n b) (hrow : k.rows.length ≤ p.pRow.length)
    (hr : ratedName p Data.fingermap n = true) : Rateable (shippedEnv p t kb) b := by
  simp only [ratedName, Bool.and_eq_true, Dict.contains] at hr
  obtain ⟨h1, h2⟩ := hr
  obtain ⟨v, hv⟩ := Option.isSome_iff_exists.1 h1
  cases hf : Data.fingermap.get? n with
  | none => simp [hf] at h2
  | some f =>
    simp only [hf, Bool.and_eq_true] at h2
    obtain ⟨h3, h4⟩ := h2
    obtain ⟨x, hx⟩ := Option.isSome_iff_exists.1 h3
    cases hd : p.pFinger.get? f.1 with
    | none => simp [hd] at h4
    | some d =>
      simp only [hd] at h4
      obtain ⟨y, hy⟩ := Option.isSome_iff_exists.1 h4
      obtain ⟨i, hi, hgr, _⟩ := hk.getRow hc
      have hlt : i < p.pRow.length := by omega
      refine ⟨⟨v, ?_⟩, madd4 p.w0HRF (1, x, p.pRow[i], y), ?_⟩
      · simp only [CarpalxEnv.baseline, shippedEnv, hc.2, bind, Except.bind, Dict.getItem, hv]
      · simp only [CarpalxEnv.penalty, shippedEnv, getHandFinger_called hc hf, hgr, bind, Except.bind, Dict.getItem, hx,
          hd, hy, CarpalxEnv.index, List.getElem?_eq_getElem hlt]

end Lulua
