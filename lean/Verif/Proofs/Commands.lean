import Verif.Model.Commands
import Verif.Proofs.Shipped

namespace Lulua
open Spec

/-- Names are in the order of the file, and a button has the number of its name. -/
def Numbered (ns : List String) (n : String) (b : Btn) : Prop := ns[b.i]? = some n

theorem Numbered.mono {ns ms : List String} (h : ns <+: ms) {n : String} {b : Btn} (hb : Numbered ns n b) : Numbered ms n b :=
  prefix_getElem? h hb

theorem deserialize_numbered {t t' : InternTable} {ns : List String} (hr : Represents t ns) {d d' : ButtonData} {b : Btn}
    (h : Btn.deserialize t d = .ok (t', b, d')) : ∃ n, d.name = some n ∧ Represents t' (addName ns n) ∧ Numbered (addName ns n) n b := by
  simp only [Btn.deserialize, bind_ok_iff, Except.ok.injEq, Prod.mk.injEq] at h
  obtain ⟨kind, _, ⟨t1, b1⟩, h1, rfl, rfl, _⟩ := h
  obtain ⟨n, _, h2, rfl, _, _, h3, _⟩ := construct_ok hr h1
  obtain ⟨r1, r2⟩ := represents_intern hr n
  exact ⟨n, h2, r1, by unfold Numbered; rw [h3]; exact r2⟩

theorem deserializeList_numbered {t t' : InternTable} {ns : List String} (hr : Represents t ns) {ds ds' : List ButtonData} {bs : List Btn}
    (h : deserializeList t ds = .ok (t', bs, ds')) : Represents t' ((ds.filterMap ButtonData.name).foldl addName ns) ∧
      List.Forall₂ (Numbered ((ds.filterMap ButtonData.name).foldl addName ns)) (ds.filterMap ButtonData.name) bs := by
  induction ds generalizing t ns bs ds' with
  | nil =>
    simp only [deserializeList, Except.ok.injEq, Prod.mk.injEq] at h
    obtain ⟨rfl, rfl, _⟩ := h
    exact ⟨hr, .nil⟩
  | cons d ds ih =>
    simp only [deserializeList, bind_ok_iff, Except.ok.injEq, Prod.mk.injEq] at h
    obtain ⟨⟨t1, b, d1⟩, h1, ⟨t2, bs2, ds2⟩, h2, rfl, rfl, _⟩ := h
    obtain ⟨n, hn, r1, hb⟩ := deserialize_numbered hr h1
    obtain ⟨i1, i2⟩ := ih r1 h2
    rw [List.filterMap_cons_some hn]
    exact ⟨i1, .cons (hb.mono (foldl_addName_prefix _ _)) i2⟩

theorem deserializeRows_numbered {t t' : InternTable} {ns : List String} (hr : Represents t ns) {ds ds' : List (Row ButtonData)}
    {bs : List (Row Btn)} (h : deserializeRows t ds = .ok (t', bs, ds')) :
    Represents t' ((ds.flatMap rowNames).foldl addName ns) ∧
      List.Forall₂ (Numbered ((ds.flatMap rowNames).foldl addName ns)) (ds.flatMap rowNames) (bs.flatMap fun r => r.1 ++ r.2) := by
  induction ds generalizing t ns bs ds' with
  | nil =>
    simp only [deserializeRows, Except.ok.injEq, Prod.mk.injEq] at h
    obtain ⟨rfl, rfl, _⟩ := h
    exact ⟨hr, .nil⟩
  | cons d ds ih =>
    obtain ⟨l, r⟩ := d
    simp only [deserializeRows, bind_ok_iff, Except.ok.injEq, Prod.mk.injEq] at h
    obtain ⟨⟨t1, b1, d1⟩, h1, ⟨t2, b2, d2⟩, h2, ⟨t3, b3, d3⟩, h3, rfl, rfl, _⟩ := h
    obtain ⟨r1, n1⟩ := deserializeList_numbered hr h1
    obtain ⟨r2, n2⟩ := deserializeList_numbered r1 h2
    obtain ⟨r3, n3⟩ := ih r2 h3
    have e : ((l, r) :: ds).flatMap rowNames = (l.filterMap ButtonData.name ++ r.filterMap ButtonData.name) ++ ds.flatMap rowNames := by
      rw [List.flatMap_cons, rowNames, List.filterMap_append]
    rw [e, List.foldl_append, List.foldl_append]
    refine ⟨r3, ?_⟩
    rw [List.flatMap_cons]
    refine List.rel_append (List.rel_append (n1.imp fun _ _ hx => ?_) (n2.imp fun _ _ hx => ?_)) n3
    · exact (hx.mono (foldl_addName_prefix _ _)).mono (foldl_addName_prefix _ _)
    · exact hx.mono (foldl_addName_prefix _ _)

theorem mem_foldl_addName (names : List String) : ∀ (ns : List String) (n : String), n ∈ names.foldl addName ns → n ∈ ns ∨ n ∈ names := by
  induction names with
  | nil => exact fun ns n h => .inl h
  | cons m names ih =>
    intro ns n h
    rcases ih _ n h with h | h
    · unfold addName at h
      split at h
      · exact .inl h
      · rcases List.mem_append.1 h with h | h
        · exact .inl h
        · exact .inr (by rw [List.mem_singleton.1 h]; simp)
    · exact .inr (List.mem_cons_of_mem _ h)

/-- What loading a keyboard does. -/
theorem keyboard_numbered {t t' : InternTable} {ns : List String} (hr : Represents t ns) {d d' : KeyboardData} {kb : PhysicalKeyboard}
    (h : PhysicalKeyboard.deserialize t d = .ok (t', kb, d')) : Represents t' ((boardNames d).foldl addName ns) ∧
      List.Forall₂ (Numbered ((boardNames d).foldl addName ns)) (boardNames d) kb.keys := by
  simp only [PhysicalKeyboard.deserialize, bind_ok_iff, Except.ok.injEq, Prod.mk.injEq] at h
  obtain ⟨⟨t1, rows, dr⟩, h1, rfl, rfl, _⟩ := h
  exact deserializeRows_numbered hr h1

theorem keyboard_named {t t' : InternTable} {ns : List String} (hr : Represents t ns) {d d' : KeyboardData} {kb : PhysicalKeyboard}
    (h : PhysicalKeyboard.deserialize t d = .ok (t', kb, d')) : Named t' kb.keys := by
  obtain ⟨r, n⟩ := keyboard_numbered hr h
  intro b hb
  obtain ⟨m, _, hm⟩ := forall2_mem_right n hb
  exact ⟨m, r.nameOf_ok.2 hm⟩

/-! ### Two keyboards -/

/-- Whatever the first keyboard finds the second does as well, with the same number. -/
def FindsToo (t t' : InternTable) (kb kb' : PhysicalKeyboard) : Prop :=
  ∀ n x, kb.find t n = .ok x → ∃ y, kb'.find t' n = .ok y ∧ y.i = x.i

theorem findAll_too {t t' : InternTable} {kb kb' : PhysicalKeyboard} (h : FindsToo t t' kb kb') :
    ∀ (m : List String) (bs : List Button), GenericLayout.findAll t kb m = .ok bs → GenericLayout.findAll t' kb' m = .ok bs
  | [], bs, hb => hb
  | x :: xs, bs, hb => by
    simp only [GenericLayout.findAll, bind_ok_iff, Except.ok.injEq] at hb ⊢
    obtain ⟨b, h1, cs, h2, rfl⟩ := hb
    obtain ⟨y, h3, h4⟩ := h x b h1
    exact ⟨y, h3, cs, findAll_too h xs cs h2, by rw [h4]⟩

theorem specModifiers_too {t t' : InternTable} {kb kb' : PhysicalKeyboard} (h : FindsToo t t' kb kb') :
    ∀ (ms : List (List String)) (fs : List FSet), GenericLayout.specModifiers t kb ms = .ok fs →
      GenericLayout.specModifiers t' kb' ms = .ok fs
  | [], fs, hb => hb
  | x :: xs, fs, hb => by
    simp only [GenericLayout.specModifiers, bind_ok_iff, Except.ok.injEq] at hb ⊢
    obtain ⟨b, h1, cs, h2, rfl⟩ := hb
    exact ⟨b, findAll_too h _ _ h1, cs, specModifiers_too h xs cs h2, rfl⟩

theorem specEntries_too {t t' : InternTable} {kb kb' : PhysicalKeyboard} (h : FindsToo t t' kb kb') :
    ∀ (es : List (String × LVal)) (fs : List (Button × LVal)), GenericLayout.specEntries t kb es = .ok fs →
      GenericLayout.specEntries t' kb' es = .ok fs
  | [], fs, hb => hb
  | (n, v) :: xs, fs, hb => by
    simp only [GenericLayout.specEntries, bind_ok_iff, Except.ok.injEq] at hb ⊢
    obtain ⟨b, h1, cs, h2, rfl⟩ := hb
    obtain ⟨y, h3, h4⟩ := h n b h1
    exact ⟨y, h3, cs, specEntries_too h xs cs h2, by rw [h4]⟩

theorem specLayers_too {t t' : InternTable} {kb kb' : PhysicalKeyboard} (h : FindsToo t t' kb kb') :
    ∀ (gs : List GLayer) (ls : List Layer), GenericLayout.specLayers t kb gs = .ok ls → GenericLayout.specLayers t' kb' gs = .ok ls
  | [], ls, hb => hb
  | g :: gs, ls, hb => by
    simp only [GenericLayout.specLayers, GenericLayout.specLayer, bind_ok_iff, Except.ok.injEq] at hb ⊢
    obtain ⟨l, ⟨ms, h1, es, h2, rfl⟩, cs, h3, rfl⟩ := hb
    exact ⟨_, ⟨ms, specModifiers_too h _ _ h1, es, specEntries_too h _ _ h2, rfl⟩, cs, specLayers_too h gs cs h3, rfl⟩

theorem findsToo_of_prefix {d e d' e' : KeyboardData} {t t' : InternTable} {kb kb' : PhysicalKeyboard}
    (h : PhysicalKeyboard.deserialize .initial d = .ok (t, kb, d')) (h' : PhysicalKeyboard.deserialize .initial e = .ok (t', kb', e'))
    (hp : distinct (boardNames d) <+: distinct (boardNames e)) : FindsToo t t' kb kb' := by
  obtain ⟨r, n⟩ := keyboard_numbered represents_initial h
  obtain ⟨r', n'⟩ := keyboard_numbered represents_initial h'
  intro m x hx
  have hc := find_called hx
  have hi := prefix_getElem? hp (r.nameOf_ok.1 hc.2)
  have hmem : m ∈ boardNames e := by
    have := List.mem_of_getElem? hi
    exact (mem_foldl_addName _ _ _ this).resolve_left (by simp)
  obtain ⟨b, hb, hbm⟩ := forall2_mem_left n' hmem
  exact called_find r' (keyboard_named represents_initial h') ⟨⟨b, hb, r'.inj (r'.nameOf_ok.2 hbm) (r'.nameOf_ok.2 hi)⟩, r'.nameOf_ok.2 hi⟩

end Lulua
