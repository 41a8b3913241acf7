import Verif.Props.Text
import Verif.Props.Shipped

/-!
# C103: importing a text and what the layout can type
-/

namespace Lulua.Props
open Lulua Lulua.Spec

/-- The text that is typed when a text is imported (`C25_one_text`). -/
def imported (text : Text) : Text := replaceCRLF (mapChars text charMap)

theorem imported_sub {text : Text} {c : Char} (h : c ∈ imported text) : c ∈ mapChars text charMap :=
  (replaceCRLF_sublist _).subset h

theorem mem_eventsText {evs : List Event} {c : Char} :
    c ∈ eventsText evs ↔ .skip c ∈ evs ∨ ∃ m b, .typed m b ∈ evs ∧ c ∈ m := by
  simp only [eventsText, List.mem_flatMap]
  constructor
  · rintro ⟨e, he, hc⟩
    cases e with
    | typed m b => exact .inr ⟨m, b, he, hc⟩
    | skip d => simp only [eventText, List.mem_singleton] at hc; subst hc; exact .inl he
  · rintro (h | ⟨m, b, h, hc⟩)
    · exact ⟨_, h, by simp [eventText]⟩
    · exact ⟨_, h, hc⟩

/-- **C103** (never counted): whatever the layout and the text, no character that importing replaces is ever typed, so a
combination for such a character is never counted. -/
theorem C103_never (hf : HandFinger) (L : KeyboardLayout) (last : Option Comb) (text m : Text) (b : Comb)
    (h : Event.typed m b ∈ (typeText hf L last (imported text)).1) : ∀ c ∈ m, ∀ r, (c, r) ∉ charMap := by
  intro c hc
  have h1 : c ∈ eventsText (typeText hf L last (imported text)).1 := mem_eventsText.2 (.inr ⟨m, b, h, hc⟩)
  exact C45_complete text c (imported_sub ((C01_typing_prefix hf L last (imported text)).subset h1))

theorem mem_imported {text : Text} {c x : Char} {r : Text} (hc : c ∈ text) (h : (c, r) ∈ charMap) (hx : x ∈ r) :
    x ∈ imported text := by
  have h1 : x ∈ mapChars text charMap := by
    simp only [mapChars, List.mem_flatMap]
    refine ⟨c, hc, ?_⟩
    rw [Dict.get?_of_mem (by decide +kernel) h]
    exact hx
  have hr : x ≠ '\r' := by
    have : ∀ e ∈ charMap, '\r' ∉ e.2 := by decide +kernel
    rintro rfl
    exact this _ h hx
  have := congrArg (fun l => x ∈ l) (replaceCRLF_filter (mapChars text charMap))
  simp only [List.mem_filter, decide_eq_true_eq, hr, ne_eq, not_false_eq_true, and_true, eq_iff_iff] at this
  exact this.2 h1

theorem typed_hasText {name : String} {layers : List Layer} {kb : PhysicalKeyboard} {hf : HandFinger} {last : Option Comb}
    {text m : Text} {b : Comb} (h : Event.typed m b ∈ (typeText hf (KeyboardLayout.mk' name layers kb) last text).1) :
    HasText layers m := by
  obtain ⟨pre, post, h⟩ := List.append_of_mem h
  exact (C02_match_is_longest name layers kb hf last text pre post m b h).2.1

/-- **C103** (left out): if a character is replaced by one that is in no text of the layout, the latter is left out
wherever the former occurs, even if the layout has the former. -/
theorem C103_left_out (name : String) (layers : List Layer) (kb : PhysicalKeyboard) (hf : HandFinger) (last : Option Comb)
    (text : Text) (hne : ∃ t, t ≠ [] ∧ HasText layers t)
    (hfin : (typeText hf (KeyboardLayout.mk' name layers kb) last (imported text)).2 = .finished)
    (c x : Char) (r : Text) (hc : c ∈ text) (hr : (c, r) ∈ charMap) (hx : x ∈ r) (hno : ∀ t, HasText layers t → x ∉ t) :
    Event.skip x ∈ (typeText hf (KeyboardLayout.mk' name layers kb) last (imported text)).1 := by
  have h1 := C01_typing_lossless name layers kb hf last (imported text) hne hfin
  have h2 := mem_imported hc hr hx
  rw [← h1] at h2
  rcases mem_eventsText.1 h2 with h | ⟨m, b, h, hm⟩
  · exact h
  · exact absurd hm (hno m (typed_hasText h))

/-- **C103** (partial: if the layout has the replacements): if every character of the text is one the layout has and that
is not replaced, or one whose replacement consists of characters the layout has, nothing is left out. -/
theorem C103_kept_partial (name : String) (layers : List Layer) (kb : PhysicalKeyboard) (hf : HandFinger)
    (last : Option Comb) (text : Text) (hF : Fingered hf layers) (hl : ∀ p, last = some p → CombFingered hf p)
    (h : ∀ c ∈ text, ((∀ r, (c, r) ∉ charMap) ∧ HasText layers [c]) ∨ ∃ r, (c, r) ∈ charMap ∧ ∀ x ∈ r, HasText layers [x]) :
    ∀ x, Event.skip x ∉ (typeText hf (KeyboardLayout.mk' name layers kb) last (imported text)).1 := by
  intro x hx
  have hall : ∀ y ∈ imported text, HasText layers [y] := by
    intro y hy
    have hy := imported_sub hy
    simp only [mapChars, List.mem_flatMap] at hy
    obtain ⟨c, hc, hy⟩ := hy
    rcases h c hc with ⟨h1, h2⟩ | ⟨r, h1, h2⟩
    · have : charMap.get? c = none := by
        cases hg : charMap.get? c with
        | none => rfl
        | some r => exact absurd (Dict.mem_of_get? hg) (h1 r)
      rw [this] at hy
      rw [List.mem_singleton.1 hy]; exact h2
    · rw [Dict.get?_of_mem (by decide +kernel) h1] at hy
      exact h2 y hy
  obtain ⟨pre, post, hx⟩ := List.append_of_mem hx
  obtain ⟨h1, h2⟩ := C02_skip_only_untypeable name layers kb hf last (imported text) pre post x hF hl hx
  cases hd : (imported text).drop (eventsText pre).length with
  | nil => rw [hd] at h1; simp at h1
  | cons y ys =>
    rw [hd] at h1 h2
    simp only [List.head?_cons, Option.some.injEq] at h1
    subst h1
    refine h2 [y] (hall y ?_) ⟨ys, rfl⟩
    exact List.drop_subset (eventsText pre).length _ (by rw [hd]; simp)

/-! ### Shipped layouts -/

/-- The texts of a layout file. -/
def fileTexts (d : LayoutData) : List Text :=
  d.layout.flatMap fun g => g.layout.filterMap fun e => match e.2 with
    | .str x => some x
    | .other _ => none

theorem mem_fileTexts {d : LayoutData} {x : Text} : x ∈ fileTexts d ↔ ∃ g ∈ d.layout, ∃ n, (n, LVal.str x) ∈ g.layout := by
  simp only [fileTexts, List.mem_flatMap, List.mem_filterMap]
  constructor
  · rintro ⟨g, hg, ⟨n, v⟩, he, hv⟩
    cases v with
    | str y => simp only [Option.some.injEq] at hv; subst hv; exact ⟨g, hg, n, he⟩
    | other k => simp at hv
  · rintro ⟨g, hg, n, he⟩
    exact ⟨g, hg, _, he, rfl⟩

/-- The texts of a loaded layout are those of its file. -/
theorem shipped_hasText {names : List String} {t : InternTable} {kb : PhysicalKeyboard} {d' : KeyboardData}
    (hk : PhysicalKeyboard.deserialize (tableAfter names) Data.ibmpc105 = .ok (t, kb, d'))
    {d : LayoutData} (hd : d ∈ Data.layouts) {L : KeyboardLayout}
    (hL : (GenericLayout.deserialize d).specialize t kb = .ok L) :
    ∃ ls, L = KeyboardLayout.mk' d.name ls kb ∧ Fingered (getHandFinger Data.fingermap t) ls ∧
      ∀ x, HasText ls x ↔ x ∈ fileTexts d := by
  have h2 := shipped_loaded hk
  have hg := shipped_good d hd
  obtain ⟨ls, h3, h4⟩ := load_layout h2 hg
  rw [hL] at h3
  simp only [Except.ok.injEq] at h3
  refine ⟨ls, h3, h4.fingered hg shipped_fingers, fun x => ?_⟩
  rw [mem_fileTexts]
  constructor
  · rintro ⟨l, hl, b, hb⟩
    obtain ⟨g, hg', n, _, hn⟩ := h4.entry hl hb
    exact ⟨g, hg', n, hn⟩
  · rintro ⟨g, hg', n, hn⟩
    simp only [goodLayout, Bool.and_eq_true, List.all_eq_true] at hg
    obtain ⟨l, hl, htr⟩ := forall2_mem_left h4.layers hg'
    have hgl := goodLayer_iff (hg.1 g hg')
    obtain ⟨b, hb⟩ := h2.called (hgl.2.2.2 n (by
      simp only [layerNames, List.mem_append, List.mem_map]; exact .inl ⟨_, hn, rfl⟩))
    have hget := htr.texts n b hb
    rw [Dict.get?_of_mem hgl.1 hn] at hget
    exact ⟨l, hl, b, Dict.mem_of_get? hget⟩

/-- For every shipped layout the characters it has and importing loses. -/
def lostCharacters (name : String) : Text :=
  if name ∈ ["ar-asmo663", "ar-khorshid", "ar-malas", "ar-osman"] then "%0123456789".toList
  else if name ∈ ["ar-ergoarabic", "ar-osx", "ar-phonetic"] then ['%']
  else []

theorem lost_table : ∀ d ∈ Data.layouts, ∀ e ∈ charMap,
    (e.1 ∈ lostCharacters d.name → [e.1] ∈ fileTexts d ∧ ∃ x ∈ e.2, ∀ s ∈ fileTexts d, x ∉ s) ∧
    ([e.1] ∈ fileTexts d → e.1 ∉ lostCharacters d.name → ∀ x ∈ e.2, [x] ∈ fileTexts d) := by
  have h : (Data.layouts.all fun d => charMap.all fun e =>
      if e.1 ∈ lostCharacters d.name then
        decide ([e.1] ∈ fileTexts d) && e.2.any fun x => (fileTexts d).all fun s => decide (x ∉ s)
      else decide ([e.1] ∉ fileTexts d) || e.2.all fun x => decide ([x] ∈ fileTexts d)) = true := by decide +kernel
  intro d hd e he
  have := List.all_eq_true.1 (List.all_eq_true.1 h d hd) e he
  split_ifs at this with hl
  · simp only [Bool.and_eq_true, decide_eq_true_eq, List.any_eq_true, List.all_eq_true] at this
    exact ⟨fun _ => this, fun _ h => absurd hl h⟩
  · simp only [Bool.or_eq_true, decide_eq_true_eq, List.all_eq_true] at this
    exact ⟨fun h => absurd h hl, fun h1 _ => this.resolve_left fun h2 => h2 h1⟩

theorem lost_mapped (name : String) : ∀ c ∈ lostCharacters name, ∃ r, (c, r) ∈ charMap := by
  have h : ∀ c ∈ "%0123456789".toList, ∃ e ∈ charMap, e.1 = c := by decide +kernel
  intro c hc
  have hc : c ∈ "%0123456789".toList := by
    unfold lostCharacters at hc
    split_ifs at hc
    · exact hc
    · rw [List.mem_singleton.1 hc]; decide
    · simp at hc
  obtain ⟨e, he, rfl⟩ := h c hc
  exact ⟨e.2, he⟩

/-- **C103 is false**: seven of the shipped layouts have characters that importing replaces by ones they do not have. A
text with such a character is never typed completely, for four of the layouts these are all digits. -/
theorem C103_false (names : List String) (t : InternTable) (kb : PhysicalKeyboard) (d' : KeyboardData)
    (hk : PhysicalKeyboard.deserialize (tableAfter names) Data.ibmpc105 = .ok (t, kb, d'))
    (d : LayoutData) (hd : d ∈ Data.layouts) (L : KeyboardLayout)
    (hL : (GenericLayout.deserialize d).specialize t kb = .ok L) (c : Char) (hc : c ∈ lostCharacters d.name) :
    HasText L.layers [c] ∧ ∀ text, c ∈ text → ∃ x,
      Event.skip x ∈ (typeText (getHandFinger Data.fingermap t) L none (imported text)).1 := by
  obtain ⟨ls, rfl, hF, hT⟩ := shipped_hasText hk hd hL
  obtain ⟨r, hr⟩ := lost_mapped _ c hc
  obtain ⟨h1, x, hx, h2⟩ := (lost_table d hd _ hr).1 hc
  refine ⟨(hT _).2 h1, fun text ht => ⟨x, ?_⟩⟩
  exact C103_left_out _ _ _ _ _ _ ⟨[c], by simp, (hT _).2 h1⟩ (C71_typing names t kb d' hk d hd _ hL _).1 c x r ht hr hx
    fun s hs => h2 s ((hT s).1 hs)

/-- **C103** (partial: without these characters): if a text consists of characters a shipped layout has, other than those
lost, nothing is left out after importing it. -/
theorem C103_shipped_partial (names : List String) (t : InternTable) (kb : PhysicalKeyboard) (d' : KeyboardData)
    (hk : PhysicalKeyboard.deserialize (tableAfter names) Data.ibmpc105 = .ok (t, kb, d'))
    (d : LayoutData) (hd : d ∈ Data.layouts) (L : KeyboardLayout)
    (hL : (GenericLayout.deserialize d).specialize t kb = .ok L) (text : Text)
    (h : ∀ c ∈ text, HasText L.layers [c] ∧ c ∉ lostCharacters d.name) :
    ∀ x, Event.skip x ∉ (typeText (getHandFinger Data.fingermap t) L none (imported text)).1 := by
  obtain ⟨ls, rfl, hF, hT⟩ := shipped_hasText hk hd hL
  refine C103_kept_partial _ _ _ _ _ _ hF (by simp) fun c hc => ?_
  obtain ⟨h1, h2⟩ := h c hc
  by_cases hm : ∃ r, (c, r) ∈ charMap
  · obtain ⟨r, hr⟩ := hm
    exact .inr ⟨r, hr, fun x hx => (hT _).2 ((lost_table d hd _ hr).2 ((hT _).1 h1) h2 x hx)⟩
  · exact .inl ⟨by simpa using hm, h1⟩

/-- **C103** (no digits): with four of the shipped layouts no digit is ever counted, whatever the text. -/
theorem C103_no_digits (names : List String) (t : InternTable) (kb : PhysicalKeyboard) (d' : KeyboardData)
    (hk : PhysicalKeyboard.deserialize (tableAfter names) Data.ibmpc105 = .ok (t, kb, d'))
    (d : LayoutData) (hd : d ∈ Data.layouts) (hn : d.name ∈ ["ar-asmo663", "ar-khorshid", "ar-malas", "ar-osman"])
    (L : KeyboardLayout) (hL : (GenericLayout.deserialize d).specialize t kb = .ok L) (text m : Text) (b : Comb)
    (h : Event.typed m b ∈ (typeText (getHandFinger Data.fingermap t) L none (imported text)).1) :
    ∀ c ∈ m, ∀ n < 10, c ≠ Char.ofNat (48 + n) ∧ c ≠ Char.ofNat (0x660 + n) := by
  intro c hc n hn10
  obtain ⟨ls, rfl, hF, hT⟩ := shipped_hasText hk hd hL
  refine ⟨?_, ?_⟩
  · rintro rfl
    have h1 : ∀ n < 10, ∃ e ∈ charMap, e.1 = Char.ofNat (48 + n) := by decide +kernel
    obtain ⟨e, he, h2⟩ := h1 n hn10
    exact C103_never _ _ _ _ _ _ h _ hc e.2 (by rw [← h2]; exact he)
  · rintro rfl
    have h1 : ∀ d ∈ Data.layouts, d.name ∈ ["ar-asmo663", "ar-khorshid", "ar-malas", "ar-osman"] →
        ∀ s ∈ fileTexts d, ∀ n < 10, Char.ofNat (0x660 + n) ∉ s := by decide +kernel
    exact h1 d hd hn m ((hT m).1 (typed_hasText h)) n hn10 hc

/-- Typing "15" on `ar-asmo663`, as it is and as it is imported. -/
example : ((PhysicalKeyboard.deserialize InternTable.initial Data.ibmpc105).bind fun k =>
      ((GenericLayout.deserialize Data.arAsmo663).specialize k.1 k.2.1).bind fun L =>
        .ok ((typeText (getHandFinger Data.fingermap k.1) L none "15".toList).1.map fun e => match e with
            | .typed m _ => some m
            | .skip _ => none,
          (typeText (getHandFinger Data.fingermap k.1) L none (imported "15".toList)).1)) =
    .ok ([some ['1'], some ['5']], [.skip '١', .skip '٥']) := by decide +kernel

end Lulua.Props
