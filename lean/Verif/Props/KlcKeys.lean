import Verif.Spec.KlcKeys
import Verif.Props.Klc

/-!
# C104–C106: keys and modifiers of imported KLC files, scancodes of the shipped keyboard
-/

namespace Lulua.Props
open Lulua Lulua.Spec

/-- `AtItsPlace` as a check. -/
def placeCheck (key : Text) (button : String) : Bool :=
  match klcVirtualKey key with
  | none => false
  | some n => Data.qwertyScancodeToVk.any fun e =>
    decide (e.2.head? = some (.key n)) && decide ((button, ScVal.list (e.1.map ScAtom.num)) ∈ boardScancodes "windows")

theorem placeCheck_iff {key : Text} {button : String} : placeCheck key button = true ↔ AtItsPlace key button := by
  unfold placeCheck AtItsPlace
  cases klcVirtualKey key with
  | none => simp
  | some n =>
    simp only [List.any_eq_true, Bool.and_eq_true, decide_eq_true_eq]
    constructor
    · rintro ⟨⟨sc, vs⟩, h1, h2, h3⟩
      cases vs with
      | nil => simp at h2
      | cons v vs =>
        simp only [List.head?_cons, Option.some.injEq] at h2
        subst h2
        exact ⟨n, sc, vs, rfl, h1, h3⟩
    · rintro ⟨_, sc, vs, h0, h1, h3⟩
      cases h0
      exact ⟨_, h1, rfl, h3⟩

/-- The keys that are not where they belong. -/
def misplaced : List Text := ["OEM_3".toList, "OEM_5".toList]

theorem klcButtons_checked : ∀ e ∈ vkToButton, (decide (e.1 ∈ misplaced) || placeCheck e.1 e.2) = true := by decide +kernel

/-- **C104** (partial: for all keys but two): every key of a KLC file is imported as the button that is at its place, and
different keys as different buttons. -/
theorem C104_partial (key key' : Text) (button button' : String) (hm : key ∉ misplaced) (hm' : key' ∉ misplaced)
    (h : vkToButton.get? key = some button) (h' : vkToButton.get? key' = some button') :
    AtItsPlace key button ∧ (button = button' → key = key') := by
  refine ⟨?_, ?_⟩
  · have := klcButtons_checked _ (Dict.mem_of_get? h)
    rw [Bool.or_eq_true, decide_eq_true_eq] at this
    exact placeCheck_iff.1 (this.resolve_left hm)
  · have key : ∀ e ∈ vkToButton, ∀ e' ∈ vkToButton, e.1 ∉ misplaced → e'.1 ∉ misplaced → e.2 = e'.2 → e.1 = e'.1 := by
      decide +kernel
    exact key _ (Dict.mem_of_get? h) _ (Dict.mem_of_get? h') hm hm'

/-- **C104 is false**: the key left of the digits is imported as the button of the digit one, so that one of the two texts is
lost, and nothing is ever imported for the button at its place, nor for the one at the place of `OEM_5`. -/
theorem C104_false : AtItsPlace "OEM_3".toList "Bl1" ∧ AtItsPlace "1".toList "Bl2" ∧ AtItsPlace "OEM_5".toList "Dr1" ∧
    (∀ dig nfd, fromKlc asciiSpace dig nfd ["LAYOUT".toList, "29 OEM_3 0 0630".toList, "02 1 0 0031".toList] =
      .ok [[("Bl2", nfd 0x31)], [], [], [], [], []]) ∧
    ∀ (isSpace : Char → Bool) (_ : PlainMarkers isSpace) (dig : Char → Option Nat) (nfd : Nat → List Nat) (lines : List Text)
      (layers : KlcLayers), fromKlc isSpace dig nfd lines = .ok layers →
      ∀ l ∈ layers, l.get? "Bl1" = none ∧ l.get? "Dr1" = none := by
  refine ⟨placeCheck_iff.1 (by decide +kernel), placeCheck_iff.1 (by decide +kernel), placeCheck_iff.1 (by decide +kernel),
    fun _ _ => rfl, ?_⟩
  intro isSpace hp dig nfd lines layers h l hl
  obtain ⟨i, hi⟩ := List.mem_iff_getElem?.1 hl
  have hno : ∀ e ∈ vkToButton, e.2 ≠ "Bl1" ∧ e.2 ≠ "Dr1" := by decide +kernel
  have key : ∀ b, (∀ e ∈ vkToButton, e.2 ≠ b) → l.get? b = none := by
    intro b hb
    cases hg : l.get? b with
    | none => rfl
    | some t =>
      have := ((C82_cells hp lines layers h).2 i b t).1 (by rw [hi]; exact hg)
      obtain ⟨k, ⟨line, _, _, _, _, _, _, _, _, _, _, _, _, _, hv, _⟩, _⟩ := this
      exact absurd rfl (hb _ (Dict.mem_of_get? hv))
  exact ⟨key _ fun e he => (hno e he).1, key _ fun e he => (hno e he).2⟩

example : vkToButton.get? "Q".toList = some "Cl1" ∧ "Q".toList ∉ misplaced := by decide +kernel

/-! ### C105: modifiers of imported layers -/

/-- The same key on the other side. -/
def otherSide (n : String) : String :=
  if n = "El_shift" then "Er_shift" else if n = "Er_shift" then "El_shift"
  else if n = "Fl_ctrl" then "Fr_ctrl" else if n = "Fr_ctrl" then "Fl_ctrl" else n

/-- The modifiers of the columns of a KLC file: nothing, shift, control, both, AltGr, AltGr and shift. -/
def columnKinds : List (List String) := [[], ["shift"], ["ctrl"], ["shift", "ctrl"], ["altgr"], ["shift", "altgr"]]

/-- The kind of a modifier. -/
def modifierKind (n : String) : Option String :=
  if n ∈ ["El_shift", "Er_shift"] then some "shift"
  else if n ∈ ["Fl_ctrl", "Fr_ctrl"] then some "ctrl"
  else if n = "Er_altgr" then some "altgr" else none

/-- **C105** (columns): each layer is selected by modifiers of the kinds of its column, and by nothing else. -/
theorem C105_columns (val : List Nat → LVal) (layers : KlcLayers) (hl : layers.length = 6) (i : Nat) (g : GLayer)
    (h : (importKlc val layers).layout[i]? = some g) :
    g.modifier ≠ [] ∧ ∃ kinds, columnKinds[i]? = some kinds ∧ ∀ m ∈ g.modifier, m.map modifierKind = kinds.map some := by
  have key : ∀ i < 6, ∃ ms, klcSwitches[i]? = some ms ∧ ms ≠ [] ∧ ∃ kinds, columnKinds[i]? = some kinds ∧
      ∀ m ∈ ms, m.map modifierKind = kinds.map some := by
    have : ∀ i < 6, (klcSwitches.getD i []) ≠ [] ∧ ∀ m ∈ klcSwitches.getD i [],
        m.map modifierKind = (columnKinds.getD i []).map some := by decide +kernel
    intro i hi
    refine ⟨klcSwitches.getD i [], ?_, (this i hi).1, columnKinds.getD i [], ?_, (this i hi).2⟩
    · rw [List.getD_eq_getElem?_getD, List.getElem?_eq_getElem (by simpa [klcSwitches] using hi)]; rfl
    · rw [List.getD_eq_getElem?_getD, List.getElem?_eq_getElem (by simpa [columnKinds] using hi)]; rfl
  simp only [importKlc, List.getElem?_zipWith] at h
  by_cases hi : i < 6
  · obtain ⟨ms, h1, h2, h3⟩ := key i hi
    rw [h1, List.getElem?_eq_getElem (by omega)] at h
    simp only [Option.some.injEq] at h
    subst h
    exact ⟨h2, h3⟩
  · rw [List.getElem?_eq_none (by omega)] at h
    simp at h

/-- **C105 is false**: the layers with control and shift or AltGr and shift cannot be reached with every shift key. -/
theorem C105_false (val : List Nat → LVal) (layers : KlcLayers) (hl : layers.length = 6) :
    ∃ g h, (importKlc val layers).layout[3]? = some g ∧ (importKlc val layers).layout[5]? = some h ∧
      ["El_shift", "Fl_ctrl"] ∈ g.modifier ∧ (∀ m ∈ g.modifier, ¬ ("Er_shift" ∈ m ∧ "Fl_ctrl" ∈ m)) ∧
      ["El_shift", "Er_altgr"] ∈ h.modifier ∧ ∀ m ∈ h.modifier, "Er_shift" ∉ m := by
  match layers, hl with
  | [a, b, c, d, e, f], _ =>
    refine ⟨_, _, rfl, rfl, ?_⟩
    dsimp only
    decide +kernel

/-- **C105** (partial: for layers with at most one modifier): any of the two keys can be used. -/
theorem C105_partial (val : List Nat → LVal) (layers : KlcLayers) (i : Nat) (g : GLayer)
    (h : (importKlc val layers).layout[i]? = some g) (hi : i ≤ 2 ∨ i = 4) :
    ∀ m ∈ g.modifier, m.map otherSide ∈ g.modifier := by
  have key : ∀ i < 5, i ≠ 3 → ∀ m ∈ klcSwitches.getD i [], m.map otherSide ∈ klcSwitches.getD i [] := by decide +kernel
  simp only [importKlc, List.getElem?_zipWith] at h
  cases h1 : layers[i]? with
  | none => rw [h1] at h; simp at h
  | some l =>
    cases h2 : klcSwitches[i]? with
    | none => rw [h1, h2] at h; simp at h
    | some ms =>
      rw [h1, h2] at h
      simp only [Option.some.injEq] at h
      subst h
      have := key i (by omega) (by omega)
      rw [List.getD_eq_getElem?_getD, h2] at this
      exact this

/-! ### C106: scancodes -/

/-- **C106** (Windows): the scancodes of the shipped keyboard tell all buttons apart, except for the two halves of the space
bar. -/
theorem C106_windows : ∀ a ∈ boardScancodes "windows", ∀ b ∈ boardScancodes "windows", a.2 = b.2 →
    a.1 = b.1 ∨ (a.1 ∈ ["Fl_space", "Fr_space"] ∧ b.1 ∈ ["Fl_space", "Fr_space"]) := by decide +kernel

/-- **C106 is false** for the other systems: caps lock and the left shift key have the same code on macOS, the right windows
key and the right control key on X11. -/
theorem C106_false : ("Dl_caps", ScVal.num 57) ∈ boardScancodes "macos" ∧ ("El_shift", ScVal.num 57) ∈ boardScancodes "macos" ∧
    ("Fr_win", ScVal.num 105) ∈ boardScancodes "xorg" ∧ ("Fr_ctrl", ScVal.num 105) ∈ boardScancodes "xorg" := by
  decide +kernel

/-- **C106** (partial: apart from these and other modifiers): the codes of all systems tell the remaining buttons apart. -/
theorem C106_partial : ∀ s ∈ ["macos", "xorg", "keyman"], ∀ a ∈ boardScancodes s, ∀ b ∈ boardScancodes s, a.2 = b.2 →
    a.1 = b.1 ∨ (a.1 ∈ ["Fl_space", "Fr_space"] ∧ b.1 ∈ ["Fl_space", "Fr_space"]) ∨
      (a.1 ∈ ["Dl_caps", "El_shift", "Er_shift", "Fl_win", "Fr_win", "Fr_ctrl"] ∧
        b.1 ∈ ["Dl_caps", "El_shift", "Er_shift", "Fl_win", "Fr_win", "Fr_ctrl"]) := by decide +kernel

end Lulua.Props
