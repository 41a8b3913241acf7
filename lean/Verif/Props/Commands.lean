import Verif.Proofs.Commands
import Verif.Props.Plot
import Verif.Props.Shipped

/-!
# C125: statistics and the keyboard they were made with
-/

namespace Lulua.Props
open Lulua Spec

theorem loadWith_ok {k : KeyboardData} {d : LayoutData} {t : InternTable} {kb : PhysicalKeyboard} {L : KeyboardLayout} :
    loadWith k d = .ok (t, kb, L) ↔ (∃ k', PhysicalKeyboard.deserialize .initial k = .ok (t, kb, k')) ∧
      (GenericLayout.deserialize d).specialize t kb = .ok L := by
  simp only [loadWith, bind_ok_iff, Except.ok.injEq, Prod.mk.injEq]
  constructor
  · rintro ⟨⟨t1, kb1, k1⟩, h1, L1, h2, rfl, rfl, rfl⟩
    exact ⟨⟨_, h1⟩, h2⟩
  · rintro ⟨⟨k', h1⟩, h2⟩
    exact ⟨_, h1, _, h2, rfl, rfl, rfl⟩

/-- **C125** (names): a process that has loaded a keyboard calls all buttons of statistics made with another one as they are called there
if and only if its file begins with the same names. -/
theorem C125_names (k k' : KeyboardData) (d d' : LayoutData) (t t' : InternTable) (kb kb' : PhysicalKeyboard) (L L' : KeyboardLayout)
    (h : loadWith k d = .ok (t, kb, L)) (h' : loadWith k' d' = .ok (t', kb', L')) :
    (∀ b n, t.nameOf b = .ok n → t'.nameOf b = .ok n) ↔ distinct (boardNames k) <+: distinct (boardNames k') := by
  obtain ⟨⟨_, h1⟩, _⟩ := loadWith_ok.1 h
  obtain ⟨⟨_, h2⟩, _⟩ := loadWith_ok.1 h'
  have r := (keyboard_numbered represents_initial h1).1
  have r' := (keyboard_numbered represents_initial h2).1
  rw [← C11_pickled_buttons]
  simp only [r.nameOf_ok, r'.nameOf_ok, (represents_tableAfter _).nameOf_ok]
  rfl

/-- **C125** (texts): in that case the layout can be loaded, and types the same with the same buttons. -/
theorem C125_partial (k k' : KeyboardData) (d : LayoutData) (t t' : InternTable) (kb kb' : PhysicalKeyboard) (L : KeyboardLayout)
    (k'' : KeyboardData) (h : loadWith k d = .ok (t, kb, L)) (h' : PhysicalKeyboard.deserialize .initial k' = .ok (t', kb', k''))
    (hp : distinct (boardNames k) <+: distinct (boardNames k')) :
    ∃ L', loadWith k' d = .ok (t', kb', L') ∧ L'.layers = L.layers ∧ (∀ c, L'.getText c = L.getText c) ∧
      ∀ b, b ∈ kb.keys.map Btn.i → t'.nameOf b = t.nameOf b := by
  obtain ⟨⟨_, h1⟩, h2⟩ := loadWith_ok.1 h
  simp only [GenericLayout.specialize, bind_ok_iff, Except.ok.injEq] at h2
  obtain ⟨layers, h3, rfl⟩ := h2
  have h4 := specLayers_too (findsToo_of_prefix h1 h' hp) _ _ h3
  refine ⟨KeyboardLayout.mk' (GenericLayout.deserialize d).name layers kb', loadWith_ok.2 ⟨⟨_, h'⟩, ?_⟩, rfl, fun _ => rfl, ?_⟩
  · simp only [GenericLayout.specialize, bind_ok_iff, Except.ok.injEq]
    exact ⟨layers, h4, rfl⟩
  · intro b hb
    obtain ⟨x, hx, rfl⟩ := List.mem_map.1 hb
    obtain ⟨r, n⟩ := keyboard_numbered represents_initial h1
    obtain ⟨m, _, hm⟩ := forall2_mem_right n hx
    rw [r.nameOf_ok.2 hm]
    exact (keyboard_numbered represents_initial h').1.nameOf_ok.2 (prefix_getElem? hp hm)

/-- **C125**: so do all commands that look at `-k`. -/
theorem C125_same (k : KeyboardData) (d : LayoutData) (c : Command) (hc : c ∈ [.pretty, .keyHeatmap, .layoutstats, .optimize]) :
    loadWith (c.keyboard k) d = loadWith k d := by
  simp only [List.mem_cons, List.not_mem_nil, or_false] at hc
  rcases hc with rfl | rfl | rfl | rfl <;> rfl

/-- **C125** (workers): the buttons of the keyboard a worker types on keep their names, although it loads another one. -/
theorem C125_workers (k : KeyboardData) (d : LayoutData) (t : InternTable) (kb : PhysicalKeyboard) (L : KeyboardLayout)
    (h : loadWith k d = .ok (t, kb, L)) : ∃ t', workerTable k = .ok t' ∧ ∀ b n, t.nameOf b = .ok n → t'.nameOf b = .ok n := by
  obtain ⟨⟨k', h1⟩, _⟩ := loadWith_ok.1 h
  have r := (keyboard_numbered represents_initial h1).1
  obtain ⟨t', ns', bs, ds', h2, _, h3, _⟩ := dataRows_roundtrip r shipped_canonical
  refine ⟨t', ?_, fun b n hb => h3 b n hb⟩
  simp only [workerTable, bind_ok_iff, Except.ok.injEq]
  exact ⟨_, h1, (t', PhysicalKeyboard.mk' Data.ibmpc105.name Data.ibmpc105.description bs,
    { Data.ibmpc105 with rows := ds' }), by simp only [PhysicalKeyboard.deserialize, h2, bind, Except.bind], rfl⟩

/-- The keyboard with the left half of every row in the opposite order. -/
def turnedKeyboard : KeyboardData := { Data.ibmpc105 with rows := Data.ibmpc105.rows.map fun r => (r.1.reverse, r.2) }

def lettersTyped (k k' : KeyboardData) (d : LayoutData) (text : Text) : Py (List (LVal × Nat)) := do
  let (t, _, L) ← loadWith k d
  let (_, _, L') ← loadWith k' d
  let rows ← letterfreq L' (fun _ => true) ((typeText (getHandFinger Data.fingermap t) L none text).1.foldl SimpleStats.process .init).combinations
  .ok (rows.map fun r => (r.letter, r.abs))

/-- **C125 is false** for the plots: they always load the default keyboard. What is said to be the frequencies of م and و are those of
ا and ب. -/
theorem C125_false : lettersTyped turnedKeyboard turnedKeyboard Data.arLulua "باب".toList = .ok [(.str ['ا'], 1), (.str ['ب'], 2)] ∧
    lettersTyped turnedKeyboard (Command.letterfreq.keyboard turnedKeyboard) Data.arLulua "باب".toList =
      .ok [(.str ['م'], 1), (.str ['و'], 2)] := by
  constructor <;> decide +kernel

/-- A keyboard without the last button, for which the plots are right. -/
def shortKeyboard : KeyboardData :=
  { Data.ibmpc105 with rows := Data.ibmpc105.rows.dropLast ++ Data.ibmpc105.rows.getLast?.toList.map fun r => (r.1, r.2.dropLast) }

example : distinct (boardNames shortKeyboard) <+: distinct (boardNames Data.ibmpc105) ∧ boardNames shortKeyboard ≠ boardNames Data.ibmpc105 ∧
    (∃ x, loadWith shortKeyboard Data.arLulua = .ok x) ∧ ¬ distinct (boardNames turnedKeyboard) <+: distinct (boardNames Data.ibmpc105) := by
  refine ⟨by decide +kernel, by decide +kernel, ?_, by decide +kernel⟩
  have h : (loadWith shortKeyboard Data.arLulua).toOption.isSome = true := by decide +kernel
  revert h
  generalize loadWith shortKeyboard Data.arLulua = x
  intro h
  cases x with
  | ok a => exact ⟨a, rfl⟩
  | error e => cases h

end Lulua.Props
