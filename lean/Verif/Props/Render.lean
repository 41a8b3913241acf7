import Verif.Proofs.Render
import Verif.Proofs.Layout
import Verif.Props.Keyboard
import Verif.Props.Util
import Verif.Props.Typing

/-!
# C63, C65, C77: the picture
-/

namespace Lulua.Props
open Lulua Spec

/-! ### C63 -/

/-- **C63**: button number `j` in row `i` is placed where its row and the buttons before it say. -/
theorem C63_positions (s : RenderSettings) (name desc : String) (rows : List (Row Btn)) (m : Positions) (w h : Rat)
    (hok : calcDimensions s (PhysicalKeyboard.mk' name desc rows) = .ok (m, w, h)) (i j : Nat) (r : Row Btn) (b : Btn)
    (hr : rows[i]? = some r) (hb : (r.1 ++ r.2)[j]? = some b) :
    m.get? b.i = some (rowX s r j, i * (s.buttonWidth + s.buttonMargin)) := by
  unfold calcDimensions PhysicalKeyboard.mk' at hok
  rw [placeRows_ok Dict.wf_nil] at hok
  obtain ⟨wf, he⟩ := hok
  simp only [List.nil_append, Prod.mk.injEq] at he wf
  obtain ⟨rfl, _, _⟩ := he
  have := placedRows_mem s 0 rows i j r b hr hb
  rw [zero_add] at this
  exact Dict.get?_of_mem wf this

/-- **C63**: the picture is as wide as the widest row and as high as all rows. -/
theorem C63_size (s : RenderSettings) (name desc : String) (rows : List (Row Btn)) (m : Positions) (w h : Rat)
    (hok : calcDimensions s (PhysicalKeyboard.mk' name desc rows) = .ok (m, w, h)) :
    h = rows.length * (s.buttonWidth + s.buttonMargin) ∧ 0 ≤ w ∧ (∀ r ∈ rows, roomFor s (r.1 ++ r.2) + s.middleGap ≤ w) ∧
      (w = 0 ∨ ∃ r ∈ rows, w = roomFor s (r.1 ++ r.2) + s.middleGap) := by
  unfold calcDimensions PhysicalKeyboard.mk' at hok
  rw [placeRows_ok Dict.wf_nil] at hok
  obtain ⟨wf, he⟩ := hok
  simp only [List.nil_append, Prod.mk.injEq] at he
  obtain ⟨_, rfl, rfl⟩ := he
  refine ⟨zero_add _, widest_ge s rows 0⟩

theorem keys_at {rows : List (Row Btn)} {b : Btn} (h : b ∈ rows.flatMap fun r => r.1 ++ r.2) :
    ∃ (i j : Nat) (r : Row Btn), rows[i]? = some r ∧ (r.1 ++ r.2)[j]? = some b := by
  obtain ⟨r, hr, hb⟩ := List.mem_flatMap.1 h
  obtain ⟨i, hi⟩ := List.mem_iff_getElem?.1 hr
  obtain ⟨j, hj⟩ := List.mem_iff_getElem?.1 hb
  exact ⟨i, j, r, hi, hj⟩

theorem roomFor_nonneg {s : RenderSettings} (hm : 0 ≤ s.buttonMargin) (hw : 0 ≤ s.buttonWidth) {bs : List Btn}
    (h : ∀ b ∈ bs, 0 ≤ b.width) : 0 ≤ roomFor s bs := by
  refine List.sum_nonneg ?_
  intro x hx
  obtain ⟨b, hb, rfl⟩ := List.mem_map.1 hx
  exact add_nonneg (mul_nonneg (h b hb) hw) hm

/-- A button ends, with its margin, before the next ones begin. -/
theorem rowX_step {s : RenderSettings} (hm : 0 ≤ s.buttonMargin) (hg : 0 ≤ s.middleGap) (hw : 0 ≤ s.buttonWidth) {r : Row Btn}
    (h : ∀ b ∈ r.1 ++ r.2, 0 ≤ b.width) {j k : Nat} {b : Btn} (hb : (r.1 ++ r.2)[j]? = some b) (hjk : j < k) :
    rowX s r j + b.width * s.buttonWidth + s.buttonMargin ≤ roomFor s ((r.1 ++ r.2).take k) +
      if r.1.length ≤ k then s.middleGap else 0 := by
  obtain ⟨hlt, hbe⟩ := List.getElem?_eq_some_iff.1 hb
  obtain ⟨n, rfl⟩ : ∃ n, k = j + 1 + n := ⟨k - (j + 1), by omega⟩
  rw [List.take_add, roomFor_append, List.take_succ_eq_append_getElem hlt, roomFor_append, hbe]
  have h1 : 0 ≤ roomFor s (((r.1 ++ r.2).drop (j + 1)).take n) :=
    roomFor_nonneg hm hw fun b hb => h b (List.mem_of_mem_drop (List.mem_of_mem_take hb))
  have h2 : roomFor s [b] = b.width * s.buttonWidth + s.buttonMargin := by simp [roomFor]
  have h3 : (if r.1.length ≤ j then s.middleGap else 0) ≤ if r.1.length ≤ j + 1 + n then s.middleGap else 0 := by
    split_ifs <;> first | omega | linarith
  unfold rowX
  linarith

/-- **C63**: all buttons lie inside the picture and, if they are different, at least the margin apart. -/
theorem C63_disjoint (s : RenderSettings) (name desc : String) (rows : List (Row Btn)) (m : Positions) (w h : Rat)
    (hok : calcDimensions s (PhysicalKeyboard.mk' name desc rows) = .ok (m, w, h))
    (hs : Sized s (PhysicalKeyboard.mk' name desc rows)) :
    (∀ b ∈ (PhysicalKeyboard.mk' name desc rows).keys, ∃ p, m.get? b.i = some p ∧ (capRect s b p).Inside w h) ∧
    ∀ b ∈ (PhysicalKeyboard.mk' name desc rows).keys, ∀ b' ∈ (PhysicalKeyboard.mk' name desc rows).keys, b.i ≠ b'.i →
      ∀ p p', m.get? b.i = some p → m.get? b'.i = some p' → (capRect s b p).Apart s.buttonMargin (capRect s b' p') := by
  obtain ⟨hm, hg, hbw, hbs⟩ := hs
  obtain ⟨hh, hw0, hwr, _⟩ := C63_size s name desc rows m w h hok
  have hrow : ∀ r ∈ rows, ∀ b ∈ r.1 ++ r.2, 0 ≤ b.width := fun r hr b hb => hbs b (List.mem_flatMap.2 ⟨r, hr, hb⟩)
  constructor
  · intro b hb
    obtain ⟨i, j, r, hr, hj⟩ := keys_at hb
    have hpos := C63_positions s name desc rows m w h hok i j r b hr hj
    have hrm := List.mem_of_getElem? hr
    refine ⟨_, hpos, ?_⟩
    have hi : i < rows.length := (List.getElem?_eq_some_iff.1 hr).1
    have hi' : (i : Rat) + 1 ≤ rows.length := by exact_mod_cast hi
    refine ⟨?_, ?_, ?_, ?_⟩
    · refine add_nonneg (roomFor_nonneg hm hbw fun b hb => hrow r hrm b (List.mem_of_mem_take hb)) ?_
      split_ifs
      · exact hg
      · exact le_refl _
    · have h1 := rowX_step hm hg hbw (hrow r hrm) hj (k := (r.1 ++ r.2).length) (List.getElem?_eq_some_iff.1 hj).1
      rw [List.take_length] at h1
      have h2 := hwr r hrm
      have h3 : (if r.1.length ≤ (r.1 ++ r.2).length then s.middleGap else 0) = s.middleGap := by simp
      rw [h3] at h1
      simp only [capRect]
      linarith
    · exact mul_nonneg (Nat.cast_nonneg _) (add_nonneg hbw hm)
    · simp only [capRect]
      rw [hh]
      have := mul_le_mul_of_nonneg_right hi' (add_nonneg hbw hm)
      linarith
  · intro b hb b' hb' hne p p' hp hp'
    obtain ⟨i, j, r, hr, hj⟩ := keys_at hb
    obtain ⟨i', j', r', hr', hj'⟩ := keys_at hb'
    rw [C63_positions s name desc rows m w h hok i j r b hr hj, Option.some.injEq] at hp
    rw [C63_positions s name desc rows m w h hok i' j' r' b' hr' hj', Option.some.injEq] at hp'
    subst hp
    subst hp'
    have vert : ∀ a c : Nat, a < c → (a : Rat) * (s.buttonWidth + s.buttonMargin) + s.buttonWidth + s.buttonMargin ≤
        c * (s.buttonWidth + s.buttonMargin) := by
      intro a c hac
      have : (a : Rat) + 1 ≤ c := by exact_mod_cast hac
      have := mul_le_mul_of_nonneg_right this (add_nonneg hbw hm)
      linarith
    rcases Nat.lt_trichotomy i i' with hlt | rfl | hlt
    · right; right; left; exact vert i i' hlt
    · rw [hr] at hr'
      simp only [Option.some.injEq] at hr'
      subst hr'
      have hrm := List.mem_of_getElem? hr
      rcases Nat.lt_trichotomy j j' with hlt | rfl | hlt
      · left; exact rowX_step hm hg hbw (hrow r hrm) hj hlt
      · rw [hj] at hj'
        simp only [Option.some.injEq] at hj'
        exact absurd (congrArg Btn.i hj') hne
      · right; left; exact rowX_step hm hg hbw (hrow r hrm) hj' hlt
    · right; right; right; exact vert i' i hlt

/-- **C63**: it works exactly if no button occurs twice, and otherwise an assertion fails. -/
theorem C63_works (s : RenderSettings) (name desc : String) (rows : List (Row Btn)) :
    ((∃ x, calcDimensions s (PhysicalKeyboard.mk' name desc rows) = .ok x) ↔
      ((PhysicalKeyboard.mk' name desc rows).keys.map Btn.i).Nodup) ∧
    (¬ ((PhysicalKeyboard.mk' name desc rows).keys.map Btn.i).Nodup →
      calcDimensions s (PhysicalKeyboard.mk' name desc rows) = .error .assertionError) := by
  have key : (∃ x, calcDimensions s (PhysicalKeyboard.mk' name desc rows) = .ok x) ↔
      ((PhysicalKeyboard.mk' name desc rows).keys.map Btn.i).Nodup := by
    have hk := placedRows_keys s 0 rows
    constructor
    · rintro ⟨x, hx⟩
      unfold calcDimensions PhysicalKeyboard.mk' at hx
      rw [placeRows_ok Dict.wf_nil] at hx
      have := hx.1
      unfold Dict.WF at this
      rw [List.nil_append, hk] at this
      exact this
    · intro hn
      refine ⟨_, (placeRows_ok Dict.wf_nil).2 ⟨?_, rfl⟩⟩
      unfold Dict.WF
      rw [List.nil_append]
      exact hk ▸ hn
  refine ⟨key, ?_⟩
  intro hn
  cases h : calcDimensions s (PhysicalKeyboard.mk' name desc rows) with
  | ok x => exact absurd (key.1 ⟨x, h⟩) hn
  | error e => rw [placeRows_error h]

/-- Two rows, the last button is wide. -/
def renderRows : List (Row Btn) :=
  [([⟨0, .letter, 1, false, none, none⟩, ⟨1, .letter, 3/2, true, none, none⟩], [⟨2, .letter, 1, false, none, none⟩]),
    ([⟨3, .standard, 2, false, none, none⟩], [⟨4, .standard, 5, false, none, none⟩])]

example : Sized .default (PhysicalKeyboard.mk' "" "" renderRows) ∧
    calcDimensions .default (PhysicalKeyboard.mk' "" "" renderRows) =
      .ok ([(0, (0, 0)), (1, (220, 0)), (2, (550, 0)), (3, (0, 220)), (4, (430, 220))], 1450, 440) := by
  refine ⟨⟨?_, ?_, ?_, ?_⟩, ?_⟩ <;> decide +kernel

example : calcDimensions .default (PhysicalKeyboard.mk' "" "" (renderRows ++ renderRows)) = .error .assertionError := by
  decide +kernel

/-! ### C65 -/

/-- **C65**: it fails exactly if there are no buttons or none has been pressed. -/
theorem C65_works (d : Dict String Nat) : (∃ h, keyHeat d = .ok h) ↔ ∃ p ∈ d, 0 < p.2 := by
  unfold keyHeat
  cases d with
  | nil => simp
  | cons p rest =>
    obtain ⟨h1, h2, h3⟩ := foldl_max_spec rest p.2
    simp only
    constructor
    · rintro ⟨h, hh⟩
      split at hh
      · cases hh
      · next h0 =>
        rcases h3 with h3 | ⟨q, hq, h3⟩
        · exact ⟨p, by simp, by omega⟩
        · exact ⟨q, by simp [hq], by omega⟩
    · rintro ⟨q, hq, hpos⟩
      have : ¬ rest.foldl (fun m q => max m q.2) p.2 = 0 := by
        rcases List.mem_cons.1 hq with rfl | hq
        · omega
        · have := h2 q hq; omega
      rw [if_neg this]
      exact ⟨_, rfl⟩

/-- **C65**: the heat of a button is its count divided by that of the most used button. -/
theorem C65_heat (d : Dict String Nat) (wf : d.WF) (h : Dict String Rat) (hok : keyHeat d = .ok h) :
    ∃ q ∈ d, 0 < q.2 ∧ (∀ p ∈ d, p.2 ≤ q.2) ∧ h = d.map fun p => (p.1, (p.2 : Rat) / q.2) := by
  have hpos := (C65_works d).1 ⟨h, hok⟩
  unfold keyHeat at hok
  cases d with
  | nil => simp at hpos
  | cons p rest =>
    obtain ⟨h1, h2, h3⟩ := foldl_max_spec rest p.2
    simp only at hok
    split at hok
    · cases hok
    · next h0 =>
      simp only [Except.ok.injEq] at hok
      obtain ⟨q, hq, he⟩ : ∃ q ∈ p :: rest, q.2 = rest.foldl (fun m q => max m q.2) p.2 := by
        rcases h3 with h3 | ⟨q, hq, h3⟩
        · exact ⟨p, by simp, h3.symm⟩
        · exact ⟨q, by simp [hq], h3⟩
      refine ⟨q, hq, by omega, ?_, ?_⟩
      · intro x hx
        rw [he]
        rcases List.mem_cons.1 hx with rfl | hx
        · exact h1
        · exact h2 x hx
      · rw [← hok, he, Dict.ofPairs_of_wf]
        unfold Dict.WF at wf ⊢
        rw [List.map_map]
        exact wf

/-- **C65**: so it is between zero and one, one for the most used button, and ordered as the counts. -/
theorem C65_range (d : Dict String Nat) (wf : d.WF) (h : Dict String Rat) (hok : keyHeat d = .ok h) :
    (∀ p ∈ h, 0 ≤ p.2 ∧ p.2 ≤ 1) ∧ (∃ p ∈ h, p.2 = 1) ∧
      ∀ n n' a a' x x', d.get? n = some a → d.get? n' = some a' → h.get? n = some x → h.get? n' = some x' →
        (a ≤ a' ↔ x ≤ x') := by
  obtain ⟨q, hq, hpos, hmax, rfl⟩ := C65_heat d wf h hok
  have hq' : (0 : Rat) < q.2 := by exact_mod_cast hpos
  refine ⟨?_, ?_, ?_⟩
  · intro p hp
    obtain ⟨p', hp', rfl⟩ := List.mem_map.1 hp
    refine ⟨by positivity, ?_⟩
    rw [div_le_one hq']
    exact_mod_cast hmax p' hp'
  · exact ⟨_, List.mem_map.2 ⟨q, hq, rfl⟩, div_self hq'.ne'⟩
  · intro n n' a a' x x' h1 h2 h3 h4
    have hget : ∀ n, Dict.get? (d.map fun p => (p.1, (p.2 : Rat) / q.2)) n = (d.get? n).map fun a : Nat => (a : Rat) / (q.2 : Rat) := by
      intro n
      clear wf hok hq hmax h1 h2 h3 h4
      induction d with
      | nil => rfl
      | cons p d ih =>
        rw [List.map_cons, Dict.get?_cons, Dict.get?_cons]
        simp only
        split_ifs
        · rfl
        · exact ih
    rw [hget, h1] at h3
    rw [hget, h2] at h4
    simp only [Option.map_some, Option.some.injEq] at h3 h4
    rw [← h3, ← h4, div_le_div_iff_of_pos_right hq']
    exact_mod_cast Iff.rfl

example : keyHeat [("Bl1", 3), ("Bl2", 0), ("Br1", 12)] = .ok [("Bl1", 1/4), ("Bl2", 0), ("Br1", 1)] := by decide +kernel
example : keyHeat [("Bl1", 0)] = .error .zeroDivision ∧ keyHeat [] = .error .valueError := by decide +kernel

/-! ### C77 -/

/-- **C77**: every button is drawn once, in the order of the keyboard, at its place and in its size, marked if it is
marked, and with a circle of its heat if that is positive. -/
theorem C77_caps (u : UniData) (s : RenderSettings) (L : KeyboardLayout) (hf : HandFinger) (t : InternTable)
    (heat : Dict String Rat) (kb : PhysicalKeyboard) (drawn : List Drawn) (w h : Rat)
    (hok : renderPicture u s L hf t heat kb = .ok (drawn, w, h)) :
    ∃ pos, calcDimensions s kb = .ok (pos, w, h) ∧ List.Forall₂ (fun b d =>
      d.button = b.i ∧ d.width = b.width * s.buttonWidth ∧ pos.get? b.i = some d.pos ∧ d.marked = b.isMarked ∧
      ∃ n, t.nameOf b.i = .ok n ∧ ∀ v, d.highlight = some v ↔ 0 < v ∧ heat.get? n = some v) kb.keys drawn := by
  simp only [renderPicture, bind_ok_iff, Except.ok.injEq, Prod.mk.injEq] at hok
  obtain ⟨⟨pos, w', h'⟩, h1, d, h2, rfl, rfl, rfl⟩ := hok
  refine ⟨pos, h1, ?_⟩
  rw [mapM_ok_iff _ _ _] at h2
  refine h2.imp ?_
  intro b d hd
  simp only [drawButton, bind_ok_iff, Except.ok.injEq] at hd
  obtain ⟨x, _, p, hp, sh, _, n, hn, rfl⟩ := hd
  refine ⟨rfl, rfl, Dict.getItem_eq_ok.1 hp, rfl, n, hn, ?_⟩
  intro v
  simp only
  cases hg : heat.get? n with
  | none => simp
  | some x =>
    simp only [Option.getD_some]
    split
    · next h0 => constructor
                 · rintro ⟨rfl⟩; exact ⟨h0, rfl⟩
                 · rintro ⟨_, h⟩; exact h
    · next h0 => constructor
                 · intro h; cases h
                 · rintro ⟨h, h'⟩
                   simp only [Option.some.injEq] at h'
                   subst h'
                   exact absurd h h0

/-- **C77**: a button that is no modifier has exactly one label for each of the first four layers that has a text for it,
saying what `displayText` makes of it; it has a shadow in the colour of its finger if any layer has a text and otherwise
is shown as unused. -/
theorem C77_labels (u : UniData) (s : RenderSettings) (name : String) (layers : List Layer) (hf : HandFinger)
    (t : InternTable) (heat : Dict String Rat) (kb : PhysicalKeyboard) (drawn : List Drawn) (w h : Rat)
    (hok : renderPicture u s (KeyboardLayout.mk' name layers kb) hf t heat kb = .ok (drawn, w, h)) (d : Drawn) (hd : d ∈ drawn)
    (hm : NoModifier layers d.button) :
    d.modifier = false ∧ (d.labels.map Label.layer).Pairwise (· < ·) ∧
      (∀ l, l ∈ d.labels ↔ ∃ k x, k < 4 ∧ Shown u layers d.button k x ∧ LabelSays l (k + 1) x) ∧
      (d.unused = true ↔ ¬ ∃ k x, Shown u layers d.button k x) ∧
      ∀ f, d.shadow = some f ↔ d.unused = false ∧ hf d.button = .ok f := by
  simp only [renderPicture, bind_ok_iff, Except.ok.injEq, Prod.mk.injEq] at hok
  obtain ⟨⟨pos, w', h'⟩, _, d', h2, rfl, rfl, rfl⟩ := hok
  rw [mapM_ok_iff _ _ _] at h2
  obtain ⟨b, _, hb⟩ := forall₂_right_mem h2 hd
  simp only [drawButton, bind_ok_iff, Except.ok.injEq] at hb
  obtain ⟨⟨isMod, ts⟩, h3, p, _, sh, h4, n, _, rfl⟩ := hb
  simp only at hm ⊢
  unfold buttonLabels at h3
  rw [frozenset_singleton] at h3
  rcases modifierToLayer_spec name layers kb [b.i] with ⟨i, hi, _, _, hmem, _⟩ | ⟨_, hno, _⟩
  · exact absurd hmem (hm _ (List.getElem_mem hi))
  · rw [hno] at h3
    simp only [Bool.false_eq_true, if_false, bind_ok_iff, Except.ok.injEq, Prod.mk.injEq] at h3
    obtain ⟨ts', h3, rfl, rfl⟩ := h3
    have hshown := displayVals h3
    have hlayers : (KeyboardLayout.mk' name layers kb).layers = layers := rfl
    rw [hlayers] at hshown
    have hany : anyText ts' = true ↔ ∃ k x, Shown u layers b.i k x := by
      rw [anyText_iff]
      constructor
      · rintro ⟨k, x, hk, _⟩
        exact ⟨k, x, (hshown k x).1 hk⟩
      · rintro ⟨k, x, hk⟩
        refine ⟨k, x, (hshown k x).2 hk, ?_⟩
        obtain ⟨_, y, _, _, hy⟩ := hk
        obtain ⟨c, cs, hx'⟩ := C56_nonempty u y _ hy
        cases hx'
        simp
    refine ⟨rfl, drawLabel_layers ts', ?_, ?_, ?_⟩
    · intro l
      rw [mem_drawLabel]
      constructor
      · rintro ⟨k, x, hk, hx, rfl⟩
        exact ⟨k, x, hk, (hshown k x).1 hx, labelOf_says _ _⟩
      · rintro ⟨k, x, hk, hx, hl⟩
        exact ⟨k, x, hk, (hshown k x).2 hx, labelSays_inj hl (labelOf_says _ _)⟩
    · rw [← hany]
      simp
    · intro f
      by_cases ha : anyText ts' = true
      · rw [if_pos ha] at h4
        cases hff : hf b.i with
        | error e => rw [hff] at h4; cases h4
        | ok g =>
          rw [hff] at h4
          simp only [Except.map, Except.ok.injEq] at h4
          rw [← h4]
          simp [ha]
      · rw [if_neg ha] at h4
        simp only [Except.ok.injEq] at h4
        rw [← h4]
        simp [ha]

/-- **C77**: a button that leads to a layer has the arrow of that layer as its only label. -/
theorem C77_modifiers (u : UniData) (s : RenderSettings) (name : String) (layers : List Layer) (hf : HandFinger)
    (t : InternTable) (heat : Dict String Rat) (kb : PhysicalKeyboard) (drawn : List Drawn) (w h : Rat)
    (hok : renderPicture u s (KeyboardLayout.mk' name layers kb) hf t heat kb = .ok (drawn, w, h)) (d : Drawn) (hd : d ∈ drawn)
    (i : Nat) (hm : LeadsTo layers d.button i) :
    d.modifier = true ∧ d.unused = false ∧ (∃ f, d.shadow = some f ∧ hf d.button = .ok f) ∧
      ∃ c, (i, c) ∈ arrows ∧ d.labels = [⟨1, [c], false⟩] := by
  simp only [renderPicture, bind_ok_iff, Except.ok.injEq, Prod.mk.injEq] at hok
  obtain ⟨⟨pos, w', h'⟩, _, d', h2, rfl, rfl, rfl⟩ := hok
  rw [mapM_ok_iff _ _ _] at h2
  obtain ⟨b, _, hb⟩ := forall₂_right_mem h2 hd
  simp only [drawButton, bind_ok_iff, Except.ok.injEq] at hb
  obtain ⟨⟨isMod, ts⟩, h3, p, _, sh, h4, n, _, rfl⟩ := hb
  simp only at hm ⊢
  unfold buttonLabels at h3
  rw [frozenset_singleton] at h3
  rcases modifierToLayer_spec name layers kb [b.i] with ⟨j, hj, e1, e2, e3, e4⟩ | ⟨hno, _, _⟩
  · rw [e1, e2] at h3
    simp only [if_true, bind_ok_iff, Except.ok.injEq, Prod.mk.injEq] at h3
    obtain ⟨x, rfl, a, ha, rfl, rfl⟩ := h3
    have : j = i := leadsTo_unique (leadsTo_of hj e3 e4) hm
    subst this
    obtain ⟨c, hc, rfl⟩ := layerToArrow_ok.1 ha
    have hc' : c ≠ '[' := by
      rintro rfl
      simp [arrows] at hc
    refine ⟨rfl, rfl, ?_, c, hc, ?_⟩
    · have : anyText [some [c]] = true := rfl
      rw [if_pos this] at h4
      cases hff : hf b.i with
      | error e => rw [hff] at h4; cases h4
      | ok g =>
        rw [hff] at h4
        simp only [Except.map, Except.ok.injEq] at h4
        exact ⟨g, h4.symm, rfl⟩
    · simp [drawLabel, labelOf, hc']
  · exact absurd hno (leadsTo_not_noModifier hm)

/-- **C77**: a button that leads to the first or to the fifth or a later layer makes it fail. -/
theorem C77_fails (u : UniData) (s : RenderSettings) (name : String) (layers : List Layer) (hf : HandFinger)
    (t : InternTable) (heat : Dict String Rat) (kb : PhysicalKeyboard) (b : Btn) (hb : b ∈ kb.keys) (i : Nat)
    (hm : LeadsTo layers b.i i) (hi : i = 0 ∨ 4 ≤ i) (drawn : List Drawn) (w h : Rat) :
    renderPicture u s (KeyboardLayout.mk' name layers kb) hf t heat kb ≠ .ok (drawn, w, h) := by
  intro hok
  obtain ⟨pos, _, h2⟩ := C77_caps u s _ hf t heat kb drawn w h hok
  obtain ⟨d, hd, hbd⟩ := forall₂_left_mem h2 hb
  obtain ⟨_, _, _, c, hc, _⟩ := C77_modifiers u s name layers hf t heat kb drawn w h hok d hd i (by rw [hbd.1]; exact hm)
  simp only [arrows, List.mem_cons, Prod.mk.injEq, List.not_mem_nil, or_false] at hc
  omega

/-- The letters of `renderRows` have texts, button 3 leads to the second layer, button 4 to the third. -/
def renderLayers : List Layer :=
  [⟨[[]], [(0, .str ['a']), (1, .str ['\u200c'])]⟩, ⟨[[3]], [(0, .str ['A'])]⟩, ⟨[[4]], [(0, .str ['\u064b'])]⟩]

def renderNames : InternTable := ⟨[(0, "a"), (1, "b"), (2, "c"), (3, "d"), (4, "e")], [], 5⟩

def renderDemo (layers : List Layer) : Py (List Drawn × Rat × Rat) :=
  renderPicture demoUni .default (KeyboardLayout.mk' "" layers (PhysicalKeyboard.mk' "" "" renderRows))
    demoHf renderNames [("b", 1/2), ("c", 0)] (PhysicalKeyboard.mk' "" "" renderRows)

def renderLabels (layers : List Layer) : Py (List (List Label)) := (renderDemo layers).map fun r => r.1.map (·.labels)
def renderMods (layers : List Layer) : Py (List (Bool × Bool)) := (renderDemo layers).map fun r => r.1.map fun d => (d.unused, d.modifier)
def renderHeat (layers : List Layer) : Py (List (Option Rat)) := (renderDemo layers).map fun r => r.1.map (·.highlight)

example : renderLabels renderLayers =
      .ok [[⟨1, ['a'], false⟩, ⟨2, ['A'], false⟩, ⟨3, ['\u25cc', '\u064b'], false⟩], [⟨1, "ZWNJ".toList, true⟩], [],
        [⟨1, ['⭡'], false⟩], [⟨1, ['⭧'], false⟩]] ∧
    renderMods renderLayers = .ok [(false, false), (false, false), (true, false), (false, true), (false, true)] ∧
    renderHeat renderLayers = .ok [none, some (1/2), none, none, none] ∧
    NoModifier renderLayers 0 ∧ LeadsTo renderLayers 4 2 := by
  refine ⟨by decide +kernel, by decide +kernel, by decide +kernel, by unfold NoModifier; decide +kernel, ⟨_, rfl, by decide +kernel⟩, ?_⟩
  intro j l hj hl
  have : renderLayers[j]? = none := List.getElem?_eq_none (by simp [renderLayers]; omega)
  rw [this] at hl
  cases hl

example : renderDemo (renderLayers ++ [⟨[], []⟩, ⟨[[4]], []⟩]) = .error .keyError := by decide +kernel

end Lulua.Props
