import Mathlib.Tactic.Linarith
import Mathlib.Tactic.NormNum
import Verif.Spec.Shapes
import Verif.Props.Render
import Verif.Props.Shipped

/-!
# C113: the shapes in the picture
-/

namespace Lulua.Props
open Lulua Spec

theorem within_trans {a b c : Rect} (h : a.Within b) (h' : b.Within c) : a.Within c := by
  obtain ⟨h1, h2, h3, h4⟩ := h
  obtain ⟨g1, g2, g3, g4⟩ := h'
  exact ⟨le_trans g1 h1, le_trans h2 g2, le_trans g3 h3, le_trans h4 g4⟩

theorem apart_within {e : Rat} {a b A B : Rect} (h : A.Apart e B) (ha : a.Within A) (hb : b.Within B) : a.Apart e b := by
  obtain ⟨h1, h2, h3, h4⟩ := ha
  obtain ⟨g1, g2, g3, g4⟩ := hb
  unfold Rect.Apart at *
  rcases h with h | h | h | h
  · left; linarith
  · right; left; linarith
  · right; right; left; linarith
  · right; right; right; linarith

/-- The shadow of a shape lies as far to the right and down. -/
theorem castsShadow_box (e : Rat) (sh : Shape) : Shape.box (Shape.castsShadow e sh) =
    ⟨(Shape.box sh).x + e, (Shape.box sh).y + e, (Shape.box sh).w, (Shape.box sh).h⟩ := by
  cases sh with
  | rect x y w h r st b => simp only [Shape.box, Shape.castsShadow, Rect.mk.injEq, and_true]; constructor <;> ring
  | line x₁ y₁ x₂ y₂ st b =>
    simp only [Shape.box, Shape.castsShadow, Rect.mk.injEq, min_add_add_right, add_sub_add_right_eq_sub, true_and, and_true]
    ring
  | circle cx cy r o => simp only [Shape.box, Shape.castsShadow, Rect.mk.injEq, and_true]; constructor <;> ring
  | text x y st t b => simp only [Shape.box, Shape.castsShadow]

theorem shadow_within {s : ShapeSettings} {d : Drawn} (h0 : 0 ≤ s.shadowOffset) {sh : Shape} (h : (Shape.box sh).Within (capOf s d)) :
    (Shape.box sh).Within (cellOf s d) ∧ (Shape.box (Shape.castsShadow s.shadowOffset sh)).Within (cellOf s d) := by
  rw [castsShadow_box]
  simp only [Rect.Within, capOf, cellOf] at *
  obtain ⟨h1, h2, h3, h4⟩ := h
  refine ⟨⟨?_, ?_, ?_, ?_⟩, ?_, ?_, ?_, ?_⟩ <;> linarith

/-- The shapes of one label, not shadowed. -/
def labelFront (s : ShapeSettings) (d : Drawn) (l : Label) : List Shape := labelShapes s d.width d.pos false 0 l

theorem labelFront_shadow (s : ShapeSettings) (d : Drawn) (l : Label) :
    labelShapes s d.width d.pos true s.shadowOffset l = (labelFront s d l).map (Shape.castsShadow s.shadowOffset) := by
  unfold labelFront labelShapes
  cases l.control <;> simp only [Bool.false_eq_true, if_false, if_true, List.map_cons, List.map_nil, Shape.castsShadow,
    List.cons.injEq, Shape.text.injEq, Shape.rect.injEq, and_true, true_and, add_zero] <;>
    first | (refine ⟨⟨?_, ?_⟩, ?_, ?_⟩ <;> ring) | (constructor <;> ring)

theorem label_quarter (s : ShapeSettings) (hs : Roomy s) (d : Drawn) (hw : s.base.buttonWidth / 2 + 82 ≤ d.width) (l : Label)
    (hl : 1 ≤ l.layer ∧ l.layer ≤ 4) (sh : Shape) (hsh : sh ∈ labelFront s d l) : (Shape.box sh).Within (quarter s d l.layer) := by
  obtain ⟨h1, h2, h3⟩ := hs
  obtain ⟨n, t, c⟩ := l
  simp only at hl
  have hn : n = 1 ∨ n = 2 ∨ n = 3 ∨ n = 4 := by omega
  unfold labelFront labelShapes at hsh
  cases c <;> simp only [Bool.false_eq_true, if_false, if_true, List.mem_cons, List.not_mem_nil, or_false] at hsh
  · subst hsh
    rcases hn with rfl | rfl | rfl | rfl <;> simp only [Shape.box, Rect.Within, quarter, textParam] <;>
      refine ⟨?_, ?_, ?_, ?_⟩ <;> norm_num <;> linarith
  · rcases hsh with rfl | rfl <;> rcases hn with rfl | rfl | rfl | rfl <;>
      simp only [Shape.box, Rect.Within, quarter, textParam] <;>
      refine ⟨?_, ?_, ?_, ?_⟩ <;> norm_num <;> linarith

/-- **C113**: labels are drawn in the quarter of the cap of their layer, each with its shadow, and all shadows behind all
labels. -/
theorem C113_labels (s : ShapeSettings) (hs : Roomy s) (d : Drawn) (hw : s.base.buttonWidth / 2 + 82 ≤ d.width)
    (hl : ∀ l ∈ d.labels, 1 ≤ l.layer ∧ l.layer ≤ 4) :
    ∃ parts : List (Label × List Shape), parts.map Prod.fst = d.labels ∧
      (buttonShapes s d).label = (parts.flatMap Prod.snd).map (Shape.castsShadow s.shadowOffset) ++ parts.flatMap Prod.snd ∧
      ∀ p ∈ parts, p.2.filterMap Shape.says = [p.1.text] ∧
        ∀ sh ∈ p.2, Shape.isShadow sh = false ∧ Shape.isShadow (Shape.castsShadow s.shadowOffset sh) = true ∧
          (Shape.box sh).Within (quarter s d p.1.layer) := by
  refine ⟨d.labels.map fun l => (l, labelFront s d l), by simp [Function.comp_def], ?_, ?_⟩
  · simp only [buttonShapes, drawLabels, List.flatMap_cons, List.flatMap_nil, List.append_nil, List.flatMap_map, List.map_flatMap]
    congr 1
    exact List.flatMap_congr fun l _ => labelFront_shadow s d l
  · intro p hp
    obtain ⟨l, hlm, rfl⟩ := List.mem_map.1 hp
    refine ⟨?_, fun sh hsh => and_assoc.1 ⟨?_, label_quarter s hs d hw l (hl l hlm) sh hsh⟩⟩
    · unfold labelFront labelShapes
      cases l.control <;> rfl
    · unfold labelFront labelShapes at hsh
      cases hc : l.control <;> simp only [hc, Bool.false_eq_true, if_false, if_true, List.mem_cons, List.not_mem_nil, or_false] at hsh
      · subst hsh; exact ⟨rfl, rfl⟩
      · rcases hsh with rfl | rfl <;> exact ⟨rfl, rfl⟩

/-- **C113**: the quarters of different layers do not overlap and lie in the cap. -/
theorem C113_quarters (s : ShapeSettings) (d : Drawn) (hb : 0 ≤ s.base.buttonWidth) (hw : 0 ≤ d.width) (i j : Nat)
    (hi : 1 ≤ i ∧ i ≤ 4) (hj : 1 ≤ j ∧ j ≤ 4) :
    (quarter s d i).Within (capOf s d) ∧ (i ≠ j → (quarter s d i).Apart 0 (quarter s d j)) := by
  have h : ∀ n, 1 ≤ n ∧ n ≤ 4 → n = 1 ∨ n = 2 ∨ n = 3 ∨ n = 4 := by omega
  constructor
  · rcases h i hi with rfl | rfl | rfl | rfl <;> simp only [Rect.Within, quarter, capOf] <;>
      refine ⟨?_, ?_, ?_, ?_⟩ <;> norm_num <;> linarith
  · intro hne
    rcases h i hi with rfl | rfl | rfl | rfl <;> rcases h j hj with rfl | rfl | rfl | rfl <;>
      first | exact absurd rfl hne | skip
    all_goals simp only [Rect.Apart, quarter]
    all_goals norm_num

/-- **C113**: what is drawn for a button stays on its cap, shadows on the cap or what is `shadowOffset` right or below of it. -/
theorem C113_cell (s : ShapeSettings) (hs : Roomy s) (d : Drawn) (hw : s.base.buttonWidth / 2 + 82 ≤ d.width)
    (hl : ∀ l ∈ d.labels, 1 ≤ l.layer ∧ l.layer ≤ 4) (sh : Shape) (hsh : sh ∈ Groups.all (buttonShapes s d)) :
    (Shape.box sh).Within (cellOf s d) ∧ (Shape.isShadow sh = false → (Shape.box sh).Within (capOf s d)) := by
  have h1 := hs.shadow
  obtain ⟨h2, h2'⟩ := hs.stroke
  have h3 := hs.high
  have front : ∀ sh : Shape, (Shape.box sh).Within (capOf s d) →
      (Shape.box sh).Within (cellOf s d) ∧ (Shape.isShadow sh = false → (Shape.box sh).Within (capOf s d)) :=
    fun sh h => ⟨(shadow_within h1 h).1, fun _ => h⟩
  have back : ∀ sh : Shape, (Shape.box sh).Within (capOf s d) → Shape.isShadow (Shape.castsShadow s.shadowOffset sh) = true →
      (Shape.box (Shape.castsShadow s.shadowOffset sh)).Within (cellOf s d) ∧
        (Shape.isShadow (Shape.castsShadow s.shadowOffset sh) = false →
          (Shape.box (Shape.castsShadow s.shadowOffset sh)).Within (capOf s d)) :=
    fun sh h h' => ⟨(shadow_within h1 h).2, fun h'' => by rw [h'] at h''; cases h''⟩
  have hcap : (Shape.box (drawCap s d.width d.pos)).Within (capOf s d) := by
    simp only [drawCap, Shape.box, Rect.Within, capOf]
    refine ⟨?_, ?_, ?_, ?_⟩ <;> linarith
  have hmark : (Shape.box (.line (d.pos.1 + d.width * (3 / 10)) (d.pos.2 + s.base.buttonWidth * (9 / 10))
      (d.pos.1 + d.width * (7 / 10)) (d.pos.2 + s.base.buttonWidth * (9 / 10)) s.markerStroke false)).Within (capOf s d) := by
    simp only [Shape.box, Rect.Within, capOf, min_self, sub_self, abs_zero]
    rw [min_eq_left (by linarith), abs_of_nonneg (by linarith)]
    refine ⟨?_, ?_, ?_, ?_⟩ <;> linarith
  simp only [Groups.all, List.mem_append] at hsh
  rcases hsh with ((hsh | hsh) | hsh) | hsh
  · simp only [buttonShapes] at hsh
    cases hd : d.shadow with
    | none => simp [hd] at hsh
    | some f =>
      simp only [hd, List.mem_singleton] at hsh
      subst hsh
      exact back (drawCap s d.width d.pos) hcap rfl
  · simp only [buttonShapes, List.mem_cons] at hsh
    rcases hsh with rfl | hsh
    · exact front _ hcap
    · split at hsh
      · simp only [drawMarker, List.mem_cons, List.not_mem_nil, or_false] at hsh
        rcases hsh with rfl | rfl
        · exact back _ hmark rfl
        · exact front _ hmark
      · simp at hsh
  · simp only [buttonShapes] at hsh
    cases hd : d.highlight with
    | none => simp [hd] at hsh
    | some v =>
      simp only [hd, List.mem_singleton] at hsh
      subst hsh
      refine front _ ?_
      simp only [drawHighlight, Shape.box, Rect.Within, capOf]
      have e1 := min_le_left d.width s.base.buttonWidth
      have e2 := min_le_right d.width s.base.buttonWidth
      have e3 : 0 ≤ min d.width s.base.buttonWidth := le_min (by linarith) (by linarith)
      refine ⟨?_, ?_, ?_, ?_⟩ <;> linarith
  · obtain ⟨parts, hp, he, hq⟩ := C113_labels s hs d hw hl
    have hin : ∀ sh ∈ parts.flatMap Prod.snd, Shape.isShadow (Shape.castsShadow s.shadowOffset sh) = true ∧
        (Shape.box sh).Within (capOf s d) := by
      intro sh hsh
      obtain ⟨p, hpm, hsh⟩ := List.mem_flatMap.1 hsh
      obtain ⟨_, q1, q2⟩ := (hq p hpm).2 sh hsh
      have hpl : p.1 ∈ d.labels := by rw [← hp]; exact List.mem_map_of_mem hpm
      exact ⟨q1, within_trans q2 (C113_quarters s d (by linarith) (by linarith) _ _ (hl _ hpl) (hl _ hpl)).1⟩
    rw [he, List.mem_append, List.mem_map] at hsh
    rcases hsh with ⟨x, hx, rfl⟩ | hsh
    · exact back x (hin x hx).2 (hin x hx).1
    · exact front sh (hin sh hsh).2

/-- **C113**: a button that is used has the shadow of its cap behind it; there is one cap, then, if the button is marked, the
shadow of the marker and the marker. Caps have the place and size of the button; markers and circles are centred. -/
theorem C113_caps (s : ShapeSettings) (d : Drawn) :
    ∃ c, Shape.box c = capOf s d ∧
      ((buttonShapes s d).capShadow = if d.shadow.isSome then [Shape.castsShadow s.shadowOffset c] else []) ∧
      (∃ m, (Shape.box m).x + (Shape.box m).w / 2 = d.pos.1 + d.width / 2 ∧
        (buttonShapes s d).cap = c :: if d.marked then [Shape.castsShadow s.shadowOffset m, m] else []) ∧
      ∀ sh, sh ∈ (buttonShapes s d).highlight ↔ ∃ v, d.highlight = some v ∧
        sh = .circle (d.pos.1 + d.width / 2) (d.pos.2 + s.base.buttonWidth / 2) (min d.width s.base.buttonWidth * (9 / 20)) v := by
  refine ⟨drawCap s d.width d.pos, ?_, ?_, ⟨.line (d.pos.1 + d.width * (3 / 10)) (d.pos.2 + s.base.buttonWidth * (9 / 10))
      (d.pos.1 + d.width * (7 / 10)) (d.pos.2 + s.base.buttonWidth * (9 / 10)) s.markerStroke false, ?_, rfl⟩, ?_⟩
  · simp only [drawCap, Shape.box, capOf, Rect.mk.injEq]
    refine ⟨?_, ?_, ?_, ?_⟩ <;> ring
  · simp only [buttonShapes]
    cases d.shadow <;> rfl
  · simp only [Shape.box]
    rcases le_total 0 d.width with h | h
    · rw [min_eq_left (by linarith), abs_of_nonneg (by linarith)]
      ring
    · rw [min_eq_right (by linarith), abs_of_nonpos (by linarith)]
      ring
  · intro sh
    simp only [buttonShapes]
    cases d.highlight with
    | none => simp
    | some v =>
      simp only [List.mem_singleton, drawHighlight, Option.some.injEq, exists_eq_left']
      rw [show min d.width s.base.buttonWidth / 2 * (9 / 10) = min d.width s.base.buttonWidth * (9 / 20) by ring]

/-- **C113**: the picture consists of what is drawn for its buttons: first all shadows of caps, then all caps, then the circles,
then the labels. -/
theorem C113_picture (s : ShapeSettings) (ds : List Drawn) :
    (Groups.all (pictureShapes s ds)).Perm (ds.flatMap fun d => Groups.all (buttonShapes s d)) ∧
      (pictureShapes s ds).cap = ds.flatMap fun d => (buttonShapes s d).cap := by
  refine ⟨?_, rfl⟩
  simp only [Groups.all, pictureShapes]
  induction ds with
  | nil => simp
  | cons d ds ih =>
    simp only [List.flatMap_cons]
    refine List.Perm.trans ?_ (List.Perm.append_left _ ih)
    generalize ds.flatMap (fun d => (buttonShapes s d).capShadow) = A
    generalize ds.flatMap (fun d => (buttonShapes s d).cap) = B
    generalize ds.flatMap (fun d => (buttonShapes s d).highlight) = C
    generalize ds.flatMap (fun d => (buttonShapes s d).label) = D
    rw [List.perm_iff_count]
    intro x
    simp only [List.count_append]
    omega

theorem drawLabel_layer {ts : List (Option Text)} {l : Label} (h : l ∈ drawLabel ts) : 1 ≤ l.layer ∧ l.layer ≤ 4 := by
  simp only [drawLabel, List.mem_filterMap] at h
  obtain ⟨⟨o, n⟩, hx, h⟩ := h
  have hn := (List.of_mem_zip hx).2
  cases o with
  | none => simp at h
  | some t =>
    simp only [Option.map_some, Option.some.injEq] at h
    have : l.layer = n := by
      rw [← h]
      unfold labelOf
      split <;> rfl
    simp only [List.mem_cons, List.not_mem_nil, or_false] at hn
    omega

theorem picture_layers {u : UniData} {s : RenderSettings} {L : KeyboardLayout} {hf : HandFinger} {t : InternTable}
    {heat : Dict String Rat} {kb : PhysicalKeyboard} {drawn : List Drawn} {w h : Rat}
    (hok : renderPicture u s L hf t heat kb = .ok (drawn, w, h)) {d : Drawn} (hd : d ∈ drawn) :
    ∀ l ∈ d.labels, 1 ≤ l.layer ∧ l.layer ≤ 4 := by
  simp only [renderPicture, bind_ok_iff, Except.ok.injEq, Prod.mk.injEq] at hok
  obtain ⟨⟨pos, w', h'⟩, _, d', h2, rfl, rfl, rfl⟩ := hok
  rw [mapM_ok_iff _ _ _] at h2
  obtain ⟨b, _, hb⟩ := forall₂_right_mem h2 hd
  simp only [drawButton, bind_ok_iff, Except.ok.injEq] at hb
  obtain ⟨x, _, p, _, sh, _, n, _, rfl⟩ := hb
  exact fun l hl => drawLabel_layer hl

/-- **C63**: not only buttons but also their margins to the right and below lie in the picture. -/
theorem C63_margins (s : RenderSettings) (name desc : String) (rows : List (Row Btn)) (m : Positions) (w h : Rat)
    (hok : calcDimensions s (PhysicalKeyboard.mk' name desc rows) = .ok (m, w, h))
    (hs : Sized s (PhysicalKeyboard.mk' name desc rows)) (b : Btn) (hb : b ∈ (PhysicalKeyboard.mk' name desc rows).keys)
    (p : Rat × Rat) (hp : m.get? b.i = some p) :
    p.1 + b.width * s.buttonWidth + s.buttonMargin ≤ w ∧ p.2 + s.buttonWidth + s.buttonMargin ≤ h := by
  obtain ⟨hm, hg, hbw, hbs⟩ := hs
  obtain ⟨hh, hw0, hwr, _⟩ := C63_size s name desc rows m w h hok
  have hrow : ∀ r ∈ rows, ∀ b ∈ r.1 ++ r.2, 0 ≤ b.width := fun r hr b hb => hbs b (List.mem_flatMap.2 ⟨r, hr, hb⟩)
  obtain ⟨i, j, r, hr, hj⟩ := keys_at hb
  rw [C63_positions s name desc rows m w h hok i j r b hr hj, Option.some.injEq] at hp
  subst hp
  have hrm := List.mem_of_getElem? hr
  constructor
  · have h1 := rowX_step hm hg hbw (hrow r hrm) hj (k := (r.1 ++ r.2).length) (List.getElem?_eq_some_iff.1 hj).1
    rw [List.take_length] at h1
    have h2 := hwr r hrm
    have h3 : (if r.1.length ≤ (r.1 ++ r.2).length then s.middleGap else 0) = s.middleGap := by simp
    rw [h3] at h1
    linarith
  · have hi : i < rows.length := (List.getElem?_eq_some_iff.1 hr).1
    have hi' : (i : Rat) + 1 ≤ rows.length := by exact_mod_cast hi
    have := mul_le_mul_of_nonneg_right hi' (add_nonneg hbw hm)
    simp only
    rw [hh]
    linarith

/-- **C113**: nothing drawn for a button leaves the picture or comes nearer to what is drawn for another one than the margin
less the offset of the shadows. -/
theorem C113_apart_partial (u : UniData) (s : ShapeSettings) (L : KeyboardLayout) (hf : HandFinger) (t : InternTable)
    (heat : Dict String Rat) (name desc : String) (rows : List (Row Btn)) (drawn : List Drawn) (w h : Rat)
    (hok : renderPicture u s.base L hf t heat (PhysicalKeyboard.mk' name desc rows) = .ok (drawn, w, h)) (hs : Roomy s)
    (hm : s.shadowOffset ≤ s.base.buttonMargin) (hg : 0 ≤ s.base.middleGap)
    (hw : ∀ b ∈ (PhysicalKeyboard.mk' name desc rows).keys, s.base.buttonWidth / 2 + 82 ≤ b.width * s.base.buttonWidth) :
    (∀ d ∈ drawn, ∀ sh ∈ Groups.all (buttonShapes s d), (Shape.box sh).Inside w h) ∧
    ∀ d ∈ drawn, ∀ d' ∈ drawn, d.button ≠ d'.button → ∀ sh ∈ Groups.all (buttonShapes s d),
      ∀ sh' ∈ Groups.all (buttonShapes s d'), (Shape.box sh).Apart (s.base.buttonMargin - s.shadowOffset) (Shape.box sh') := by
  have h0 := hs.shadow
  have h164 := hs.high
  have hsz : Sized s.base (PhysicalKeyboard.mk' name desc rows) := by
    refine ⟨by linarith, hg, by linarith, fun b hb => ?_⟩
    by_contra hneg
    have := mul_nonpos_of_nonpos_of_nonneg (le_of_lt (not_le.1 hneg)) (show 0 ≤ s.base.buttonWidth by linarith)
    have := hw b hb
    linarith
  obtain ⟨pos, hc, hall⟩ := C77_caps u s.base L hf t heat _ drawn w h hok
  obtain ⟨hin, hap⟩ := C63_disjoint s.base name desc rows pos w h hc hsz
  have cell : ∀ d ∈ drawn, ∀ sh ∈ Groups.all (buttonShapes s d), (Shape.box sh).Within (cellOf s d) := by
    intro d hd sh hsh
    obtain ⟨b, hb, h1, h2, _⟩ := forall₂_right_mem hall hd
    exact (C113_cell s hs d (by rw [h2]; exact hw b hb) (picture_layers hok hd) sh hsh).1
  constructor
  · intro d hd sh hsh
    obtain ⟨c1, c2, c3, c4⟩ := cell d hd sh hsh
    obtain ⟨b, hb, h1, h2, h3, _⟩ := forall₂_right_mem hall hd
    obtain ⟨p, hp, hp'⟩ := hin b hb
    rw [hp, Option.some.injEq] at h3
    subst h3
    obtain ⟨m1, m2⟩ := C63_margins s.base name desc rows pos w h hc hsz b hb _ hp
    obtain ⟨i1, _, i3, _⟩ := hp'
    simp only [cellOf, capRect] at c1 c2 c3 c4 i1 i3
    rw [h2] at c2
    refine ⟨?_, ?_, ?_, ?_⟩ <;> linarith
  · intro d hd d' hd' hne sh hsh sh' hsh'
    obtain ⟨b, hb, h1, h2, h3, _⟩ := forall₂_right_mem hall hd
    obtain ⟨b', hb', h1', h2', h3', _⟩ := forall₂_right_mem hall hd'
    refine apart_within (A := cellOf s d) (B := cellOf s d') ?_ (cell d hd sh hsh) (cell d' hd' sh' hsh')
    have := hap b hb b' hb' (by rw [← h1, ← h1']; exact hne) _ _ h3 h3'
    simp only [Rect.Apart, capRect, cellOf] at *
    rw [h2, h2']
    rcases this with e | e | e | e
    · left; linarith
    · right; left; linarith
    · right; right; left; linarith
    · right; right; right; linarith

/-- **C113**: the circles are as opaque as the buttons are hot, and at most fully. -/
theorem C113_heat (u : UniData) (s : ShapeSettings) (L : KeyboardLayout) (hf : HandFinger) (t : InternTable)
    (buttons : Dict String Nat) (wf : buttons.WF) (heat : Dict String Rat) (hh : keyHeat buttons = .ok heat)
    (kb : PhysicalKeyboard) (drawn : List Drawn) (w h : Rat)
    (hok : renderPicture u s.base L hf t heat kb = .ok (drawn, w, h)) (x y r o : Rat)
    (hc : Shape.circle x y r o ∈ Groups.all (pictureShapes s drawn)) : 0 < o ∧ o ≤ 1 := by
  obtain ⟨pos, _, hall⟩ := C77_caps u s.base L hf t heat kb drawn w h hok
  have hc := (C113_picture s drawn).1.mem_iff.1 hc
  obtain ⟨d, hd, hc⟩ := List.mem_flatMap.1 hc
  obtain ⟨b, hb, _, _, _, _, n, hn, hv⟩ := forall₂_right_mem hall hd
  have key : d.highlight = some o := by
    simp only [Groups.all, List.mem_append] at hc
    rcases hc with ((hc | hc) | hc) | hc
    · simp only [buttonShapes] at hc
      cases e : d.shadow <;> simp [e, drawCapShadow] at hc
    · simp only [buttonShapes, List.mem_cons] at hc
      rcases hc with hc | hc
      · simp [drawCap] at hc
      · split at hc <;> simp [drawMarker] at hc
    · simp only [buttonShapes] at hc
      cases e : d.highlight with
      | none => simp [e] at hc
      | some v =>
        simp only [e, List.mem_singleton, drawHighlight, Shape.circle.injEq] at hc
        rw [hc.2.2.2]
    · simp only [buttonShapes, drawLabels, List.mem_flatMap] at hc
      obtain ⟨z, _, l, _, hc⟩ := hc
      unfold labelShapes at hc
      cases e : l.control <;> simp [e] at hc
  obtain ⟨h1, h2⟩ := (hv o).1 key
  exact ⟨h1, ((C65_range buttons wf heat hh).1 _ (Dict.mem_of_get? h2)).2⟩

theorem deserialize_width {t t' : InternTable} {d d' : ButtonData} {b : Btn} (h : Btn.deserialize t d = .ok (t', b, d')) :
    b.width = d.width.getD 1 := by
  simp only [Btn.deserialize, bind_ok_iff, Except.ok.injEq, Prod.mk.injEq] at h
  obtain ⟨k, _, ⟨t1, b1⟩, hc, rfl, rfl, _⟩ := h
  unfold construct at hc
  simp only at hc
  cases hn : d.name with
  | none => simp [hn] at hc
  | some n =>
    simp only [hn] at hc
    cases k <;> cases hsp : d.span <;> simp only [hsp, reduceCtorEq] at hc
    all_goals
      simp only [bind_ok_iff, Except.ok.injEq, Prod.mk.injEq] at hc
      obtain ⟨sc, _, _, rfl⟩ := hc
      rfl

theorem deserializeList_width {ds ds' : List ButtonData} {t t' : InternTable} {bs : List Btn}
    (h : deserializeList t ds = .ok (t', bs, ds')) : ∀ b ∈ bs, ∃ d ∈ ds, b.width = d.width.getD 1 := by
  induction ds generalizing t t' bs ds' with
  | nil =>
    simp only [deserializeList, Except.ok.injEq, Prod.mk.injEq] at h
    obtain ⟨_, rfl, _⟩ := h
    simp
  | cons d ds ih =>
    simp only [deserializeList, bind_ok_iff, Except.ok.injEq, Prod.mk.injEq] at h
    obtain ⟨⟨t1, b1, d1⟩, h1, ⟨t2, bs2, ds2⟩, h2, _, rfl, _⟩ := h
    intro b hb
    rcases List.mem_cons.1 hb with rfl | hb
    · exact ⟨d, by simp, deserialize_width h1⟩
    · obtain ⟨e, he, hw⟩ := ih h2 b hb
      exact ⟨e, List.mem_cons_of_mem _ he, hw⟩

theorem deserializeRows_width {ds ds' : List (Row ButtonData)} {t t' : InternTable} {bs : List (Row Btn)}
    (h : deserializeRows t ds = .ok (t', bs, ds')) :
    ∀ b ∈ bs.flatMap fun r => r.1 ++ r.2, ∃ d ∈ ds.flatMap fun r => r.1 ++ r.2, b.width = d.width.getD 1 := by
  induction ds generalizing t t' bs ds' with
  | nil =>
    simp only [deserializeRows, Except.ok.injEq, Prod.mk.injEq] at h
    obtain ⟨_, rfl, _⟩ := h
    simp
  | cons d ds ih =>
    obtain ⟨l, r⟩ := d
    simp only [deserializeRows, bind_ok_iff, Except.ok.injEq, Prod.mk.injEq] at h
    obtain ⟨⟨t1, b1, d1⟩, h1, ⟨t2, b2, d2⟩, h2, ⟨t3, b3, d3⟩, h3, _, rfl, _⟩ := h
    intro b hb
    simp only [List.flatMap_cons, List.mem_append] at hb ⊢
    rcases hb with (hb | hb) | hb
    · obtain ⟨e, he, hw⟩ := deserializeList_width h1 b hb
      exact ⟨e, .inl (.inl he), hw⟩
    · obtain ⟨e, he, hw⟩ := deserializeList_width h2 b hb
      exact ⟨e, .inl (.inr he), hw⟩
    · obtain ⟨e, he, hw⟩ := ih h3 b hb
      exact ⟨e, .inr he, hw⟩

/-- **C113** (shipped keyboard): in any picture of the shipped keyboard, with the settings of the program, what is drawn for
different buttons is at least 15 apart and inside the picture. -/
theorem C113_shipped (names : List String) (t : InternTable) (kb : PhysicalKeyboard) (d' : KeyboardData)
    (hk : PhysicalKeyboard.deserialize (tableAfter names) Data.ibmpc105 = .ok (t, kb, d'))
    (u : UniData) (L : KeyboardLayout) (hf : HandFinger) (heat : Dict String Rat) (drawn : List Drawn) (w h : Rat)
    (hok : renderPicture u .default L hf t heat kb = .ok (drawn, w, h)) :
    (∀ d ∈ drawn, ∀ sh ∈ Groups.all (buttonShapes .default d), (Shape.box sh).Inside w h) ∧
    ∀ d ∈ drawn, ∀ d' ∈ drawn, d.button ≠ d'.button → ∀ sh ∈ Groups.all (buttonShapes .default d),
      ∀ sh' ∈ Groups.all (buttonShapes .default d'), (Shape.box sh).Apart 15 (Shape.box sh') := by
  simp only [PhysicalKeyboard.deserialize, bind_ok_iff, Except.ok.injEq, Prod.mk.injEq] at hk
  obtain ⟨⟨t1, rows, drows⟩, h1, rfl, rfl, _⟩ := hk
  have hwid : ∀ d ∈ Data.ibmpc105.rows.flatMap fun r => r.1 ++ r.2, 1 ≤ d.width.getD 1 := by decide +kernel
  have e : (15 : Rat) = ShapeSettings.default.base.buttonMargin - ShapeSettings.default.shadowOffset := by
    decide +kernel
  rw [e]
  refine C113_apart_partial u .default L hf t1 heat _ _ rows drawn w h hok ⟨?_, ⟨?_, ?_⟩, ?_⟩ ?_ ?_ ?_
  iterate 6 decide +kernel
  intro b hb
  obtain ⟨d, hd, hb⟩ := deserializeRows_width h1 b hb
  have := hwid d hd
  rw [← hb] at this
  show (200 : Rat) / 2 + 82 ≤ b.width * 200
  linarith

/-- Two narrow buttons, the second types a control character. -/
def narrowRows : List (Row Btn) := [([⟨0, .letter, 1/2, false, none, none⟩, ⟨1, .letter, 1/2, false, none, none⟩], [])]

def narrowPicture : Py (List Drawn × Rat × Rat) :=
  renderPicture demoUni .default
    (KeyboardLayout.mk' "" [⟨[[]], [(0, .str ['a']), (1, .str ['\u200c'])]⟩] (PhysicalKeyboard.mk' "" "" narrowRows))
    demoHf renderNames [] (PhysicalKeyboard.mk' "" "" narrowRows)

def Rect.apartB (e : Rat) (a b : Rect) : Bool :=
  decide (a.x + a.w + e ≤ b.x) || decide (b.x + b.w + e ≤ a.x) || decide (a.y + a.h + e ≤ b.y) || decide (b.y + b.h + e ≤ a.y)

theorem apartB_iff {e : Rat} {a b : Rect} : Rect.apartB e a b = true ↔ a.Apart e b := by
  simp [Rect.apartB, Rect.Apart, or_assoc]

/-- **C113**: with narrower buttons it is not so: the box around the name of a control character covers part of the
neighbouring button. -/
theorem C113_false : ∃ drawn w h d d' sh sh', narrowPicture = .ok (drawn, w, h) ∧ d ∈ drawn ∧ d' ∈ drawn ∧ d.button ≠ d'.button ∧
    sh ∈ (buttonShapes .default d).cap ∧ sh' ∈ (buttonShapes .default d').label ∧
    ¬ (Shape.box sh).Apart 0 (Shape.box sh') := by
  have key : (match narrowPicture with
    | .ok (d :: d' :: _, _, _) => decide (d.button ≠ d'.button) && (buttonShapes .default d).cap.any fun sh =>
        (buttonShapes .default d').label.any fun sh' => !Rect.apartB 0 (Shape.box sh) (Shape.box sh')
    | _ => false) = true := by decide +kernel
  split at key
  · next d d' rest w h heq =>
    simp only [Bool.and_eq_true, decide_eq_true_eq, List.any_eq_true, Bool.not_eq_true'] at key
    obtain ⟨hne, sh, hsh, sh', hsh', hap⟩ := key
    refine ⟨_, w, h, d, d', sh, sh', heq, by simp, by simp, hne, hsh, hsh', ?_⟩
    rw [← apartB_iff, hap]
    simp
  · cases key

/-- The shapes of two buttons. -/
example : ((renderDemo renderLayers).map fun r => r.1.map fun d => (Groups.all (buttonShapes .default d)).length) =
    .ok [8, 9, 1, 4, 4] := by decide +kernel

example : Roomy .default := by
  refine ⟨?_, ⟨?_, ?_⟩, ?_⟩ <;> decide +kernel

end Lulua.Props
