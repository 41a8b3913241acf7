import Verif.Proofs.EffortPlot
import Verif.Props.Plot
import Verif.Props.Shipped
import Verif.Model.Page

/-!
# C121: the plot of efforts
-/

namespace Lulua.Props
open Lulua Spec

/-- **C121** (partial: false for fewer than three and more than twelve layouts): the plot can be made exactly of three to
twelve curves of different layouts. -/
theorem C121_works_partial (set3 : Nat → Option (List String)) (hp : PaletteOk set3) (data : List Curve) :
    (∃ p, triadEffortPlot set3 data = .ok p) ↔ 3 ≤ data.length ∧ data.length ≤ 12 ∧ (data.map Curve.layout).Nodup := by
  unfold triadEffortPlot
  cases hc : set3 data.length with
  | none =>
    constructor
    · rintro ⟨p, h⟩; cases h
    · rintro ⟨h1, h2, _⟩
      obtain ⟨cs, h3⟩ := (hp.sizes data.length).2 ⟨h1, h2⟩
      rw [hc] at h3; cases h3
  | some colors =>
    have hl := (hp.colors _ _ hc).1
    have h12 := (hp.sizes data.length).1 ⟨_, hc⟩
    have hn : (data.zip colors).map (·.1.layout) = data.map Curve.layout := by
      conv_rhs => rw [← List.map_fst_zip (l₁ := data) (l₂ := colors) (by omega), List.map_map]
      rfl
    have := addLines_ok [] (data.zip colors)
    rw [hn] at this
    constructor
    · rintro ⟨p, h⟩
      simp only [bind_ok_iff] at h
      obtain ⟨r, hr, _⟩ := h
      exact ⟨h12.1, h12.2, (this.1 ⟨r, hr⟩).1⟩
    · rintro ⟨_, _, h⟩
      obtain ⟨r, hr⟩ := this.2 ⟨h, fun x _ => by simp [Dict.keys]⟩
      simp only [hr, bind, Except.bind]
      exact ⟨_, rfl⟩

/-- **C121** is false for other numbers of layouts: with fewer than three or more than twelve there is `KeyError`. Two curves
of a layout are `AssertionError`. -/
theorem C121_false (set3 : Nat → Option (List String)) (hp : PaletteOk set3) (data : List Curve) :
    (data.length < 3 ∨ 12 < data.length → triadEffortPlot set3 data = .error .keyError) ∧
    (3 ≤ data.length → data.length ≤ 12 → ¬ (data.map Curve.layout).Nodup →
      triadEffortPlot set3 data = .error .assertionError) := by
  constructor
  · intro h
    unfold triadEffortPlot
    cases hc : set3 data.length with
    | none => rfl
    | some colors =>
      have := (hp.sizes data.length).1 ⟨_, hc⟩
      omega
  · intro h1 h2 h3
    obtain ⟨colors, hc⟩ := (hp.sizes data.length).2 ⟨h1, h2⟩
    cases h : triadEffortPlot set3 data with
    | ok p => exact absurd ((C121_works_partial set3 hp data).1 ⟨p, h⟩).2.2 h3
    | error e =>
      unfold triadEffortPlot at h
      simp only [hc] at h
      cases hl : addLines [] (data.zip colors) with
      | ok r => simp [hl, bind, Except.bind] at h
      | error e' =>
        simp only [hl, bind, Except.bind, Except.error.injEq] at h
        rw [← h, addLines_error hl]

/-- **C121** (lines): there is one line for each curve, with its points and the name of its layout, and no two lines have the
same color. -/
theorem C121_lines (set3 : Nat → Option (List String)) (hp : PaletteOk set3) (data : List Curve) (p : EffortPlot)
    (h : triadEffortPlot set3 data = .ok p) :
    List.Forall₂ (fun (c : Curve) (l : String × PlotLine) => l.1 = c.layout ∧ l.2.label = c.layout ∧ l.2.x = c.x ∧ l.2.y = c.y)
      data p.lines ∧ (p.lines.map fun l => l.2.color).Nodup ∧ (p.lines.map Prod.fst).Nodup := by
  obtain ⟨colors, hc, hl, rfl⟩ := triadEffortPlot_ok hp h
  have hn := ((C121_works_partial set3 hp data).1 ⟨_, h⟩).2.2
  refine ⟨?_, ?_, ?_⟩
  · simp only
    rw [List.forall₂_map_right_iff]
    clear h hn hc
    induction data generalizing colors with
    | nil => simp
    | cons c data ih =>
      cases colors with
      | nil => simp at hl
      | cons x colors => exact .cons ⟨rfl, rfl, rfl, rfl⟩ (ih colors (by simpa using hl))
  · simp only [List.map_map]
    have : ((fun l : String × PlotLine => l.2.color) ∘ fun x : Curve × String =>
        (x.1.layout, (⟨x.1.x, x.1.y, x.2, x.1.layout⟩ : PlotLine))) = Prod.snd := rfl
    rw [this, List.map_snd_zip (by omega)]
    exact (hp.colors _ _ hc).2
  · simp only [List.map_map]
    have : (Prod.fst ∘ fun x : Curve × String =>
        (x.1.layout, (⟨x.1.x, x.1.y, x.2, x.1.layout⟩ : PlotLine))) = Curve.layout ∘ Prod.fst := rfl
    rw [this, ← List.map_map, List.map_fst_zip (by omega)]
    exact hn

/-- **C121** (buttons): each button does something. The first one, which is active at first, shows all lines, the others some
of the standard and of the usable layouts. -/
theorem C121_buttons (set3 : Nat → Option (List String)) (hp : PaletteOk set3) (data : List Curve) (p : EffortPlot)
    (h : triadEffortPlot set3 data = .ok p) :
    (∀ i, (∃ v, p.click i = some v) ↔ i < p.labels.length) ∧ p.click p.active = some p.initial ∧
    seen p.initial = data.map Curve.layout ∧ p.initial.x = (0, 1) ∧ p.initial.y = (0, 1) ∧
    (∀ v, p.click 1 = some v → seen v = (data.map Curve.layout).filter
      (fun n => n ∈ ["ar-asmo663", "ar-linux", "ar-osx"])) ∧
    ∀ v, p.click 2 = some v → seen v = (data.map Curve.layout).filter
      (fun n => n ∈ ["ar-lulua", "ar-ergoarabic", "ar-malas", "ar-linux", "ar-osx"]) := by
  have hkeys : p.lines.map Prod.fst = data.map Curve.layout := by
    have := (C121_lines set3 hp data p h).1
    clear h
    generalize p.lines = ls at this
    induction this with
    | nil => rfl
    | cons h _ ih => rw [List.map_cons, List.map_cons, h.1, ih]
  have hsome : ∀ (ns : List String) (x y : AxisRange),
      seen ⟨p.lines.map fun l => (l.1, ns.contains l.1), x, y⟩ = (data.map Curve.layout).filter (fun n => n ∈ ns) := by
    intro ns x y
    unfold seen
    rw [← hkeys]
    induction p.lines with
    | nil => rfl
    | cons l ls ih =>
      simp only [List.map_cons, List.filter_cons, List.contains_eq_mem] at ih ⊢
      by_cases hl : l.1 ∈ ns
      · simp only [hl, decide_true, if_true, List.map_cons, ih]
      · simp only [hl, decide_false, Bool.false_eq_true, if_false, ih]
  obtain ⟨colors, hc, hl, he⟩ := triadEffortPlot_ok hp h
  have hv : p.visible = plotVisible p.lines := by rw [he]
  have hr : p.ranges = plotRanges := by rw [he]
  have hla : p.labels = ["All", "Standard", "Usable"] := by rw [he]
  have hac : p.active = 0 := by rw [he]
  have hrange : p.range = ((0, 1), (0, 1)) := by rw [he]
  have hall : (p.lines.map fun l => (l.1, p.lines.keys.contains l.1)) = p.lines.map fun l => (l.1, true) := by
    apply List.map_congr_left
    intro l hl
    have : l.1 ∈ p.lines.keys := List.mem_map_of_mem hl
    simp [this]
  have c0 : p.click 0 = some p.initial := by
    unfold EffortPlot.click EffortPlot.initial
    rw [hv, hr, hrange, ← hall]; rfl
  have c1 : p.click 1 = some ⟨p.lines.map fun l => (l.1, ["ar-asmo663", "ar-linux", "ar-osx"].contains l.1), (0, 1 / 2), (0, 2 / 5)⟩ := by
    unfold EffortPlot.click
    rw [hv, hr]; rfl
  have c2 : p.click 2 = some ⟨p.lines.map fun l => (l.1, ["ar-lulua", "ar-ergoarabic", "ar-malas", "ar-linux", "ar-osx"].contains l.1),
      (0, 1 / 2), (0, 2 / 5)⟩ := by
    unfold EffortPlot.click
    rw [hv, hr]; rfl
  refine ⟨?_, by rw [hac, c0], ?_, ?_, ?_, ?_, ?_⟩
  · intro i
    rw [hla]
    match i with
    | 0 => simp [c0]
    | 1 => simp [c1]
    | 2 => simp [c2]
    | i + 3 =>
      have : p.click (i + 3) = none := by
        unfold EffortPlot.click
        rw [hv]; rfl
      simp [this]
  · unfold EffortPlot.initial
    rw [← hall, hsome]
    rw [show p.lines.keys = data.map Curve.layout from hkeys]
    exact List.filter_eq_self.2 (by simp)
  · unfold EffortPlot.initial; rw [hrange]
  · unfold EffortPlot.initial; rw [hrange]
  · intro v hv; rw [c1] at hv; cases hv; exact hsome _ _ _
  · intro v hv; rw [c2] at hv; cases hv; exact hsome _ _ _

/-- **C121** (points): if no triad has a negative effort and some a positive one, at first all points of a curve are within
the axes, and it ends in the corner. -/
theorem C121_in_view (set3 : Nat → Option (List String)) (hp : PaletteOk set3) (data : List Curve) (p : EffortPlot)
    (h : triadEffortPlot set3 data = .ok p) (L : KeyboardLayout) (env : CarpalxEnv) (ts : Dict Triad Nat) (c : Curve)
    (hc : triadEffortCurve L env ts = .ok c) (hw : 0 < weightOf ts) (hn : ∀ t ∈ ts, 0 ≤ effortOf env t.1)
    (he : 0 < effortSum (effortOf env) ts) :
    c.layout = L.name ∧ ∃ x y, c.x = some x ∧ c.y = some y ∧ x.length = y.length ∧
      (∀ (i : Nat) (a b : Rat), x[i]? = some a → y[i]? = some b → InView p.initial a b) ∧
      x.getLast? = some 1 ∧ y.getLast? = some 1 := by
  simp only [triadEffortCurve, bind_ok_iff, Except.ok.injEq] at hc
  obtain ⟨⟨cx, cy⟩, h1, rfl⟩ := hc
  obtain ⟨x, y, h2, h3, _, _, _, h7, h8, h9, h10⟩ := C61_monotone L env ts _ h1 hw hn he
  simp only [Prod.mk.injEq] at h2
  obtain ⟨rfl, rfl⟩ := h2
  obtain ⟨_, _, _, hx, hy, _⟩ := C121_buttons set3 hp data p h
  refine ⟨rfl, x, y, rfl, rfl, h3, ?_, h9, h10⟩
  intro i a b ha hb
  have ha' := h7 a (List.mem_of_getElem? ha)
  have hb' := h8 b (List.mem_of_getElem? hb)
  unfold InView
  rw [hx, hy]
  exact ⟨ha'.1.le, ha'.2, hb'.1, hb'.2⟩

/-- The shipped layouts have the names `gen.sh` uses. -/
theorem genLayouts_names : genLayouts.length = 12 ∧ genLayouts.Nodup ∧ ∀ n, n ∈ genLayouts ↔
    ∃ d ∈ Data.layouts, d ≠ Data.nullLayout ∧ d.name = n := by
  refine ⟨by decide +kernel, by decide +kernel, ?_⟩
  have h1 : ∀ n ∈ genLayouts, ∃ d ∈ Data.layouts, (d == Data.nullLayout) = false ∧ d.name = n := by decide +kernel
  have h2 : ∀ d ∈ Data.layouts, (d == Data.nullLayout) = false → d.name ∈ genLayouts := by decide +kernel
  intro n
  constructor
  · intro hn
    obtain ⟨d, hd, he, hname⟩ := h1 n hn
    exact ⟨d, hd, by simpa using he, hname⟩
  · rintro ⟨d, hd, he, rfl⟩
    exact h2 d hd (by simpa using he)

/-- **C121** (shipped layouts): from curves of the twelve layouts of `gen.sh` the plot can be made. All of them are seen at
first, and the other buttons show all of the layouts they name. -/
theorem C121_shipped (set3 : Nat → Option (List String)) (hp : PaletteOk set3) (names : List String) (t : InternTable)
    (kb : PhysicalKeyboard) (d' : KeyboardData)
    (hk : PhysicalKeyboard.deserialize (tableAfter names) Data.ibmpc105 = .ok (t, kb, d'))
    (triads : String → Dict Triad Nat) (data : List Curve)
    (hd : List.Forall₂ (fun n c => ∃ d ∈ Data.layouts, d.name = n ∧ ∃ L, (GenericLayout.deserialize d).specialize t kb = .ok L ∧
      triadEffortCurve L (shippedEnv Data.mod01 t kb) (triads n) = .ok c) genLayouts data) :
    ∃ p, triadEffortPlot set3 data = .ok p ∧ seen p.initial = genLayouts ∧
      (∃ v, p.click 1 = some v ∧ (seen v).Perm ["ar-asmo663", "ar-linux", "ar-osx"]) ∧
      ∃ v, p.click 2 = some v ∧ (seen v).Perm ["ar-lulua", "ar-ergoarabic", "ar-malas", "ar-linux", "ar-osx"] := by
  have hnames : data.map Curve.layout = genLayouts := by
    have h2 := shipped_loaded hk
    generalize genLayouts = gs at hd
    induction hd with
    | nil => rfl
    | cons h _ ih =>
      obtain ⟨d, hd, hn, L, hL, hc⟩ := h
      obtain ⟨ls, h3, _⟩ := load_layout h2 (shipped_good d hd)
      rw [hL] at h3
      simp only [Except.ok.injEq] at h3
      subst h3
      simp only [triadEffortCurve, bind_ok_iff, Except.ok.injEq] at hc
      obtain ⟨_, _, rfl⟩ := hc
      rw [List.map_cons, ih]
      exact congrArg (· :: _) hn
  have hlen : data.length = 12 := by
    rw [← List.length_map (f := Curve.layout), hnames]; exact genLayouts_names.1
  obtain ⟨p, h⟩ := (C121_works_partial set3 hp data).2 ⟨by omega, by omega, hnames ▸ genLayouts_names.2.1⟩
  obtain ⟨b1, _, b3, _, _, b6, b7⟩ := C121_buttons set3 hp data p h
  have hlab : p.labels = ["All", "Standard", "Usable"] := by
    obtain ⟨_, _, _, he⟩ := triadEffortPlot_ok hp h; rw [he]
  obtain ⟨v1, hv1⟩ := (b1 1).2 (by rw [hlab]; decide)
  obtain ⟨v2, hv2⟩ := (b1 2).2 (by rw [hlab]; decide)
  refine ⟨p, h, by rw [b3, hnames], ⟨v1, hv1, ?_⟩, v2, hv2, ?_⟩
  · rw [b6 v1 hv1, hnames]; decide +kernel
  · rw [b7 v2 hv2, hnames]; decide +kernel

/-! ### Examples -/

/-- The palettes of bokeh: the first colors of the largest. -/
def demoSet3 (n : Nat) : Option (List String) :=
  if 3 ≤ n ∧ n ≤ 12 then some (["#8dd3c7", "#ffffb3", "#bebada", "#fb8072", "#80b1d3", "#fdb462", "#b3de69", "#fccde5", "#d9d9d9",
    "#bc80bd", "#ccebc5", "#ffed6f"].take n) else none

example : PaletteOk demoSet3 := by
  constructor
  · intro n
    unfold demoSet3
    by_cases h : 3 ≤ n ∧ n ≤ 12 <;> simp [h]
  · intro n cs h
    unfold demoSet3 at h
    split at h
    · rename_i hn
      simp only [Option.some.injEq] at h
      subst h
      refine ⟨?_, (List.take_sublist _ _).nodup (by decide +kernel)⟩
      rw [List.length_take]
      simp only [List.length_cons, List.length_nil]
      omega
    · cases h

/-- A plot of three layouts. -/
example : ∃ p, triadEffortPlot demoSet3 [⟨some [1 / 2, 1], some [1 / 4, 1], "ar-linux"⟩, ⟨some [1 / 3, 1], some [1 / 2, 1], "a"⟩,
    ⟨none, none, "b"⟩] = .ok p ∧ seen p.initial = ["ar-linux", "a", "b"] ∧ (p.click 1).map seen = some ["ar-linux"] := by
  refine ⟨_, rfl, ?_, ?_⟩ <;> decide +kernel

end Lulua.Props
