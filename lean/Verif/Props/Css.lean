import Verif.Data.Styles
import Verif.Proofs.Css
import Verif.Props.Shapes

/-!
# C126: the picture looks as meant
-/

namespace Lulua
open Spec.Css

/-- The style sheets and what they are meant to look like. -/
def sheets : List (Text × Palette) := [(fileText Data.renderSvgCss, screen), (fileText Data.renderSvgPrintCss, paper)]

/-! ## Everything that can be in a picture -/

def fingersAll : List Finger := [.little, .ring, .middle, .index, .thumb]

theorem mem_fingersAll (f : Finger) : f ∈ fingersAll := by cases f <;> decide

def capShadowPath (h : Direction) (f : Finger) : List SvgNode := svgRoot ++ [svgGroup "cap-shadow", ⟨"rect".toList, extraClass h f⟩]

def capPath (unused : Bool) : List SvgNode := svgRoot ++ [svgGroup "cap", ⟨"rect".toList, if unused then "unused".toList else []⟩]

def markerPath (shadow : Bool) : List SvgNode :=
  svgRoot ++ [svgGroup "cap", svgGroup "marker", ⟨"line".toList, if shadow then "shadow".toList else []⟩]

def highlightPath : List SvgNode := svgRoot ++ [svgGroup "highlight", ⟨"circle".toList, []⟩]

def boxPath (modifier shadow : Bool) : List SvgNode :=
  svgRoot ++ [svgGroup "label", svgGroup (if modifier then "modifier" else "")] ++
    [⟨"rect".toList, withShadow "controllabel" shadow⟩]

def textPath (modifier shadow : Bool) (cls : Text) : List SvgNode :=
  svgRoot ++ [svgGroup "label", svgGroup (if modifier then "modifier" else "")] ++
    [⟨"text".toList, withShadow "label" shadow⟩, ⟨"tspan".toList, cls⟩]

/-- The class of a text. -/
def textClass : Option Nat → Text
  | none => "controlchar".toList
  | some l => layerClass l

/-- Everything looks as meant. -/
def checkSheet (rules : List Rule) (p : Palette) : Bool :=
  ([Direction.left, .right].all fun h => fingersAll.all fun f =>
    let l := look rules (capShadowPath h f)
    decide (l.fill = p.finger f ∧ l.stroke = noPaint ∧ l.opacity = 1)) &&
  ([true, false].all fun b =>
    let l := look rules (capPath b)
    decide (l.fill = p.cap ∧ l.stroke = p.capStroke ∧ l.opacity = if b then 3 / 5 else 1)) &&
  ([true, false].all fun b =>
    let l := look rules (markerPath b)
    decide (l.stroke = (if b then p.markerShadow else p.marker) ∧ l.opacity = 1)) &&
  decide ((look rules highlightPath).fill = p.heat ∧ (look rules highlightPath).stroke = noPaint) &&
  [true, false].all fun m => [true, false].all fun b =>
    let l := look rules (boxPath m b)
    decide (l.fill = noPaint ∧ l.stroke = (if b then p.labelShadow else p.label) ∧ l.opacity = 1) &&
    [none, some 1, some 2, some 3, some 4].all fun st =>
      let l := look rules (textPath m b (textClass st))
      decide (l.fill = (if b then p.labelShadow else p.label) ∧ l.stroke = noPaint ∧ l.opacity = 1 ∧
        l.size = meantSize m st ∧ l.weight = meantWeight st ∧
        (unquote l.family = if st = none then controlFont else labelFont))

theorem check_screen : checkSheet (Spec.Css.read (fileText Data.renderSvgCss)) screen = true := by decide +kernel

theorem check_paper : checkSheet (Spec.Css.read (fileText Data.renderSvgPrintCss)) paper = true := by decide +kernel

theorem check_sheets {x : Text × Palette} (hx : x ∈ sheets) : checkSheet (Spec.Css.read x.1) x.2 = true := by
  simp only [sheets, List.mem_cons, List.not_mem_nil, or_false] at hx
  rcases hx with rfl | rfl
  · exact check_screen
  · exact check_paper

/-- The rules of fonts do not matter. -/
theorem look_style (thin regular : List UInt8) (sheet : Text) (path : List SvgNode)
    (hp : path.all (fun n => n.tag ≠ "@font-face".toList) = true) :
    look (Spec.Css.read (svgStyle thin regular sheet)) path = look (Spec.Css.read sheet) path := by
  obtain ⟨a, b, h, ha, hb⟩ := read_svgStyle thin regular sheet
  have hp' : ∀ n ∈ path, n.tag ≠ "@font-face".toList := fun n hn => of_decide_eq_true (List.all_eq_true.1 hp n hn)
  rw [h, look_font a _ _ ha path hp', look_font b _ _ hb path hp']

theorem svgLabel_mem {s : ShapeSettings} {d : Drawn} {x : SvgLeaf} (hx : x ∈ svgLabel s d) :
    ∃ b, ∃ l ∈ d.labels, (l.control = true ∧ (∃ a c e f r k, x = ⟨boxPath d.modifier b, .rect a c e f r k b⟩)) ∨
      ∃ a c t, x = ⟨textPath d.modifier b (textClass (if l.control then none else some l.layer)),
        .text a c (if l.control then none else some l.layer) t b⟩ := by
  simp only [svgLabel, List.mem_flatMap] at hx
  obtain ⟨z, -, l, hl, hx⟩ := hx
  refine ⟨z.1, l, hl, ?_⟩
  cases hc : l.control with
  | false =>
    simp only [labelPaths, labelShapes, hc, Bool.false_eq_true, if_false, List.zipWith_cons_cons, List.zipWith_nil_left,
      List.mem_singleton] at hx
    exact .inr ⟨_, _, _, hx⟩
  | true =>
    simp only [labelPaths, labelShapes, hc, if_true, List.zipWith_cons_cons, List.zipWith_nil_left, List.mem_cons,
      List.not_mem_nil, or_false] at hx
    rcases hx with hx | hx
    · exact .inl ⟨rfl, _, _, _, _, _, _, hx⟩
    · exact .inr ⟨_, _, _, hx⟩

/-- The elements of all shapes there can be. -/
def allPaths : List (List SvgNode) :=
  ([Direction.left, .right].flatMap fun h => fingersAll.map (capShadowPath h)) ++ [true, false].map capPath ++
  [true, false].map markerPath ++ [highlightPath] ++
  [true, false].flatMap fun m => [true, false].flatMap fun b =>
    boxPath m b :: [none, some 1, some 2, some 3, some 4].map fun st => textPath m b (textClass st)

theorem mem_bools (b : Bool) : b ∈ [true, false] := by cases b <;> simp

theorem svgPicture_paths {s : ShapeSettings} {ds : List Drawn} {x : SvgLeaf} (hx : x ∈ svgPicture s ds) : x.path ∈ allPaths := by
  simp only [svgPicture, List.mem_append, List.mem_flatMap] at hx
  simp only [allPaths, List.mem_append]
  rcases hx with ((⟨d, -, hx⟩ | ⟨d, -, hx⟩) | ⟨d, -, hx⟩) | ⟨d, -, hx⟩
  · unfold svgCapShadow at hx
    split at hx
    · next hand finger _ =>
      rw [List.mem_singleton] at hx
      subst hx
      exact .inl (.inl (.inl (.inl (List.mem_flatMap.2 ⟨hand, by cases hand <;> simp,
        List.mem_map.2 ⟨finger, mem_fingersAll finger, rfl⟩⟩))))
    · cases hx
  · simp only [svgCap, List.mem_cons] at hx
    rcases hx with rfl | hx
    · exact .inl (.inl (.inl (.inr (List.mem_map.2 ⟨d.unused, mem_bools _, rfl⟩))))
    · cases hm : d.marked with
      | false => simp [hm] at hx
      | true =>
        rw [hm, if_pos rfl] at hx
        simp only [svgMarker, drawMarker, List.zipWith_cons_cons, List.zipWith_nil_left, List.mem_cons, List.not_mem_nil,
          or_false] at hx
        rcases hx with rfl | rfl
        · exact .inl (.inl (.inr (List.mem_map.2 ⟨true, mem_bools _, rfl⟩)))
        · exact .inl (.inl (.inr (List.mem_map.2 ⟨false, mem_bools _, rfl⟩)))
  · unfold svgHighlight at hx
    split at hx
    · rw [List.mem_singleton] at hx
      subst hx
      exact .inl (.inr List.mem_cons_self)
    · cases hx
  · obtain ⟨b, l, -, ⟨-, a, c, e, f, r, k, rfl⟩ | ⟨a, c, t, rfl⟩⟩ := svgLabel_mem hx
    · exact .inr (List.mem_flatMap.2 ⟨d.modifier, mem_bools _, List.mem_flatMap.2 ⟨b, mem_bools _, List.mem_cons_self⟩⟩)
    · refine .inr (List.mem_flatMap.2 ⟨d.modifier, mem_bools _, List.mem_flatMap.2 ⟨b, mem_bools _, List.mem_cons_of_mem _
        (List.mem_map.2 ?_)⟩⟩)
      cases l.control with
      | true => exact ⟨none, by simp, rfl⟩
      | false =>
        match l.layer with
        | 0 => exact ⟨some 4, by simp, rfl⟩
        | 1 => exact ⟨some 1, by simp, rfl⟩
        | 2 => exact ⟨some 2, by simp, rfl⟩
        | 3 => exact ⟨some 3, by simp, rfl⟩
        | n + 4 => exact ⟨some 4, by simp, rfl⟩

/-- The classes a style sheet has rules for. -/
def usedClasses (rules : List Rule) : List Text :=
  rules.flatMap fun r => r.selectors.flatMap fun sel => sel.flatMap fun k => k.classes

theorem classes_screen : allPaths.all (fun p => p.all fun n => (words n.cls).all fun c =>
    decide (c ∈ ["hand-left".toList, "hand-right".toList]) != decide (c ∈ usedClasses (Spec.Css.read (fileText Data.renderSvgCss)))) = true := by
  decide +kernel

theorem classes_paper : allPaths.all (fun p => p.all fun n => (words n.cls).all fun c =>
    decide (c ∈ ["hand-left".toList, "hand-right".toList]) != decide (c ∈ usedClasses (Spec.Css.read (fileText Data.renderSvgPrintCss)))) = true := by
  decide +kernel

/-- A button with everything, and a modifier. -/
def everything : List Drawn :=
  (fingersAll.map fun f => ⟨0, 200, (0, 0), some (.left, f), true, true, some 1, false,
    [⟨1, ['a'], false⟩, ⟨2, ['b'], false⟩, ⟨3, ['c'], false⟩, ⟨4, ['d'], true⟩]⟩) ++
  [⟨1, 200, (220, 0), some (.right, .thumb), false, false, none, true, [⟨1, ['a'], false⟩]⟩,
   ⟨2, 200, (220, 0), some (.right, .thumb), false, false, none, false, [⟨4, ['a'], false⟩]⟩]

theorem everything_screen : (Spec.Css.read (fileText Data.renderSvgCss)).all (fun r => r.selectors.all fun sel =>
    (svgPicture .default everything).any fun x => x.path.inits.any fun q => hits sel q) = true := by decide +kernel

theorem everything_paper : (Spec.Css.read (fileText Data.renderSvgPrintCss)).all (fun r => r.selectors.all fun sel =>
    (svgPicture .default everything).any fun x => x.path.inits.any fun q => hits sel q) = true := by decide +kernel

end Lulua

namespace Lulua.Props
open Lulua Spec Spec.Css

/-- **C126**: the elements of the picture are the shapes of C113, in the same order. -/
theorem C126_shapes (s : ShapeSettings) (ds : List Drawn) : (svgPicture s ds).map (·.shape) = Groups.all (pictureShapes s ds) := by
  have h₁ : ∀ d, (svgCapShadow s d).map (·.shape) = (buttonShapes s d).capShadow := fun d => by
    simp only [svgCapShadow, buttonShapes]
    cases d.shadow <;> rfl
  have h₂ : ∀ d, (svgCap s d).map (·.shape) = (buttonShapes s d).cap := fun d => by
    simp only [svgCap, buttonShapes]
    cases d.marked <;> rfl
  have h₃ : ∀ d, (svgHighlight s d).map (·.shape) = (buttonShapes s d).highlight := fun d => by
    simp only [svgHighlight, buttonShapes]
    cases d.highlight <;> rfl
  have h₄ : ∀ d, (svgLabel s d).map (·.shape) = (buttonShapes s d).label := fun d => by
    simp only [svgLabel, buttonShapes, drawLabels, List.map_flatMap]
    refine List.flatMap_congr fun x _ => List.flatMap_congr fun l _ => ?_
    simp only [labelPaths, labelShapes]
    cases l.control <;> rfl
  simp only [svgPicture, pictureShapes, Groups.all, List.map_append, List.map_flatMap, h₁, h₂, h₃, h₄]

/-- **C126**: the style of the picture contains both fonts, unchanged, followed by the rules of the style sheet, whatever is in
the files. -/
theorem C126_fonts (thin regular : List UInt8) (sheet : Text) :
    (Spec.Css.read (svgStyle thin regular sheet)).drop 2 = Spec.Css.read sheet ∧
    ((Spec.Css.read (svgStyle thin regular sheet)).take 2).map Rule.font =
      [some ⟨labelFont, "100".toList, thin.map UInt8.toNat⟩, some ⟨labelFont, "400".toList, regular.map UInt8.toNat⟩] := by
  obtain ⟨a, b, h, ha, hb⟩ := read_svgStyle thin regular sheet
  rw [h]
  refine ⟨rfl, ?_⟩
  rw [show ∀ (a b : Rule) l, (a :: b :: l).take 2 = [a, b] from fun _ _ _ => rfl, List.map_cons, List.map_cons, ha, hb]
  rfl

/-- **C126**: which value an element gets: the one of the strongest selector that hits the element, and of equally strong ones
the last. -/
theorem C126_cascade (rules : List Rule) (path : List SvgNode) (p v : Text) : given rules path p = some v ↔
    ∃ a k b, candidates rules path p = a ++ (k, v) :: b ∧ (∀ x ∈ a, precedes x.1 k) ∧ ∀ x ∈ b, ¬precedes k x.1 := by
  simp only [given, Option.map_eq_some_iff]
  constructor
  · rintro ⟨⟨k, v'⟩, h, rfl⟩
    obtain ⟨a, b, h⟩ := (strongest_iff _ _).1 h
    exact ⟨a, k, b, h⟩
  · rintro ⟨a, k, b, h⟩
    exact ⟨(k, v), (strongest_iff _ _).2 ⟨a, b, h⟩, rfl⟩

/-- **C126**: a selector hits an element if its last part does, and its other parts hit elements around it, in this order. -/
theorem C126_hits (ks : List Compound) (k : Compound) (ns : List SvgNode) (n : SvgNode) :
    hits (ks ++ [k]) (ns ++ [n]) = true ↔
      k.hits n = true ∧ ∃ l, l.Sublist ns ∧ List.Forall₂ (fun k n => Compound.hits k n = true) ks l := by
  simp [hits, ← around_iff]

/-- **C126**: behind a cap is a shape in the colour of the finger that presses the button. -/
theorem C126_fingers (thin regular : List UInt8) (sheet : Text) (p : Palette) (hx : (sheet, p) ∈ sheets) (s : ShapeSettings)
    (d : Drawn) (x : SvgLeaf) (hl : x ∈ svgCapShadow s d) :
    ∃ hand finger, d.shadow = some (hand, finger) ∧
      (leafLook (Spec.Css.read (svgStyle thin regular sheet)) x).fill = p.finger finger ∧
      (leafLook (Spec.Css.read (svgStyle thin regular sheet)) x).opacity = 1 := by
  have hc := check_sheets hx
  simp only [checkSheet, Bool.and_eq_true, List.all_eq_true, decide_eq_true_eq] at hc
  unfold svgCapShadow at hl
  split at hl
  · next hand finger hd =>
    simp only [List.mem_singleton] at hl
    subst hl
    have := hc.1.1.1.1 hand (by cases hand <;> simp) finger (mem_fingersAll finger)
    refine ⟨hand, finger, hd, ?_⟩
    simp only [leafLook, drawCapShadow]
    rw [look_style _ _ _ _ rfl]
    exact ⟨this.1, this.2.2⟩
  · cases hl

/-- **C126**: caps have the colour of caps and are paler if the button types nothing; marks have the colour of marks and a
shadow. -/
theorem C126_caps (thin regular : List UInt8) (sheet : Text) (p : Palette) (hx : (sheet, p) ∈ sheets) (s : ShapeSettings)
    (d : Drawn) (x : SvgLeaf) (hl : x ∈ svgCap s d) :
    let look := leafLook (Spec.Css.read (svgStyle thin regular sheet)) x
    match x.shape with
    | .rect .. => look.fill = p.cap ∧ look.stroke = p.capStroke ∧ look.opacity = if d.unused then 3 / 5 else 1
    | .line _ _ _ _ _ shadow => d.marked = true ∧ look.stroke = (if shadow then p.markerShadow else p.marker) ∧ look.opacity = 1
    | _ => False := by
  have hc := check_sheets hx
  simp only [checkSheet, Bool.and_eq_true, List.all_eq_true, decide_eq_true_eq] at hc
  simp only [svgCap, List.mem_cons] at hl
  rcases hl with rfl | hl
  · have := hc.1.1.1.2 d.unused (by cases d.unused <;> simp)
    simp only [leafLook, drawCap]
    rw [look_style _ _ _ _ rfl]
    exact this
  · cases hm : d.marked with
    | false => simp [hm] at hl
    | true =>
      rw [hm, if_pos rfl] at hl
      simp only [svgMarker, drawMarker, List.zipWith_cons_cons, List.zipWith_nil_left, List.mem_cons, List.not_mem_nil,
        or_false] at hl
      rcases hl with rfl | rfl
      · have := hc.1.1.2 true (by simp)
        simp only [leafLook]
        rw [look_style _ _ _ _ rfl]
        exact ⟨trivial, this⟩
      · have := hc.1.1.2 false (by simp)
        simp only [leafLook]
        rw [look_style _ _ _ _ rfl]
        exact ⟨trivial, this⟩

/-- **C126**: the circles of the heat map have its colour and are as opaque as the button is hot. -/
theorem C126_heat (thin regular : List UInt8) (sheet : Text) (p : Palette) (hx : (sheet, p) ∈ sheets) (s : ShapeSettings)
    (d : Drawn) (x : SvgLeaf) (hl : x ∈ svgHighlight s d) :
    ∃ v, d.highlight = some v ∧ (leafLook (Spec.Css.read (svgStyle thin regular sheet)) x).fill = p.heat ∧
      (leafLook (Spec.Css.read (svgStyle thin regular sheet)) x).opacity = v := by
  have hc := check_sheets hx
  simp only [checkSheet, Bool.and_eq_true, List.all_eq_true, decide_eq_true_eq] at hc
  unfold svgHighlight at hl
  split at hl
  · next v hv =>
    simp only [List.mem_singleton] at hl
    subst hl
    refine ⟨v, hv, ?_, rfl⟩
    simp only [leafLook, drawHighlight]
    rw [look_style _ _ _ _ rfl]
    exact hc.1.2.1
  · cases hl

/-- **C126**: labels have the colour of labels, their shadows that of shadows; names of control characters are boxed. Sizes and
weights depend on the layer and on whether the button is a modifier. Every weight that is used is one of the two the picture
has the font for. -/
theorem C126_labels (thin regular : List UInt8) (sheet : Text) (p : Palette) (hx : (sheet, p) ∈ sheets) (s : ShapeSettings)
    (d : Drawn) (x : SvgLeaf) (hl : x ∈ svgLabel s d) :
    let look := leafLook (Spec.Css.read (svgStyle thin regular sheet)) x
    match x.shape with
    | .rect _ _ _ _ _ _ shadow => look.fill = noPaint ∧ look.stroke = (if shadow then p.labelShadow else p.label) ∧ look.opacity = 1
    | .text _ _ layer _ shadow => look.fill = (if shadow then p.labelShadow else p.label) ∧ look.stroke = noPaint ∧
        look.opacity = 1 ∧ look.size = meantSize d.modifier layer ∧ look.weight = meantWeight layer ∧
        unquote look.family = (if layer = none then controlFont else labelFont) ∧
        (layer ≠ none → ∃ r ∈ Spec.Css.read (svgStyle thin regular sheet), ∃ f, r.font = some f ∧
          f.family = unquote look.family ∧ f.weight = look.weight)
    | _ => False := by
  have hc := check_sheets hx
  simp only [checkSheet, Bool.and_eq_true, List.all_eq_true, decide_eq_true_eq] at hc
  obtain ⟨b, l, -, ⟨-, a, c, e, f, r, k, rfl⟩ | ⟨a, c, t, rfl⟩⟩ := svgLabel_mem hl
  · simp only [leafLook]
    rw [look_style _ _ _ _ rfl]
    exact (hc.2 d.modifier (by cases d.modifier <;> simp) b (by cases b <;> simp)).1
  · simp only [leafLook]
    rw [look_style _ _ _ _ rfl]
    have key := (hc.2 d.modifier (by cases d.modifier <;> simp) b (by cases b <;> simp)).2
    obtain ⟨st, hst, e₁, e₂, e₃⟩ : ∃ st ∈ [none, some 1, some 2, some 3, some 4],
        textClass (if l.control then none else some l.layer) = textClass st ∧
        (∀ m, meantSize m (if l.control then none else some l.layer) = meantSize m st) ∧
        (meantWeight (if l.control then none else some l.layer) = meantWeight st ∧
          ((if l.control then none else some l.layer) = none ↔ st = none)) := by
      cases l.control with
      | true => exact ⟨none, by simp, rfl, fun _ => rfl, rfl, Iff.rfl⟩
      | false =>
        match l.layer with
        | 0 => exact ⟨some 4, by simp, rfl, fun _ => rfl, rfl, by simp⟩
        | 1 => exact ⟨some 1, by simp, rfl, fun _ => rfl, rfl, by simp⟩
        | 2 => exact ⟨some 2, by simp, rfl, fun _ => rfl, rfl, by simp⟩
        | 3 => exact ⟨some 3, by simp, rfl, fun _ => rfl, rfl, by simp⟩
        | n + 4 => exact ⟨some 4, by simp, rfl, fun _ => rfl, rfl, by simp⟩
    have := key st hst
    rw [e₁, e₂, e₃.1]
    simp only [e₃.2]
    refine ⟨this.1, this.2.1, this.2.2.1, this.2.2.2.1, this.2.2.2.2.1, this.2.2.2.2.2, fun hn => ?_⟩
    obtain ⟨x, y, h, hx, hy⟩ := read_svgStyle thin regular sheet
    rw [h, this.2.2.2.2.1, this.2.2.2.2.2, if_neg (fun e => hn (e₃.2.2 e))]
    have hw : meantWeight st = "400".toList ∨ meantWeight st = "100".toList := by
      simp only [List.mem_cons, List.not_mem_nil, or_false] at hst
      rcases hst with rfl | rfl | rfl | rfl | rfl <;> first | exact .inl rfl | exact .inr rfl
    rcases hw with hw | hw
    · exact ⟨y, by simp, _, hy, rfl, hw.symm⟩
    · exact ⟨x, by simp, _, hx, rfl, hw.symm⟩

/-- **C126**: with either style sheet, labels differ from caps and from their shadows, and marks from caps. On screens every
finger has a colour of its own, and labels differ from the colour of heat. -/
theorem C126_legible_partial :
    (∀ x ∈ sheets, x.2.label ≠ x.2.cap ∧ x.2.label ≠ x.2.labelShadow ∧ x.2.marker ≠ x.2.cap ∧ x.2.label ≠ noPaint) ∧
    (∀ f g, screen.finger f = screen.finger g → f = g) ∧ (∀ f, screen.finger f ≠ screen.cap) ∧ screen.label ≠ screen.heat := by
  refine ⟨?_, ?_, ?_, by decide +kernel⟩
  · intro x hx
    simp only [sheets, List.mem_cons, List.not_mem_nil, or_false] at hx
    rcases hx with rfl | rfl <;> decide +kernel
  · have : fingersAll.all (fun f => fingersAll.all fun g => decide (screen.finger f = screen.finger g → f = g)) = true := by
      decide +kernel
    intro f g
    exact of_decide_eq_true (List.all_eq_true.1 (List.all_eq_true.1 this f (mem_fingersAll f)) g (mem_fingersAll g))
  · have : fingersAll.all (fun f => decide (screen.finger f ≠ screen.cap)) = true := by decide +kernel
    exact fun f => of_decide_eq_true (List.all_eq_true.1 this f (mem_fingersAll f))

/-- **C126** (fails): on paper, heat has no colour of its own. Circles are black, as are the labels on top of them. For the most
used button of any heat map the circle is opaque. -/
theorem C126_paper_false (thin regular : List UInt8) (u : UniData) (s : ShapeSettings) (L : KeyboardLayout) (hf : HandFinger)
    (t : InternTable) (buttons : Dict String Nat) (wf : buttons.WF) (heat : Dict String Rat) (hh : keyHeat buttons = .ok heat)
    (kb : PhysicalKeyboard) (hkb : ∀ n, n ∈ buttons.keys → ∃ b ∈ kb.keys, t.nameOf b.i = .ok n)
    (drawn : List Drawn) (w h : Rat) (hok : renderPicture u s.base L hf t heat kb = .ok (drawn, w, h)) :
    let look := leafLook (Spec.Css.read (svgStyle thin regular (fileText Data.renderSvgPrintCss)))
    ∃ d ∈ drawn, ∃ x ∈ svgHighlight s d, (look x).opacity = 1 ∧ (look x).fill = "black".toList ∧
      ∀ y ∈ svgLabel s d, ∀ a c l text, y.shape = .text a c l text false → (look y).fill = "black".toList := by
  have hs : (fileText Data.renderSvgPrintCss, paper) ∈ sheets := by simp [sheets]
  obtain ⟨q, hq, hq1⟩ := (C65_range buttons wf heat hh).2.1
  obtain ⟨m, hm, hpos, hmax, hheat⟩ := C65_heat buttons wf heat hh
  have hwf : heat.WF := by
    rw [hheat]; unfold Dict.WF at wf ⊢; rw [List.map_map]; exact wf
  have hname : q.1 ∈ buttons.keys := by
    rw [hheat] at hq
    obtain ⟨z, hz, rfl⟩ := List.mem_map.1 hq
    exact List.mem_map.2 ⟨z, hz, rfl⟩
  obtain ⟨b, hb, hn⟩ := hkb _ hname
  obtain ⟨pos, _, hall⟩ := C77_caps u s.base L hf t heat kb drawn w h hok
  obtain ⟨d, hd, -, -, -, -, n, hn', hv⟩ := forall₂_left_mem hall hb
  rw [hn] at hn'
  cases hn'
  have hd1 : d.highlight = some 1 := (hv 1).2 ⟨by norm_num, by rw [← hq1]; exact Dict.get?_of_mem hwf hq⟩
  refine ⟨d, hd, ⟨highlightPath, drawHighlight s 1 d.width d.pos⟩, by simp [svgHighlight, hd1, highlightPath], rfl, ?_, ?_⟩
  · obtain ⟨v, -, hf, -⟩ := C126_heat thin regular _ _ hs s d ⟨highlightPath, drawHighlight s 1 d.width d.pos⟩
      (by simp [svgHighlight, hd1, highlightPath])
    exact hf
  · intro y hy a c l text hsh
    have := C126_labels thin regular _ _ hs s d y hy
    simp only [hsh] at this
    exact this.1

/-- **C126**: the style sheets have rules for every class there is in any picture except those of hands, so buttons for the
same finger of either hand look the same. -/
theorem C126_classes (x : Text × Palette) (hx : x ∈ sheets) (s : ShapeSettings) (ds : List Drawn) (l : SvgLeaf)
    (hl : l ∈ svgPicture s ds) (n : SvgNode) (hn : n ∈ l.path) (c : Text) (hc : c ∈ words n.cls) :
    (∃ r ∈ Spec.Css.read x.1, ∃ sel ∈ r.selectors, ∃ k ∈ sel, c ∈ k.classes) ↔ c ≠ "hand-left".toList ∧ c ≠ "hand-right".toList := by
  have key : (decide (c ∈ ["hand-left".toList, "hand-right".toList]) != decide (c ∈ usedClasses (Spec.Css.read x.1))) = true := by
    have hp := svgPicture_paths hl
    simp only [sheets, List.mem_cons, List.not_mem_nil, or_false] at hx
    rcases hx with rfl | rfl
    · exact List.all_eq_true.1 (List.all_eq_true.1 (List.all_eq_true.1 classes_screen _ hp) n hn) c hc
    · exact List.all_eq_true.1 (List.all_eq_true.1 (List.all_eq_true.1 classes_paper _ hp) n hn) c hc
  have hu : c ∈ usedClasses (Spec.Css.read x.1) ↔ ∃ r ∈ Spec.Css.read x.1, ∃ sel ∈ r.selectors, ∃ k ∈ sel, c ∈ k.classes := by
    simp only [usedClasses, List.mem_flatMap]
  rw [← hu]
  have hm : c ∈ ["hand-left".toList, "hand-right".toList] ↔ ¬(c ≠ "hand-left".toList ∧ c ≠ "hand-right".toList) := by
    generalize "hand-left".toList = a
    generalize "hand-right".toList = b
    simp only [List.mem_cons, List.not_mem_nil, or_false]
    tauto
  rw [bne_iff_ne, ne_eq, decide_eq_decide] at key
  tauto

/-- **C126**: there is no rule in the style sheets for which there is no element. -/
theorem C126_selectors (x : Text × Palette) (hx : x ∈ sheets) (r : Rule) (hr : r ∈ Spec.Css.read x.1) (sel : List Compound)
    (hs : sel ∈ r.selectors) : ∃ s ds, ∃ l ∈ svgPicture s ds, ∃ q, q <+: l.path ∧ hits sel q = true := by
  have key : (svgPicture .default everything).any (fun x => x.path.inits.any fun q => hits sel q) = true := by
    simp only [sheets, List.mem_cons, List.not_mem_nil, or_false] at hx
    rcases hx with rfl | rfl
    · exact List.all_eq_true.1 (List.all_eq_true.1 everything_screen r hr) sel hs
    · exact List.all_eq_true.1 (List.all_eq_true.1 everything_paper r hr) sel hs
  obtain ⟨l, hl, h⟩ := List.any_eq_true.1 key
  obtain ⟨q, hq, h⟩ := List.any_eq_true.1 h
  exact ⟨_, _, l, hl, q, (List.mem_inits _ _).1 hq, h⟩

/-- A button of the left ring finger with two labels; how it looks on screens. -/
example : (svgPicture .default [⟨0, 200, (0, 0), some (.left, .ring), false, false, some (1 / 2), false,
      [⟨1, ['a'], false⟩, ⟨4, ['b'], false⟩]⟩]).map (fun x =>
        let l := leafLook (Spec.Css.read (fileText Data.renderSvgCss)) x; (l.fill, l.opacity, l.size)) =
    [("#268bd2".toList, 1, 90), ("#eee8d5".toList, 1, 90), ("#dc322f".toList, 1 / 2, 90), ("#fdf6e3".toList, 1, 90),
      ("#fdf6e3".toList, 1, 72), ("#657b83".toList, 1, 90), ("#657b83".toList, 1, 72)] := by decide +kernel

end Lulua.Props
