import Verif.Spec.RenderMain
import Verif.Props.Argparse
import Verif.Props.Output

/-!
# C132: `lulua-render` as a whole
-/

namespace Lulua.Props
open Lulua Spec

theorem getitem_found {ψ α : Type} {l : YamlWorld Text ψ α} {d res : Text → Option Text} (hd : l.openFile = openText d)
    (hr : l.openResource = openText res) {dir : String} {k t : Text} (h : Found res d dir k t) {y : ψ} (hy : l.load t = .ok y) {v : α}
    (hv : l.deserialize y = .ok v) : l.getitem dir (String.ofList k) false = .ok v := by
  have e : (String.ofList k).toList = k := String.toList_ofList
  rcases h with h | ⟨h0, h | ⟨h1, h⟩⟩
  · simp [YamlWorld.getitem, YamlWorld.openers, YamlWorld.tryAll, hd, openText, e, h, bind, Except.bind, hy, hv]
  · simp [YamlWorld.getitem, YamlWorld.openers, YamlWorld.tryAll, hd, hr, openText, e, h0, h, bind, Except.bind, hy, hv]
  · simp [YamlWorld.getitem, YamlWorld.openers, YamlWorld.tryAll, hd, hr, openText, e, h0, h1, h, bind, Except.bind, hy, hv]

theorem getitem_unknown {ψ α : Type} {l : YamlWorld Text ψ α} {d res : Text → Option Text} (hd : l.openFile = openText d)
    (hr : l.openResource = openText res) {dir : String} {k : Text} (h : Unknown res d dir k) :
    l.getitem dir (String.ofList k) false = .error .keyError := by
  have e : (String.ofList k).toList = k := String.toList_ofList
  obtain ⟨h0, h1, h2⟩ := h
  simp [YamlWorld.getitem, YamlWorld.openers, YamlWorld.tryAll, hd, hr, openText, e, h0, h1, h2, bind, Except.bind]

/-- The file of that name decides, if it is text. -/
theorem getitem_local {ψ α : Type} {l : YamlWorld Text ψ α} {d : Text → Option Text} (hd : l.openFile = openText d) {dir : String}
    {k t : Text} (h : d k = some t) {e : PyErr} (he : l.load t = .error e) (h1 : e ≠ .fileNotFound) (h2 : e ≠ .readerError) :
    l.getitem dir (String.ofList k) false = .error e := by
  have e' : (String.ofList k).toList = k := String.toList_ofList
  cases e <;>
    simp_all [YamlWorld.getitem, YamlWorld.openers, YamlWorld.tryAll, openText, bind, Except.bind]

/-- What the function gets. -/
theorem render_attrs {w : ArgWorld} {os : List CommonOpt} (hos : ∀ o ∈ os, o.Good) {c : String × String} (hc : c ∈ formats) {out : Text}
    (hout : PlainWord out) : ∃ ns, renderProgram.start w (renderWords os c.1 out) = .ok ns ∧
      ns.get? "layout" = some (orElse (lastOf CommonOpt.layout? os) .text .none) ∧
      ns.get? "keyboard" = some (.text (keyboardOf os)) ∧ ns.get? "func" = some (.func c.2) ∧ ns.get? "output" = some (.text out) := by
  obtain ⟨ns, h1, h2⟩ := C127_render w os hos c hc out hout
  have hk : orElse (lastOf CommonOpt.keyboard? os) .text (.text "ibmpc105".toList) = .text (keyboardOf os) := by
    unfold orElse keyboardOf
    cases lastOf CommonOpt.keyboard? os <;> rfl
  refine ⟨ns, h1, (h2 _ _).2 ?_, (h2 _ _).2 ?_, (h2 _ _).2 ?_, (h2 _ _).2 ?_⟩
  · simp [commonAttrs]
  · rw [← hk]
    simp [commonAttrs]
  · simp [commonAttrs]
  · simp [commonAttrs]

theorem loadNamed_means {w : LoadWorld} {d : Disk} {ns : Dict String ArgVal} {k l : Text} {x : InternTable × PhysicalKeyboard × KeyboardLayout}
    (hk : ns.get? "keyboard" = some (.text k)) (hl : ns.get? "layout" = some (.text l)) (h : Means w d k l x) : loadNamed w d ns = .ok x := by
  obtain ⟨kt, lt, kd, ld, kd', h1, h2, h3, h4, h5, h6⟩ := h
  have a1 : (keyboardLoader w d).getitem "data/keyboards" (String.ofList k) false = .ok (x.1, x.2.1) :=
    getitem_found (l := keyboardLoader w d) rfl rfl h1 h2 (by simp [keyboardLoader, h3, Except.map])
  have a2 : (layoutLoader w d).getitem "data/layouts" (String.ofList l) false = .ok (GenericLayout.deserialize ld) :=
    getitem_found (l := layoutLoader w d) rfl rfl h4 h5 rfl
  simp only [loadNamed, byArg, hk, hl, a1, a2, bind, Except.bind, h6]

theorem renderFormat_eq {w : RenderWorld} {now l : Text} {ns : Dict String ArgVal} {c : String × String} (hc : c ∈ formats)
    (hf : ns.get? "func" = some (.func c.2)) (hl : ns.get? "layout" = some (.text l)) {x : InternTable × PhysicalKeyboard × KeyboardLayout}
    {r : FileResult} (hr : (c.1, r) ∈ formatFiles w now l x) : renderFormat w now ns x = r := by
  simp only [formats, List.mem_cons, List.not_mem_nil, or_false] at hc
  simp only [formatFiles, List.mem_cons, Prod.mk.injEq, List.not_mem_nil, or_false] at hr
  rcases hc with rfl | rfl | rfl | rfl | rfl | rfl <;> simp_all [renderFormat, argText]

/-- **C132** (partial: if a layout is given): with options in any order and form the program does for each format what it is for, with
the keyboard and the layout meant by the last names given, and changes no other file. -/
theorem C132_program_partial (w : RenderWorld) (now : Text) (d : Disk) (os : List CommonOpt) (hos : ∀ o ∈ os, o.Good)
    (l : Text) (hl : lastOf CommonOpt.layout? os = some l) (c : String × String) (hc : c ∈ formats) (out : Text) (hout : PlainWord out)
    (x : InternTable × PhysicalKeyboard × KeyboardLayout) (hx : Means w.toLoadWorld d (keyboardOf os) l x) (r : FileResult)
    (hr : (c.1, r) ∈ formatFiles w now l x) :
    (∃ d', renderMain w now d (renderWords os c.1 out) = (d', .finished r.result) ∧ (∀ p, p ≠ out → d' p = d p) ∧
      (r.file = none → d' out = d out) ∧ ∀ t, r.file = some t → d' out = some t) := by
  obtain ⟨ns, h1, h2, h3, h4, h5⟩ := render_attrs (w := w.args) hos hc hout
  have h2' : ns.get? "layout" = some (.text l) := by rw [h2, hl]; rfl
  have h6 := loadNamed_means h3 h2' hx
  have h7 := renderFormat_eq (w := w) (now := now) hc h4 h2' hr
  refine ⟨r.after out d, ?_, ?_, ?_, ?_⟩
  · simp [renderMain, h1, h6, afterLoading, h7, argText, h5]
  · intro p hp
    cases hf : r.file <;> simp [FileResult.after, hf, hp]
  · intro h
    simp [FileResult.after, h]
  · intro t h
    simp [FileResult.after, h]

/-- **C132** (unknown names): if the keyboard or the layout cannot be found `KeyError` is raised and nothing changes. -/
theorem C132_unknown (w : RenderWorld) (now : Text) (d : Disk) (os : List CommonOpt) (hos : ∀ o ∈ os, o.Good)
    (l : Text) (hl : lastOf CommonOpt.layout? os = some l) (c : String × String) (hc : c ∈ formats) (out : Text) (hout : PlainWord out)
    (h : Unknown w.resource d "data/keyboards" (keyboardOf os) ∨ (∃ kt kd r, Found w.resource d "data/keyboards" (keyboardOf os) kt ∧
      w.keyboard kt = .ok kd ∧ PhysicalKeyboard.deserialize w.table kd = .ok r) ∧ Unknown w.resource d "data/layouts" l) :
    renderMain w now d (renderWords os c.1 out) = (d, .finished (.error .keyError)) := by
  obtain ⟨ns, h1, h2, h3, h4, h5⟩ := render_attrs (w := w.args) hos hc hout
  have h2' : ns.get? "layout" = some (.text l) := by rw [h2, hl]; rfl
  have h6 : loadNamed w.toLoadWorld d ns = .error .keyError := by
    rcases h with h | ⟨⟨kt, kd, r, a1, a2, a3⟩, h⟩
    · have := getitem_unknown (l := keyboardLoader w.toLoadWorld d) rfl rfl h
      simp only [loadNamed, byArg, h3, this, bind, Except.bind]
    · have b1 : (keyboardLoader w.toLoadWorld d).getitem "data/keyboards" (String.ofList (keyboardOf os)) false = .ok (r.1, r.2.1) :=
        getitem_found (l := keyboardLoader w.toLoadWorld d) rfl rfl a1 a2 (by simp [keyboardLoader, a3, Except.map])
      have b2 := getitem_unknown (l := layoutLoader w.toLoadWorld d) rfl rfl h
      simp only [loadNamed, byArg, h3, h2', b1, b2, bind, Except.bind]
  simp [renderMain, h1, h6, afterLoading, FileResult.after]

/-- **C132** is false as a user expects it: `-l` looks like an option, but without it every format ends with an exception, `TypeError` if
the keyboard can be loaded, instead of a message. Nothing is written. -/
theorem C132_false (w : RenderWorld) (now : Text) (d : Disk) (os : List CommonOpt) (hos : ∀ o ∈ os, o.Good)
    (hl : lastOf CommonOpt.layout? os = none) (c : String × String) (hc : c ∈ formats) (out : Text) (hout : PlainWord out) :
    ∃ e, renderMain w now d (renderWords os c.1 out) = (d, .finished (.error e)) ∧
      ((∃ kt kd r, Found w.resource d "data/keyboards" (keyboardOf os) kt ∧ w.keyboard kt = .ok kd ∧
        PhysicalKeyboard.deserialize w.table kd = .ok r) → e = .typeError) := by
  obtain ⟨ns, h1, h2, h3, h4, h5⟩ := render_attrs (w := w.args) hos hc hout
  have h2' : ns.get? "layout" = some .none := by rw [h2, hl]; rfl
  have key : ∀ e, loadNamed w.toLoadWorld d ns = .error e → renderMain w now d (renderWords os c.1 out) = (d, .finished (.error e)) := by
    intro e h6
    simp [renderMain, h1, h6, afterLoading, FileResult.after]
  cases hk : (keyboardLoader w.toLoadWorld d).getitem "data/keyboards" (String.ofList (keyboardOf os)) false with
  | error e =>
    refine ⟨e, key e (by simp only [loadNamed, byArg, h3, hk, bind, Except.bind]), ?_⟩
    rintro ⟨kt, kd, r, a1, a2, a3⟩
    rw [getitem_found (l := keyboardLoader w.toLoadWorld d) rfl rfl a1 a2 (v := (r.1, r.2.1)) (by simp [keyboardLoader, a3, Except.map])] at hk
    cases hk
  | ok v => exact ⟨.typeError, key _ (by simp only [loadNamed, byArg, h3, h2', hk, bind, Except.bind]), fun _ => rfl⟩

/-! ### A second time -/

theorem found_after {res : Text → Option Text} {d d' : Disk} {out : Text} (h : ∀ p, p ≠ out → d' p = d p) {dir : String} {k t : Text}
    (hk : k ≠ out) (hf : Found res d dir k t) : Found res d' dir k t := by
  unfold Found
  rw [h k hk]
  exact hf

/-- **C132** (partial: if the output is not called like the layout or keyboard): the same command a second time ends like the first one
and leaves the disk as the first one did, if the time is the same. -/
theorem C132_again_partial (w : RenderWorld) (now : Text) (d : Disk) (os : List CommonOpt) (hos : ∀ o ∈ os, o.Good)
    (l : Text) (hl : lastOf CommonOpt.layout? os = some l) (c : String × String) (hc : c ∈ formats) (out : Text) (hout : PlainWord out)
    (x : InternTable × PhysicalKeyboard × KeyboardLayout) (hx : Means w.toLoadWorld d (keyboardOf os) l x) (h1 : out ≠ l) (h2 : out ≠ keyboardOf os) :
    renderMain w now (renderMain w now d (renderWords os c.1 out)).1 (renderWords os c.1 out) =
      renderMain w now d (renderWords os c.1 out) := by
  obtain ⟨r, hr⟩ : ∃ r, (c.1, r) ∈ formatFiles w now l x := by
    simp only [formats, List.mem_cons, List.not_mem_nil, or_false] at hc
    rcases hc with rfl | rfl | rfl | rfl | rfl | rfl <;> simp [formatFiles]
  obtain ⟨d1, a1, a2, a3, a4⟩ := C132_program_partial w now d os hos l hl c hc out hout x hx r hr
  have hx' : Means w.toLoadWorld d1 (keyboardOf os) l x := by
    obtain ⟨kt, lt, kd, ld, kd', b1, b2, b3, b4, b5, b6⟩ := hx
    exact ⟨kt, lt, kd, ld, kd', found_after a2 (Ne.symm h2) b1, b2, b3, found_after a2 (Ne.symm h1) b4, b5, b6⟩
  obtain ⟨d2, b1, b2, b3, b4⟩ := C132_program_partial w now d1 os hos l hl c hc out hout x hx' r hr
  rw [a1]
  simp only
  rw [b1]
  congr 1
  funext p
  by_cases hp : p = out
  · subst hp
    cases hf : r.file with
    | none => rw [b3 hf]
    | some t => rw [b4 t hf, a4 t hf]
  · exact b2 p hp

/-- **C132** is false for an output called like the layout: the second time the output is read instead of the layout. If it is no layout
the command fails, and it fails from now on for all formats and all outputs. -/
theorem C132_again_false (w : RenderWorld) (now : Text) (d : Disk) (os : List CommonOpt) (hos : ∀ o ∈ os, o.Good)
    (l : Text) (hl : lastOf CommonOpt.layout? os = some l) (hout : PlainWord l) (c : String × String) (hc : c ∈ formats)
    (x : InternTable × PhysicalKeyboard × KeyboardLayout) (hx : Means w.toLoadWorld d (keyboardOf os) l x) (hne : keyboardOf os ≠ l) (r : FileResult)
    (hr : (c.1, r) ∈ formatFiles w now l x) (t : Text) (ht : r.file = some t) (e : PyErr) (he : w.layout t = .error e)
    (h1 : e ≠ .fileNotFound) (h2 : e ≠ .readerError) :
    ∃ d', renderMain w now d (renderWords os c.1 l) = (d', .finished r.result) ∧
      ∀ c' ∈ formats, ∀ out, PlainWord out → ∀ now', renderMain w now' d' (renderWords os c'.1 out) = (d', .finished (.error e)) := by
  obtain ⟨d1, a1, a2, a3, a4⟩ := C132_program_partial w now d os hos l hl c hc l hout x hx r hr
  refine ⟨d1, a1, fun c' hc' out ho now' => ?_⟩
  obtain ⟨kt, lt, kd, ld, kd', b1, b2, b3, -⟩ := hx
  obtain ⟨ns, g1, g2, g3, g4, g5⟩ := render_attrs (w := w.args) hos hc' ho
  have g2' : ns.get? "layout" = some (.text l) := by rw [g2, hl]; rfl
  have k1 : (keyboardLoader w.toLoadWorld d1).getitem "data/keyboards" (String.ofList (keyboardOf os)) false = .ok (x.1, x.2.1) :=
    getitem_found (l := keyboardLoader w.toLoadWorld d1) rfl rfl (found_after a2 hne b1) b2 (by simp [keyboardLoader, b3, Except.map])
  have k2 : (layoutLoader w.toLoadWorld d1).getitem "data/layouts" (String.ofList l) false = .error e :=
    getitem_local (l := layoutLoader w.toLoadWorld d1) rfl (a4 t ht) he h1 h2
  have k3 : loadNamed w.toLoadWorld d1 ns = .error e := by simp only [loadNamed, byArg, g3, g2', k1, k2, bind, Except.bind]
  simp [renderMain, g1, k3, afterLoading, FileResult.after]

/-! ### The shipped layouts -/

/-- The program as shipped, started where no file is called `ibmpc105` or like the layout. -/
structure Shipped (w : LoadWorld) (d : Disk) (l : Text) (ld : LayoutData) : Prop where
  keyboard : ∃ t, w.resource "data/keyboards/ibmpc105.yaml".toList = some t ∧ w.keyboard t = .ok Data.ibmpc105
  layout : ∃ t, w.resource (pathJoin "data/layouts" (String.ofList l ++ ".yaml")).toList = some t ∧ w.layout t = .ok ld
  table : w.table = tableAfter []
  free : d "ibmpc105".toList = none ∧ d l = none

theorem shipped_means {w : LoadWorld} {d : Disk} {l : Text} {ld : LayoutData} (h : Shipped w d l ld)
    {x : InternTable × PhysicalKeyboard × KeyboardLayout} (hx : loadFirst ld = .ok x) : Means w d "ibmpc105".toList l x := by
  obtain ⟨kt, k1, k2⟩ := h.keyboard
  obtain ⟨lt, l1, l2⟩ := h.layout
  simp only [loadFirst, bind_ok_iff, Except.ok.injEq] at hx
  obtain ⟨⟨t, kb, kd⟩, h1, L, h2, rfl⟩ := hx
  refine ⟨kt, lt, _, ld, kd, .inr ⟨h.free.1, .inl ?_⟩, k2, by rw [h.table]; exact h1, .inr ⟨h.free.2, .inl l1⟩, l2, h2⟩
  have : (pathJoin "data/keyboards" (String.ofList "ibmpc105".toList ++ ".yaml")).toList = "data/keyboards/ibmpc105.yaml".toList := by
    decide +kernel
  rw [this]
  exact k1

/-- **C132** (shipped layouts): `lulua-render -l … keyman …` writes a file for all shipped layouts which Keyman reads as the layout. -/
theorem C132_shipped_keyman (w : RenderWorld) (now : Text) (hnow : '\n' ∉ now) (ho : ∀ m, (w.order m).Perm m) (d : Disk) (l : Text)
    (ld : LayoutData) (hd : ld ∈ Data.layouts) (hs : Shipped w.toLoadWorld d l ld) (form : OptForm) (hl : PlainWord l) (out : Text) (hout : PlainWord out) :
    ∃ d' t kb L rules text, loadFirst ld = .ok (t, kb, L) ∧ keyman w.order L kb = .ok rules ∧
      renderMain w now d (form.words "-l" "--layout" l ++ ["keyman".toList, out]) = (d', .finished (.ok ())) ∧
      d' out = some text ∧ (∀ p, p ≠ out → d' p = d p) ∧
      keymanReadRules text = (keymanAll rules).map fun r => (r.codes.map String.toList, r.text) := by
  obtain ⟨t, kb, L, h1, ⟨rules, text, h2, h3, h4⟩, _⟩ := C129_shipped_partial (fun | .num n => natText n | _ => []) (fun _ => rfl) now hnow
    w.order ho ld hd
  have hos : ∀ o ∈ [CommonOpt.layout form l], o.Good := by simpa [CommonOpt.Good] using hl
  obtain ⟨d', a1, a2, a3, a4⟩ := C132_program_partial w now d [.layout form l] hos l rfl ("keyman", "renderKeyman") (by simp [formats]) out hout
    (t, kb, L) (shipped_means hs h1) _ (by simp [formatFiles]; rfl)
  rw [h3] at a1 a4
  exact ⟨d', t, kb, L, rules, text, h1, h2, by simpa [renderWords, CommonOpt.words] using a1, a4 text rfl, a2, h4⟩

/-- **C132** (shipped layouts): for xmodmap all of them but `ar-lulua` and `null` fail, and what is left in the file just clears modifiers. -/
theorem C132_shipped_xmodmap (w : RenderWorld) (ht : w.truthy = fun _ => true) (now : Text) (hnow : '\n' ∉ now) (d : Disk) (l : Text)
    (ld : LayoutData) (hd : ld ∈ Data.layouts) (h1 : ld.name ≠ "ar-lulua") (h2 : ld.name ≠ "None") (hs : Shipped w.toLoadWorld d l ld) (form : OptForm)
    (hl : PlainWord l) (out : Text) (hout : PlainWord out) :
    ∃ d' e text, renderMain w now d (form.words "-l" "--layout" l ++ ["xmodmap".toList, out]) = (d', .finished (.error e)) ∧
      d' out = some text ∧ (∀ p, p ≠ out → d' p = d p) ∧ xmodmapCommands text = clears := by
  obtain ⟨x, e, text, a1, a2, a3, a4⟩ := C130_false w.ct now out hnow d ld hd h1 h2
  have hos : ∀ o ∈ [CommonOpt.layout form l], o.Good := by simpa [CommonOpt.Good] using hl
  obtain ⟨d', b1, b2, b3, b4⟩ := C132_program_partial w now d [.layout form l] hos l rfl ("xmodmap", "renderXmodmap") (by simp [formats]) out hout
    x (shipped_means hs a1) _ (by simp [formatFiles]; rfl)
  rw [ht] at b1 b3 b4
  refine ⟨d', e, text, ?_, ?_, b2, a4⟩
  · rw [a2] at b1
    simpa [renderWords, CommonOpt.words] using b1
  · cases hf : (xmodmapFile w.ct now (fun _ => true) x.1 x.2.2 x.2.1).file with
    | none =>
      rw [b3 hf, ← a3]
      simp [FileResult.after, hf]
    | some t =>
      rw [b4 t hf, ← a3]
      simp [FileResult.after, hf]

/-! ### Cases meeting the hypotheses -/

/-- Only one text is a layout. -/
def onlyLayout (t : Text) : Py LayoutData := if t = "l".toList then .ok Data.arLulua else .error .valueError

theorem onlyLayout_l : onlyLayout "l".toList = .ok Data.arLulua := by
  unfold onlyLayout
  exact if_pos rfl

/-- A world with one keyboard and one layout; other texts are no layout. -/
def renderWorld : RenderWorld where
  args := argWorld
  resource := fun p => if p = "data/keyboards/ibmpc105.yaml".toList then some "k".toList
    else if p = "data/layouts/ar-lulua.yaml".toList then some "l".toList else none
  keyboard := fun _ => .ok Data.ibmpc105
  layout := onlyLayout
  table := tableAfter []
  ct := fun _ => []
  fmt := fun _ => []
  nfc := id
  truthy := fun _ => true
  order := id
  printable := fun _ => true
  orderNat := id
  keys := []
  svg := fun _ _ => ⟨none, .ok ()⟩

theorem renderWorld_shipped : Shipped renderWorld.toLoadWorld (fun _ => none) "ar-lulua".toList Data.arLulua where
  keyboard := ⟨"k".toList, by decide +kernel, rfl⟩
  layout := ⟨"l".toList, by decide +kernel, onlyLayout_l⟩
  table := rfl
  free := ⟨rfl, rfl⟩

/-- Keyman, twice into the same file and once into one called like the layout. -/
example : ∃ x, Means renderWorld.toLoadWorld (fun _ => none) (keyboardOf [.layout .glued "ar-lulua".toList]) "ar-lulua".toList x ∧
    (∃ r t, ("keyman", r) ∈ formatFiles renderWorld "2026".toList "ar-lulua".toList x ∧ r.file = some t ∧
      renderWorld.layout t = .error .valueError) ∧
    renderMain renderWorld "2026".toList (renderMain renderWorld "2026".toList (fun _ => none)
        (renderWords [.layout .glued "ar-lulua".toList] "keyman" "a.kmn".toList)).1
        (renderWords [.layout .glued "ar-lulua".toList] "keyman" "a.kmn".toList) =
      renderMain renderWorld "2026".toList (fun _ => none) (renderWords [.layout .glued "ar-lulua".toList] "keyman" "a.kmn".toList) := by
  have hd : Data.arLulua ∈ Data.layouts := by simp [Data.layouts]
  obtain ⟨t, kb, L, h1, ⟨rules, text, h2, h3, h4⟩, _⟩ := C129_shipped_partial (fun | .num n => natText n | _ => []) (fun _ => rfl)
    "2026".toList (by decide) id (fun _ => .refl _) Data.arLulua hd
  have hm := shipped_means renderWorld_shipped h1
  refine ⟨(t, kb, L), hm, ⟨_, text, .tail _ (.head _), congrArg FileResult.file h3, ?_⟩, ?_⟩
  · have : text ≠ "l".toList := by
      rintro rfl
      have h5 := (congrArg FileResult.file h3).symm.trans (congrArg FileResult.file (keymanFile_ok (now := "2026".toList) h2))
      have h6 : ∀ a b c, (linesText (keymanTop a b ++ c)).head? = some 'c' := fun _ _ _ => rfl
      have h7 := congrArg List.head? (Option.some.inj h5)
      rw [h6] at h7
      exact absurd h7 (by decide)
    show onlyLayout text = _
    unfold onlyLayout
    exact if_neg this
  · refine C132_again_partial renderWorld "2026".toList _ [.layout .glued "ar-lulua".toList] (by simp [CommonOpt.Good, PlainWord]) "ar-lulua".toList rfl
      ("keyman", "renderKeyman") (by simp [formats]) "a.kmn".toList (by simp [PlainWord]) _ hm (by decide) (by decide)

example : renderMain renderWorld [] (fun _ => none) (renderWords [.layout .short "x".toList] "ask" "a".toList) =
    (fun _ => none, .finished (.error .keyError)) := by
  obtain ⟨t, kb, L, h1, _⟩ := C129_shipped_partial (fun | .num n => natText n | _ => []) (fun _ => rfl) "2026".toList (by decide) id
    (fun _ => .refl _) Data.arLulua (by simp [Data.layouts])
  obtain ⟨kt, lt, kd, ld, kd', b1, b2, b3, -⟩ := shipped_means renderWorld_shipped h1
  exact C132_unknown renderWorld [] _ [.layout .short "x".toList] (by simp [CommonOpt.Good, PlainWord]) _ rfl ("ask", "renderAsk")
    (by simp [formats]) _ (by simp [PlainWord]) (.inr ⟨⟨kt, kd, _, b1, b2, b3⟩, rfl, by decide +kernel, by decide +kernel⟩)

example : ∃ e, renderMain renderWorld [] (fun _ => none) (renderWords [.keyboard .long "ibmpc105".toList] "ask" "a".toList) =
    (fun _ => none, .finished (.error e)) := by
  obtain ⟨e, h, _⟩ := C132_false renderWorld [] (fun _ => none) [.keyboard .long "ibmpc105".toList] (by simp [CommonOpt.Good, PlainWord]) rfl
    ("ask", "renderAsk") (by simp [formats]) "a".toList (by simp [PlainWord])
  exact ⟨e, h⟩

end Lulua.Props
