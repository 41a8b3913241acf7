import Verif.Spec.OptimizeMain
import Verif.Props.OptimizeOptions
import Verif.Props.OptimizePins
import Verif.Props.OptimizeShipped
import Verif.Props.WriteMain

/-!
# C134: `lulua-optimize` as a whole
-/

namespace Lulua.Props
open Lulua Spec

theorem orElse_getD {α : Type} (x : Option α) (f : α → ArgVal) (a : α) : orElse x f (f a) = f (x.getD a) := by
  cases x <;> rfl

theorem argModel_eq (os : List OptimizeOpt) (hos : ∀ o ∈ os, o.Good) :
    argModel (some (orElse (lastOf OptimizeOpt.model? os) .text (.text "mod01".toList))) = .ok (optModel os) := by
  unfold optModel
  cases h : lastOf OptimizeOpt.model? os with
  | none => rfl
  | some t =>
    have hm : t ∈ os.filterMap OptimizeOpt.model? := List.mem_of_getLast? h
    obtain ⟨o, ho, hx⟩ := List.mem_filterMap.1 hm
    cases o with
    | model f t' =>
      simp only [OptimizeOpt.model?, Option.some.injEq] at hx
      subst hx
      have hne : "mod01".toList ≠ "salvo".toList := by decide
      rcases hos _ ho with h1 | h1
      · rw [h1, if_neg (fun hc => hne (Option.some.inj hc))]
        rfl
      · rw [h1, if_pos rfl]
        rfl
    | _ => cases hx

/-- What the function gets. -/
theorem optimize_attrs {w : ArgWorld} (hu : PlainNum w.uni) {os : List OptimizeOpt} (hos : ∀ o ∈ os, o.Good) :
    ∃ ns, optimizeProgram.start w (optWords os) = .ok ns ∧ ∀ n v, (n, v) ∈ optimizeAttrs os → ns.get? n = some v := by
  obtain ⟨ns, h1, h2⟩ := C127_optimize w hu os hos
  exact ⟨ns, h1, fun n v h => (h2 n v).2 h⟩

/-- **C134** (partial: if a layout is given): with options in any order and form the optimizer is run with the keyboard, the layout and
everything else meant by them. -/
theorem C134_program_partial (w : OptimizeWorld) (hu : PlainNum w.args.uni) (d : Disk) (os : List OptimizeOpt) (hos : ∀ o ∈ os, o.Good)
    (l : Text) (hl : lastOf OptimizeOpt.layout? os = some l) (x : InternTable × PhysicalKeyboard × KeyboardLayout)
    (hx : Means w.toLoadWorld d (optKeyboard os) l x) (triads : List (Triad × Rat)) (ds : List (Pos × Pos)) :
    optimizeMain w d (.ok triads) ds (optWords os) = .ok (optimize (optMeant w os triads x) ds) := by
  obtain ⟨ns, h1, h2⟩ := optimize_attrs hu hos
  have a1 : ns.get? "layout" = some (.text l) := by
    refine h2 _ _ ?_
    simp [optimizeAttrs, hl, orElse]
  have a2 : ns.get? "keyboard" = some (.text (optKeyboard os)) := by
    refine h2 _ _ ?_
    rw [optKeyboard, ← orElse_getD _ ArgVal.text]
    simp [optimizeAttrs]
  have a3 : ns.get? "model" = some (orElse (lastOf OptimizeOpt.model? os) .text (.text "mod01".toList)) := by
    refine h2 _ _ ?_
    simp [optimizeAttrs]
  have a4 : ns.get? "triadLimit" = some (.int (((lastOf OptimizeOpt.triadLimit? os).getD 0 : Nat) : Int)) := by
    refine h2 _ _ ?_
    rw [← orElse_getD _ (fun n : Nat => ArgVal.int n)]
    simp [optimizeAttrs]
  have a5 : ns.get? "steps" = some (.int (((lastOf OptimizeOpt.steps? os).getD 10000 : Nat) : Int)) := by
    refine h2 _ _ ?_
    rw [← orElse_getD _ (fun n : Nat => ArgVal.int n)]
    simp [optimizeAttrs]
  have a6 : ns.get? "randomize" = some (.flag (lastOf OptimizeOpt.randomize? os).isSome) := by
    refine h2 _ _ ?_
    unfold optimizeAttrs
    cases lastOf OptimizeOpt.randomize? os <;> simp [orElse]
  have a7 : ns.get? "pin" = some (.pins ((lastOf OptimizeOpt.pin? os).getD [])) := by
    refine h2 _ _ ?_
    rw [← orElse_getD _ ArgVal.pins]
    simp [optimizeAttrs]
  have a8 : ns.get? "mutate" = some (.mutations (os.filterMap OptimizeOpt.mutate?)) := by
    refine h2 _ _ ?_
    simp [optimizeAttrs]
  have b1 := loadNamed_means a2 a1 hx
  have b2 := argModel_eq os hos
  have b3 : optimizeArgs w d (.ok triads) ns = .ok (optMeant w os triads x) := by
    simp only [optimizeArgs, b1, a3, b2, a4, a5, a6, a7, a8, bind, Except.bind, argNat, argPins, argMutations, Int.toNat_natCast,
      Option.some.injEq, ArgVal.flag.injEq, Bool.decide_eq_true, optMeant, shippedEnv]
  simp only [optimizeMain, h1, b3, bind, Except.bind]

/-- **C134** is false as a user expects it: `-l` looks like an option, but without it the program ends with an exception after it has
read the statistics, `TypeError` if the keyboard can be loaded, instead of a message. -/
theorem C134_false (w : OptimizeWorld) (hu : PlainNum w.args.uni) (d : Disk) (os : List OptimizeOpt) (hos : ∀ o ∈ os, o.Good)
    (hl : lastOf OptimizeOpt.layout? os = none) (triads : List (Triad × Rat)) (ds : List (Pos × Pos)) :
    ∃ e, optimizeMain w d (.ok triads) ds (optWords os) = .ok (.error (.raised e)) ∧
      ((∃ kt kd r, Found w.resource d "data/keyboards" (optKeyboard os) kt ∧ w.keyboard kt = .ok kd ∧
        PhysicalKeyboard.deserialize w.table kd = .ok r) → e = .typeError) := by
  obtain ⟨ns, h1, h2⟩ := optimize_attrs hu hos
  have a1 : ns.get? "layout" = some .none := by
    refine h2 _ _ ?_
    simp [optimizeAttrs, hl, orElse]
  have a2 : ns.get? "keyboard" = some (.text (optKeyboard os)) := by
    refine h2 _ _ ?_
    rw [optKeyboard, ← orElse_getD _ ArgVal.text]
    simp [optimizeAttrs]
  have key : ∀ e, loadNamed w.toLoadWorld d ns = .error e →
      optimizeMain w d (.ok triads) ds (optWords os) = .ok (.error (.raised e)) := by
    intro e h6
    simp only [optimizeMain, optimizeArgs, h1, h6, bind, Except.bind]
  cases hk : (keyboardLoader w.toLoadWorld d).getitem "data/keyboards" (String.ofList (optKeyboard os)) false with
  | error e =>
    refine ⟨e, key e (by simp only [loadNamed, byArg, a2, hk, bind, Except.bind]), ?_⟩
    rintro ⟨kt, kd, r, b1, b2, b3⟩
    rw [getitem_found (l := keyboardLoader w.toLoadWorld d) rfl rfl b1 b2 (v := (r.1, r.2.1)) (by simp [keyboardLoader, b3, Except.map])] at hk
    cases hk
  | ok v => exact ⟨.typeError, key _ (by simp only [loadNamed, byArg, a2, a1, hk, bind, Except.bind]), fun _ => rfl⟩

/-- **C134** (statistics first): whatever is given, statistics that cannot be read end the program. -/
theorem C134_unreadable (w : OptimizeWorld) (hu : PlainNum w.args.uni) (d : Disk) (os : List OptimizeOpt) (hos : ∀ o ∈ os, o.Good)
    (e : PyErr) (ds : List (Pos × Pos)) : optimizeMain w d (.error e) ds (optWords os) = .ok (.error (.raised e)) := by
  obtain ⟨ns, h1, _⟩ := optimize_attrs hu hos
  simp only [optimizeMain, optimizeArgs, h1, bind, Except.bind]

/-! ### Shipped layouts -/

/-- **C134** (shipped layouts): whatever the options, the statistics and the random choices, if a layout is printed for a shipped one and
put into a file, the other programs find it under the name of the file, and it types every text like the shipped one. It needs at most
as much effort as the layout the optimizer started with, unless that was randomized. `yaml` is the text printed. -/
theorem C134_printed (w : OptimizeWorld) (hu : PlainNum w.args.uni) (he : ∀ l, (w.enum l).Perm l) (d : Disk) (os : List OptimizeOpt)
    (hos : ∀ o ∈ os, o.Good) (l : Text) (hl : lastOf OptimizeOpt.layout? os = some l) (hk : optKeyboard os = "ibmpc105".toList)
    (ld : LayoutData) (hd : ld ∈ Data.layouts) (hs : Shipped w.toLoadWorld d l ld) (triads : List (Triad × Rat)) (ds : List (Pos × Pos))
    (r : OptResult) (h : optimizeMain w d (.ok triads) ds (optWords os) = .ok (.ok r)) :
    ∃ t kb L L', loadFirst ld = .ok (t, kb, L) ∧
      (∀ (d' : Disk) (f yaml : Text), d' f = some yaml → d' "ibmpc105".toList = none → w.layout yaml = .ok r.layout →
        Means w.toLoadWorld d' "ibmpc105".toList f (t, kb, L')) ∧
      (∀ text, (typeText (getHandFinger Data.fingermap t) L' none text).1.map eventKind =
        (typeText (getHandFinger Data.fingermap t) L none text).1.map eventKind) ∧
      ∃ v, EffortOf (shippedEnv (optModel os) t kb) L.layers r.buttonMap
          (limitTriads ((lastOf OptimizeOpt.triadLimit? os).getD 0) triads) v ∧ v ≤ r.energy ∧
        (lastOf OptimizeOpt.randomize? os = none → os.filterMap OptimizeOpt.mutate? = [] → ∀ e,
          EffortOf (shippedEnv (optModel os) t kb) L.layers (identityMap L kb)
            (limitTriads ((lastOf OptimizeOpt.triadLimit? os).getD 0) triads) e → v ≤ e) := by
  obtain ⟨x, hx⟩ := loadFirst_shipped hd
  have hm := shipped_means hs hx
  rw [← hk] at hm
  rw [C134_program_partial w hu d os hos l hl x hm triads ds] at h
  have h := Except.ok.inj h
  have hx' := hx
  simp only [loadFirst, bind_ok_iff, Except.ok.injEq] at hx
  obtain ⟨⟨t, kb, kd⟩, h1, L, h2, rfl⟩ := hx
  obtain ⟨L', h3, h4⟩ := C96_shipped [] t kb kd h1 ld hd L h2 _ rfl rfl rfl he ds r h
  refine ⟨t, kb, L, L', hx', ?_, h4, ?_⟩
  · intro d' f yaml f1 f2 f3
    obtain ⟨kt, k1, k2⟩ := hs.keyboard
    refine ⟨kt, yaml, _, _, kd, .inr ⟨f2, .inl ?_⟩, k2, by rw [hs.table]; exact h1, .inl f1, f3, h3⟩
    have hn : (pathJoin "data/keyboards" (String.ofList "ibmpc105".toList ++ ".yaml")).toList = "data/keyboards/ibmpc105.yaml".toList := by
      decide +kernel
    rw [hn]
    exact k1
  · have h5 := shipped_loaded h1
    have hg := shipped_good ld hd
    obtain ⟨ls, h6, h7⟩ := load_layout h5 hg
    rw [h2] at h6
    have h6 := Except.ok.inj h6
    subst h6
    obtain ⟨v, v1, v2, v3⟩ := C42_never_lower_partial _ ld.name ls rfl (h7.unambiguous hg (fun n hn => h5.called hn)) he ds r h
    refine ⟨v, v1, v2, fun hr hm e he => ?_⟩
    refine v3 ?_ _ e ?_ he
    · simp only [optMeant, hr, Option.isSome_none]
    · simp only [optMeant, hm, List.map_nil, applyMutations]

/-- **C134** (partial: no backspaces, not the empty layout, no mutations): for statistics of a text typed with the layout the program
raises no exception. -/
theorem C134_fine_partial (w : OptimizeWorld) (hu : PlainNum w.args.uni) (he : ∀ l, (w.enum l).Perm l) (d : Disk) (os : List OptimizeOpt)
    (hos : ∀ o ∈ os, o.Good) (l : Text) (hl : lastOf OptimizeOpt.layout? os = some l) (hk : optKeyboard os = "ibmpc105".toList)
    (hmu : os.filterMap OptimizeOpt.mutate? = []) (ld : LayoutData) (hd : ld ∈ Data.layouts) (hnull : ld ≠ Data.nullLayout)
    (hs : Shipped w.toLoadWorld d l ld) (text : Text) (hb : '\x08' ∉ text) :
    ∃ t kb L s, loadFirst ld = .ok (t, kb, L) ∧ triadsOfText t kb L text = .ok s ∧
      ∀ ds : List (Pos × Pos), (∀ y ∈ ds, Movable L.layers kb y.1 ∧ Movable L.layers kb y.2) →
        (∃ r, optimizeMain w d (.ok (s.triads.map fun x => (x.1, (x.2 : Rat)))) ds (optWords os) = .ok (.ok r)) ∨
          optimizeMain w d (.ok (s.triads.map fun x => (x.1, (x.2 : Rat)))) ds (optWords os) = .ok (.error .drawing) := by
  obtain ⟨x, hx⟩ := loadFirst_shipped hd
  have hm := shipped_means hs hx
  rw [← hk] at hm
  have hp : optModel os ∈ Data.models := by
    unfold optModel
    split <;> simp [Data.models]
  have hx' := hx
  simp only [loadFirst, bind_ok_iff, Except.ok.injEq] at hx
  obtain ⟨⟨t, kb, kd⟩, h1, L, h2, rfl⟩ := hx
  obtain ⟨s, h3, h4⟩ := C95_shipped_partial (optModel os) hp [] t kb kd h1 ld hd hnull L h2 text hb
    ((lastOf OptimizeOpt.triadLimit? os).getD 0) ((lastOf OptimizeOpt.steps? os).getD 10000) (lastOf OptimizeOpt.randomize? os).isSome
    (((lastOf OptimizeOpt.pin? os).getD []).map fun p => (p.1, p.2.map String.ofList)) w.fnmatch w.enum he
  refine ⟨t, kb, L, s, hx', h3, fun ds hds => ?_⟩
  rw [C134_program_partial w hu d os hos l hl _ hm]
  have e : optMeant w os (s.triads.map fun x => (x.1, (x.2 : Rat))) (t, kb, L) = shippedArgs (optModel os) t kb L s
      ((lastOf OptimizeOpt.triadLimit? os).getD 0) ((lastOf OptimizeOpt.steps? os).getD 10000) (lastOf OptimizeOpt.randomize? os).isSome
      (((lastOf OptimizeOpt.pin? os).getD []).map fun p => (p.1, p.2.map String.ofList)) w.fnmatch w.enum := by
    simp only [optMeant, shippedArgs, hmu, List.map_nil]
  rw [e]
  rcases h4 ds hds with ⟨r, hr⟩ | hr
  · exact .inl ⟨r, by rw [hr]⟩
  · exact .inr (by rw [hr])

/-- **C134** (pins): with the pins of `gen.sh` and without `--mutate` the number row of the first layer and the fourth layer of a shipped
layout stay as they are, and every text of the first three layers stays on its layer. -/
theorem C134_pins (w : OptimizeWorld) (hu : PlainNum w.args.uni) (he : ∀ l, (w.enum l).Perm l) (hf : Globs w.fnmatch) (d : Disk)
    (os : List OptimizeOpt) (hos : ∀ o ∈ os, o.Good) (l : Text) (hl : lastOf OptimizeOpt.layout? os = some l)
    (hk : optKeyboard os = "ibmpc105".toList) (hmu : os.filterMap OptimizeOpt.mutate? = []) (ps : List (Int × Option Text))
    (hps : parsePin w.args.uni optpins = .ok ps) (hpin : lastOf OptimizeOpt.pin? os = some ps)
    (ld : LayoutData) (hd : ld ∈ Data.layouts) (hs : Shipped w.toLoadWorld d l ld) (triads : List (Triad × Rat)) (ds : List (Pos × Pos))
    (r : OptResult) (h : optimizeMain w d (.ok triads) ds (optWords os) = .ok (.ok r)) :
    (∀ n ∈ boardNames Data.ibmpc105, n.toList.head? = some 'B' → gTextAt r.layout.layout 0 n = gTextAt ld.layout 0 n) ∧
    (∀ n ∈ boardNames Data.ibmpc105, gTextAt r.layout.layout 3 n = gTextAt ld.layout 3 n) ∧
    ∀ l < 3, ∀ v, (∃ n, gTextAt r.layout.layout l n = some v) ↔
      ∃ n ∈ boardNames Data.ibmpc105, gTextAt ld.layout l n = some v := by
  obtain ⟨x, hx⟩ := loadFirst_shipped hd
  have hm := shipped_means hs hx
  rw [← hk] at hm
  rw [C134_program_partial w hu d os hos l hl x hm triads ds] at h
  have h := Except.ok.inj h
  simp only [loadFirst, bind_ok_iff, Except.ok.injEq] at hx
  obtain ⟨⟨t, kb, kd⟩, h1, L, h2, rfl⟩ := hx
  exact C109_shipped [] t kb kd h1 ld hd L h2 _ rfl rfl rfl he (by simp only [optMeant, hmu, List.map_nil]) hf w.args.uni hu ps hps
    (by simp only [optMeant, hpin, Option.getD_some]) ds r h

/-! ### Cases meeting the hypotheses -/

def demoOptWorld : OptimizeWorld where
  toLoadWorld := renderWorld.toLoadWorld
  fnmatch := fun n p => globMatch p.toList n.toList
  enum := id

/-- Two steps for a text, all but the draws from the command line. -/
def demoOptions : List OptimizeOpt := [.steps .long 2, .common (.layout .short "ar-lulua".toList)]

theorem demoOptions_good : ∀ o ∈ demoOptions, o.Good := by
  simp [demoOptions, OptimizeOpt.Good, CommonOpt.Good, PlainWord]

example : ∃ t kb L s r, loadFirst Data.arLulua = .ok (t, kb, L) ∧ triadsOfText t kb L "السلام!".toList = .ok s ∧
    optimizeMain { demoOptWorld with fnmatch := fun _ _ => false } (fun _ => none) (.ok (s.triads.map fun x => (x.1, (x.2 : Rat))))
      [((0, 35), (0, 31)), ((0, 37), (1, 36))] (optWords demoOptions) = .ok (.ok r) := by
  have h := optimizeText_demo.1
  simp only [optimizeText, bind_ok_iff, Except.ok.injEq] at h
  obtain ⟨⟨t, kb, L⟩, h1, s, h2, h3⟩ := h
  have hp := C134_program_partial { demoOptWorld with fnmatch := fun _ _ => false } argWorld_plain (fun _ => none) demoOptions demoOptions_good
    "ar-lulua".toList rfl (t, kb, L) (shipped_means renderWorld_shipped h1) (s.triads.map fun x => (x.1, (x.2 : Rat)))
    [((0, 35), (0, 31)), ((0, 37), (1, 36))]
  have e : optMeant { demoOptWorld with fnmatch := fun _ _ => false } demoOptions (s.triads.map fun x => (x.1, (x.2 : Rat))) (t, kb, L) =
      shippedArgs Data.mod01 t kb L s 0 2 false [] (fun _ _ => false) id := rfl
  rw [e] at hp
  split at h3
  · rename_i r hr
    exact ⟨t, kb, L, s, r, h1, h2, by rw [hp, hr]⟩
  · cases h3

/-- Without a layout. -/
example : ∃ e, optimizeMain demoOptWorld (fun _ => none) (.ok []) [] (optWords [.randomize true]) = .ok (.error (.raised e)) := by
  obtain ⟨e, h, _⟩ := C134_false demoOptWorld argWorld_plain (fun _ => none) [.randomize true] (by simp [OptimizeOpt.Good]) rfl [] []
  exact ⟨e, h⟩

end Lulua.Props
