import Verif.Spec.AnalyzeMain
import Verif.Props.Figures
import Verif.Props.OptimizeMain

/-!
# C135: `lulua-analyze` as a whole
-/

namespace Lulua.Props
open Lulua Spec

/-- What the function of a command without own options gets. -/
theorem analyze_attrs (w : ArgWorld) {os : List CommonOpt} (hos : ∀ o ∈ os, o.Good) {c : String × String} (hc : c ∈ analyses) :
    ∃ ns, analyzeProgram.start w (analyzeWords os c.1 []) = .ok ns ∧ ns.get? "func" = some (.func c.2) ∧
      ns.get? "layout" = some (orElse (lastOf CommonOpt.layout? os) .text .none) ∧
      ns.get? "keyboard" = some (.text (keyboardOf os)) := by
  obtain ⟨ns, h1, h2⟩ := C127_analyze w os hos c hc
  refine ⟨ns, h1, (h2 _ _).2 ?_, (h2 _ _).2 ?_, (h2 _ _).2 ?_⟩
  · simp [commonAttrs]
  · simp [commonAttrs]
  · rw [keyboardOf, ← orElse_getD _ ArgVal.text]
    simp [commonAttrs]

/-- The same for `triadfreq`. -/
theorem triad_attrs (w : ArgWorld) (hu : PlainNum w.uni) {os : List CommonOpt} (hos : ∀ o ∈ os, o.Good) {ts : List TriadOpt}
    (hts : ∀ o ∈ ts, o.Good w) :
    ∃ ns, analyzeProgram.start w (analyzeWords os "triadfreq" ts) = .ok ns ∧ ns.get? "func" = some (.func "triadfreq") ∧
      ns.get? "layout" = some (orElse (lastOf CommonOpt.layout? os) .text .none) ∧
      ns.get? "cutoff" = some (.num ((lastOf TriadOpt.cutoff? ts).getD (1 / 2))) ∧
      ns.get? "reverse" = some (.flag (lastOf TriadOpt.reverse? ts).isSome) ∧
      ns.get? "sort" = some (orElse (lastOf TriadOpt.sort? ts) .text (.text "weight".toList)) ∧
      ns.get? "limit" = some (.int ((lastOf TriadOpt.limit? ts).getD 0 : Nat)) := by
  obtain ⟨ns, h1, h2⟩ := C127_triadfreq w hu os hos ts hts
  refine ⟨ns, h1, (h2 _ _).2 ?_, (h2 _ _).2 ?_, (h2 _ _).2 ?_, (h2 _ _).2 ?_, (h2 _ _).2 ?_, (h2 _ _).2 ?_⟩
  · simp [commonAttrs]
  · simp [commonAttrs]
  · cases lastOf TriadOpt.cutoff? ts <;> simp [commonAttrs, orElse]
  · cases lastOf TriadOpt.reverse? ts <;> simp [commonAttrs, orElse]
  · simp [commonAttrs]
  · cases lastOf TriadOpt.limit? ts <;> simp [commonAttrs, orElse]

theorem argSort_eq {w : ArgWorld} {ts : List TriadOpt} (hts : ∀ o ∈ ts, o.Good w) :
    argSort (some (orElse (lastOf TriadOpt.sort? ts) .text (.text "weight".toList))) = .ok (sortOf ts) := by
  unfold sortOf
  cases h : lastOf TriadOpt.sort? ts with
  | none => rfl
  | some t =>
    have hm : t ∈ ts.filterMap TriadOpt.sort? := List.mem_of_getLast? h
    obtain ⟨o, ho, hx⟩ := List.mem_filterMap.1 hm
    cases o with
    | sort f t' =>
      simp only [TriadOpt.sort?, Option.some.injEq] at hx
      subst hx
      rcases hts _ ho with h1 | h1 | h1 <;> rw [h1] <;> rfl
    | _ => cases hx

theorem loadPlot_means {w : LoadWorld} {d : Disk} {ns : Dict String ArgVal} {l : Text} {x : InternTable × PhysicalKeyboard × KeyboardLayout}
    (hl : ns.get? "layout" = some (.text l)) (h : Means w d "ibmpc105".toList l x) : loadPlot w d ns = .ok x := by
  refine loadNamed_means (k := "ibmpc105".toList) (l := l) ?_ ?_ h
  · rw [Dict.get?_set, if_pos rfl]
  · rw [Dict.get?_set, if_neg (by decide)]
    exact hl

theorem bind_ok {ε α β : Type} (a : α) (f : α → Except ε β) : (Except.ok a >>= f) = f a := rfl

theorem bind_map {ε α β : Type} (r : Except ε α) (f : α → β) : (r >>= fun a => .ok (f a)) = r.map f := by
  cases r <;> rfl

/-- **C135** (partial: if a layout is given): with options in any order and form each command writes the figures for the layout meant,
on the keyboard meant if it is one of those that look at `-k`, and else on `ibmpc105`. -/
theorem C135_figures_partial (w : AnalyzeWorld) (hu : PlainNum w.args.uni) (d : Disk) (os : List CommonOpt) (hos : ∀ o ∈ os, o.Good)
    (ts : List TriadOpt) (hts : ∀ o ∈ ts, o.Good w.args) (l : Text) (hl : lastOf CommonOpt.layout? os = some l)
    (x : InternTable × PhysicalKeyboard × KeyboardLayout) (p : Pickles) (s : AllStats) (hp : p.first = .ok s) (c : String)
    (r : Py Analysis) (hc : (c, r) ∈ expectedFigures w ts l x s) (hct : c = "triadfreq" ∨ ts = [])
    (hx : Means w.toLoadWorld d (if usesKeyboard c then keyboardOf os else "ibmpc105".toList) l x) :
    analyzeMain w d p (analyzeWords os c ts) = .ok r := by
  have hl' : orElse (lastOf CommonOpt.layout? os) ArgVal.text .none = .text l := by rw [hl]; rfl
  simp only [expectedFigures, List.mem_cons, Prod.mk.injEq, List.not_mem_nil, or_false] at hc
  rcases hc with ⟨rfl, rfl⟩ | ⟨rfl, rfl⟩ | ⟨rfl, rfl⟩ | ⟨rfl, rfl⟩ | ⟨rfl, rfl⟩ | ⟨rfl, rfl⟩
  · obtain rfl := hct.resolve_left (by decide)
    obtain ⟨ns, h1, h2, h3, h4⟩ := analyze_attrs w.args hos (c := ("pretty", "pretty")) (by simp [analyses])
    rw [hl'] at h3
    rw [if_pos (by decide)] at hx
    simp only [analyzeMain, h1, analyze, h2, hp, loadNamed_means h4 h3 hx, bind_ok, String.reduceEq, if_true, if_false]
    exact congrArg Except.ok (bind_map _ _)
  · obtain rfl := hct.resolve_left (by decide)
    obtain ⟨ns, h1, h2, h3, h4⟩ := analyze_attrs w.args hos (c := ("keyheatmap", "keyHeatmap")) (by simp [analyses])
    rw [hl'] at h3
    rw [if_pos (by decide)] at hx
    simp only [analyzeMain, h1, analyze, h2, hp, loadNamed_means h4 h3 hx, bind_ok, String.reduceEq, if_true, if_false]
    exact congrArg Except.ok (bind_map _ _)
  · obtain rfl := hct.resolve_left (by decide)
    obtain ⟨ns, h1, h2, h3, h4⟩ := analyze_attrs w.args hos (c := ("layoutstats", "layoutstats")) (by simp [analyses])
    rw [hl'] at h3
    rw [if_pos (by decide)] at hx
    simp only [analyzeMain, h1, analyze, h2, hp, loadNamed_means h4 h3 hx, bind_ok, String.reduceEq, if_true, if_false, argText, h3]
    exact congrArg Except.ok (bind_map _ _)
  · obtain rfl := hct.resolve_left (by decide)
    obtain ⟨ns, h1, h2, h3, h4⟩ := analyze_attrs w.args hos (c := ("letterfreq", "letterfreq")) (by simp [analyses])
    rw [hl'] at h3
    rw [if_neg (by decide)] at hx
    simp only [analyzeMain, h1, analyze, h2, hp, loadPlot_means h3 hx, bind_ok, String.reduceEq, if_true, if_false]
    exact congrArg Except.ok (bind_map _ _)
  · obtain rfl := hct.resolve_left (by decide)
    obtain ⟨ns, h1, h2, h3, h4⟩ := analyze_attrs w.args hos (c := ("triadeffortdata", "triadEffortData")) (by simp [analyses])
    rw [hl'] at h3
    rw [if_neg (by decide)] at hx
    simp only [analyzeMain, h1, analyze, h2, hp, loadPlot_means h3 hx, bind_ok, String.reduceEq, if_true, if_false]
    exact congrArg Except.ok (bind_map _ _)
  · obtain ⟨ns, h1, h2, h3, h5, h6, h7, h8⟩ := triad_attrs w.args hu hos hts
    rw [hl'] at h3
    rw [if_neg (by decide)] at hx
    simp only [analyzeMain, h1, analyze, h2, hp, loadPlot_means h3 hx, bind_ok, String.reduceEq, if_true, if_false, h5, h6, h7, h8, argInt,
      argRat, argSort_eq hts, Option.some.injEq, ArgVal.flag.injEq, Bool.decide_eq_true]
    exact congrArg Except.ok (bind_map _ _)

/-- The statistics are read first: if they cannot be, the layout does not matter. -/
theorem C135_unreadable (w : AnalyzeWorld) (d : Disk) (os : List CommonOpt) (hos : ∀ o ∈ os, o.Good) (p : Pickles) (e : PyErr)
    (hp : p.first = .error e) (c : String) (hc : c ∈ ["pretty", "keyheatmap", "layoutstats", "letterfreq", "triadeffortdata"]) :
    analyzeMain w d p (analyzeWords os c []) = .ok (.error e) := by
  have key : ∀ f, (c, f) ∈ analyses → (f = "pretty" ∨ f = "keyHeatmap" ∨ f = "layoutstats" ∨ f = "letterfreq" ∨ f = "triadEffortData") →
      analyzeMain w d p (analyzeWords os c []) = .ok (.error e) := by
    intro f h hf
    obtain ⟨ns, h1, h2, _⟩ := analyze_attrs w.args hos h
    simp only [analyzeMain, h1, analyze, h2, hp, bind_ok]
    rcases hf with rfl | rfl | rfl | rfl | rfl <;> simp only [String.reduceEq, if_true, if_false] <;> rfl
  simp only [List.mem_cons, List.not_mem_nil, or_false] at hc
  rcases hc with rfl | rfl | rfl | rfl | rfl
  · exact key "pretty" (by simp [analyses]) (by decide)
  · exact key "keyHeatmap" (by simp [analyses]) (by decide)
  · exact key "layoutstats" (by simp [analyses]) (by decide)
  · exact key "letterfreq" (by simp [analyses]) (by decide)
  · exact key "triadEffortData" (by simp [analyses]) (by decide)

/-- **C135** is false as a user expects it: `-l` looks like an option, but without it these commands end with `TypeError`, after they
have read the statistics and if the keyboard can be loaded, instead of a message. -/
theorem C135_false (w : AnalyzeWorld) (d : Disk) (os : List CommonOpt) (hos : ∀ o ∈ os, o.Good) (hl : lastOf CommonOpt.layout? os = none)
    (p : Pickles) (s : AllStats) (hp : p.first = .ok s) (c : String)
    (hc : c ∈ ["pretty", "keyheatmap", "layoutstats", "letterfreq", "triadeffortdata"]) (kt : Text) (kd : KeyboardData)
    (k : InternTable × PhysicalKeyboard × KeyboardData)
    (h1 : Found w.resource d "data/keyboards" (if usesKeyboard c then keyboardOf os else "ibmpc105".toList) kt)
    (h2 : w.keyboard kt = .ok kd) (h3 : PhysicalKeyboard.deserialize w.table kd = .ok k) :
    analyzeMain w d p (analyzeWords os c []) = .ok (.error .typeError) := by
  have load : ∀ (ns : Dict String ArgVal) (n : Text), ns.get? "keyboard" = some (.text n) → ns.get? "layout" = some .none →
      Found w.resource d "data/keyboards" n kt → loadNamed w.toLoadWorld d ns = .error .typeError := by
    intro ns n a1 a2 a3
    have a4 := getitem_found (l := keyboardLoader w.toLoadWorld d) rfl rfl a3 h2 (v := (k.1, k.2.1)) (by simp [keyboardLoader, h3, Except.map])
    simp only [loadNamed, byArg, a1, a2, a4, bind, Except.bind]
  have key : ∀ f, (c, f) ∈ analyses → (usesKeyboard c ∧ (f = "pretty" ∨ f = "keyHeatmap" ∨ f = "layoutstats") ∨
      ¬ usesKeyboard c ∧ (f = "letterfreq" ∨ f = "triadEffortData")) →
      analyzeMain w d p (analyzeWords os c []) = .ok (.error .typeError) := by
    intro f h hf
    obtain ⟨ns, b1, b2, b3, b4⟩ := analyze_attrs w.args hos h
    have b3 : ns.get? "layout" = some .none := by rw [b3, hl]; rfl
    rcases hf with ⟨g, hf⟩ | ⟨g, hf⟩
    · rw [if_pos g] at h1
      have b5 := load ns _ b4 b3 h1
      simp only [analyzeMain, b1, analyze, b2, hp, bind_ok, b5]
      rcases hf with rfl | rfl | rfl <;> simp only [String.reduceEq, if_true, if_false] <;> rfl
    · rw [if_neg g] at h1
      have b5 : loadPlot w.toLoadWorld d ns = .error .typeError := by
        refine load _ "ibmpc105".toList ?_ ?_ h1
        · rw [Dict.get?_set, if_pos rfl]
        · rw [Dict.get?_set, if_neg (by decide)]
          exact b3
      simp only [analyzeMain, b1, analyze, b2, hp, bind_ok, b5]
      rcases hf with rfl | rfl <;> simp only [String.reduceEq, if_true, if_false] <;> rfl
  simp only [List.mem_cons, List.not_mem_nil, or_false] at hc
  rcases hc with rfl | rfl | rfl | rfl | rfl
  · exact key "pretty" (by simp [analyses]) (by decide)
  · exact key "keyHeatmap" (by simp [analyses]) (by decide)
  · exact key "layoutstats" (by simp [analyses]) (by decide)
  · exact key "letterfreq" (by simp [analyses]) (by decide)
  · exact key "triadEffortData" (by simp [analyses]) (by decide)

/-- **C135** is false for `triadfreq` in the same way. -/
theorem C135_false_triads (w : AnalyzeWorld) (hu : PlainNum w.args.uni) (d : Disk) (os : List CommonOpt) (hos : ∀ o ∈ os, o.Good)
    (ts : List TriadOpt) (hts : ∀ o ∈ ts, o.Good w.args) (hl : lastOf CommonOpt.layout? os = none)
    (p : Pickles) (s : AllStats) (hp : p.first = .ok s) (kt : Text) (kd : KeyboardData) (k : InternTable × PhysicalKeyboard × KeyboardData)
    (h1 : Found w.resource d "data/keyboards" "ibmpc105".toList kt) (h2 : w.keyboard kt = .ok kd)
    (h3 : PhysicalKeyboard.deserialize w.table kd = .ok k) :
    analyzeMain w d p (analyzeWords os "triadfreq" ts) = .ok (.error .typeError) := by
  obtain ⟨ns, b1, b2, b3, -, -, -, b4⟩ := triad_attrs w.args hu hos hts
  have b3 : ns.get? "layout" = some .none := by rw [b3, hl]; rfl
  have a4 := getitem_found (l := keyboardLoader w.toLoadWorld d) rfl rfl h1 h2 (v := (k.1, k.2.1)) (by simp [keyboardLoader, h3, Except.map])
  have b5 : loadPlot w.toLoadWorld d ns = .error .typeError := by
    simp only [loadPlot, loadNamed, Dict.get?_set, if_true, String.reduceEq, if_false, b3, byArg, a4, bind, Except.bind]
  simp only [analyzeMain, b1, analyze, b2, hp, bind_ok, b5, b4, argInt, String.reduceEq, if_true, if_false]
  rfl

/-- **C135** (`-k` without effect): the other commands write the same whatever keyboard is named. -/
theorem C135_keyboard_ignored (w : AnalyzeWorld) (d : Disk) (os os' : List CommonOpt) (hos : ∀ o ∈ os, o.Good) (hos' : ∀ o ∈ os', o.Good)
    (hl : lastOf CommonOpt.layout? os = lastOf CommonOpt.layout? os') (p : Pickles) (c : String)
    (hc : c ∈ ["letterfreq", "triadeffortdata"]) :
    analyzeMain w d p (analyzeWords os c []) = analyzeMain w d p (analyzeWords os' c []) := by
  have key : ∀ f, (c, f) ∈ analyses → (f = "letterfreq" ∨ f = "triadEffortData") →
      analyzeMain w d p (analyzeWords os c []) = analyzeMain w d p (analyzeWords os' c []) := by
    intro f h hf
    obtain ⟨ns, a1, a2, a3, _⟩ := analyze_attrs w.args hos h
    obtain ⟨ns', b1, b2, b3, _⟩ := analyze_attrs w.args hos' h
    have e : loadPlot w.toLoadWorld d ns = loadPlot w.toLoadWorld d ns' := by
      simp only [loadPlot, loadNamed, Dict.get?_set, if_true, String.reduceEq, if_false, a3, b3, hl]
    simp only [analyzeMain, a1, b1, analyze, a2, b2, bind_ok, e]
    rcases hf with rfl | rfl <;> simp only [String.reduceEq, if_true, if_false]
  simp only [List.mem_cons, List.not_mem_nil, or_false] at hc
  rcases hc with rfl | rfl
  · exact key "letterfreq" (by simp [analyses]) (by decide)
  · exact key "triadEffortData" (by simp [analyses]) (by decide)

/-- **C135** (heat map): whichever layout is named, the presses of the keys are the same. -/
theorem C135_heatmap (w : AnalyzeWorld) (hu : PlainNum w.args.uni) (d : Disk) (os os' : List CommonOpt) (hos : ∀ o ∈ os, o.Good)
    (hos' : ∀ o ∈ os', o.Good) (l l' : Text) (hl : lastOf CommonOpt.layout? os = some l) (hl' : lastOf CommonOpt.layout? os' = some l')
    (hk : keyboardOf os = keyboardOf os') (x x' : InternTable × PhysicalKeyboard × KeyboardLayout)
    (hx : Means w.toLoadWorld d (keyboardOf os) l x) (hx' : Means w.toLoadWorld d (keyboardOf os') l' x') (p : Pickles) :
    analyzeMain w d p (analyzeWords os "keyheatmap" []) = analyzeMain w d p (analyzeWords os' "keyheatmap" []) := by
  cases hp : p.first with
  | error e =>
    rw [C135_unreadable w d os hos p e hp _ (by simp), C135_unreadable w d os' hos' p e hp _ (by simp)]
  | ok s =>
    have e : x.1 = x'.1 := by
      obtain ⟨kt, _, kd, _, _, a1, a2, a3, _⟩ := hx
      obtain ⟨kt', _, kd', _, _, b1, b2, b3, _⟩ := hx'
      rw [← hk] at b1
      have c1 := getitem_found (l := keyboardLoader w.toLoadWorld d) rfl rfl a1 a2 (v := (x.1, x.2.1)) (by simp [keyboardLoader, a3, Except.map])
      have c2 := getitem_found (l := keyboardLoader w.toLoadWorld d) rfl rfl b1 b2 (v := (x'.1, x'.2.1)) (by simp [keyboardLoader, b3, Except.map])
      rw [c1] at c2
      exact (Prod.mk.inj (Except.ok.inj c2)).1
    rw [C135_figures_partial w hu d os hos [] (by simp) l hl x p s hp "keyheatmap" _ (by simp [expectedFigures]; rfl) (.inr rfl)
        (by rw [if_pos (by decide)]; exact hx),
      C135_figures_partial w hu d os' hos' [] (by simp) l' hl' x' p s hp "keyheatmap" _ (by simp [expectedFigures]; rfl) (.inr rfl)
        (by rw [if_pos (by decide)]; exact hx'), e]

/-- **C135** (`combine`): no layout is needed, and one that is given does not matter. Nothing at all gives empty statistics. -/
theorem C135_combine (w : AnalyzeWorld) (d : Disk) (os : List CommonOpt) (hos : ∀ o ∈ os, o.Good) (kt : Text) (kd : KeyboardData)
    (k : InternTable × PhysicalKeyboard × KeyboardData) (h1 : Found w.resource d "data/keyboards" (keyboardOf os) kt)
    (h2 : w.keyboard kt = .ok kd) (h3 : PhysicalKeyboard.deserialize w.table kd = .ok k) (fresh : AllStats)
    (h4 : AllStats.init k.1 k.2.1 = .ok fresh) (p : Pickles) :
    analyzeMain w d p (analyzeWords os "combine" []) = .ok (match p.error with
      | some e => .error e
      | none => .ok (.combined (fresh.combine p.read))) := by
  obtain ⟨ns, b1, b2, _, b4⟩ := analyze_attrs w.args hos (c := ("combine", "combine")) (by simp [analyses])
  have a4 := getitem_found (l := keyboardLoader w.toLoadWorld d) rfl rfl h1 h2 (v := (k.1, k.2.1)) (by simp [keyboardLoader, h3, Except.map])
  simp only [analyzeMain, b1, analyze, b2, b4, byArg, a4, h4, bind_ok, if_true, Pickles.all]
  cases p.error <;> rfl

/-! ### Shipped layouts -/

theorem tableName_eq (t : InternTable) : tableName t = shownName t := by
  funext b
  unfold tableName shownName InternTable.nameOf Dict.getItem
  cases t.idToName.get? b <;> rfl

/-- All buttons pressed have names. -/
theorem heat_whole {letter : Char → Bool} {t : InternTable} {L : KeyboardLayout} {fresh : AllStats} {layers : List Layer}
    (hu : Usable (shippedSetup letter t L fresh) layers) {texts : List Text} {s : AllStats} (h : Whole (shippedSetup letter t L fresh) texts s) :
    heatFigures t s.simple.buttons = keyHeatmap (shownName t) s.simple.buttons := by
  have key : ∀ l : List (Button × Nat), (∀ e ∈ l, ∃ n, t.nameOf e.1 = .ok n) → ∃ ns, l.mapM (fun e => t.nameOf e.1) = .ok ns := by
    intro l hl
    induction l with
    | nil => exact ⟨[], rfl⟩
    | cons e l ih =>
      obtain ⟨n, hn⟩ := hl e List.mem_cons_self
      obtain ⟨ns, hns⟩ := ih fun e he => hl e (List.mem_cons_of_mem _ he)
      exact ⟨n :: ns, by rw [List.mapM_cons, hn, hns]; rfl⟩
  obtain ⟨ns, hns⟩ := key s.simple.buttons fun e he => by
    obtain ⟨x, _, hb⟩ := (whole_pressed h e.1).1 ⟨e.2, he⟩
    obtain ⟨q, hq⟩ := pressed_fingered hu hb
    simp only [shippedSetup, getHandFinger, bind_ok_iff] at hq
    obtain ⟨n, hn, _⟩ := hq
    exact ⟨n, hn⟩
  rw [heatFigures, hns, tableName_eq]
  rfl

/-- **C135** (partial: if no filter fails, there are workers, the keyboard is `ibmpc105` and the layout is not `null`):
`lulua-write … | lulua-analyze combine` writes the statistics of all texts and of nothing else, however the processes are scheduled.
Given these statistics `lulua-analyze -l … layoutstats` writes figures exactly if some form of alef is typed, `keyheatmap` the presses of
each button in all texts under its name, and without backspaces `triadeffortdata` a curve with the name of the layout. -/
theorem C135_pipeline_partial (w : WriteWorld) (hu : PlainNum w.args.uni) (d : Disk) (os : List WriteOpt) (hos : ∀ o ∈ os, o.Good)
    (hb : lastOf WriteOpt.benchmark? os = none) (hk : writeKeyboard os = "ibmpc105".toList) (hj : 0 < workersOf w.args os) (l : Text)
    (hl : PlainWord l) (ld : LayoutData) (hd : ld ∈ Data.layouts) (hnull : ld ≠ Data.nullLayout) (hs : Shipped w.toLoadWorld d l ld)
    (names : List String) (fs : List FilterName) (hf : filterSel names = some fs) (lines : List Text)
    (hx : ∀ line ∈ lines, (w.filters.extract fs line).error = none) (a : AnalyzeWorld) (ha : a.toLoadWorld = w.toLoadWorld)
    (os' : List CommonOpt) (hos' : ∀ o ∈ os', o.Good) (hk' : keyboardOf os' = "ibmpc105".toList) :
    ∃ p su, writeStart w d (writeWords os l names) = .ok (.ok p) ∧ p.setup = .ok su ∧
      ∀ final, Ends w.filters fs p.jobs lines final → ∃ out s, p.output w final = .ok out ∧
        analyzeMain a d ⟨out, none⟩ (analyzeWords os' "combine" []) = .ok (.ok (.combined s)) ∧
        Whole su (inputTexts w.filters fs lines) s ∧
        (lastOf CommonOpt.layout? os' = some l →
          ((∃ r, analyzeMain a d ⟨[s], none⟩ (analyzeWords os' "layoutstats" []) = .ok (.ok (.figures l r))) ↔
            AlefTyped su (inputTexts w.filters fs lines)) ∧
          (∃ t kb L m, loadFirst ld = .ok (t, kb, L) ∧ analyzeMain a d ⟨[s], none⟩ (analyzeWords os' "keyheatmap" []) = .ok (.ok (.heat
              ((inputTexts w.filters fs lines).map fun x => (pressed (typedFor su x)).length).sum m)) ∧
            ∀ n k, m.get? n = some k ↔ ∃ b, shownName t b = n ∧ 0 < k ∧
              k = ((inputTexts w.filters fs lines).map fun x => (pressed (typedFor su x)).count b).sum) ∧
          ((∀ x ∈ inputTexts w.filters fs lines, '\x08' ∉ x) →
            ∃ c, analyzeMain a d ⟨[s], none⟩ (analyzeWords os' "triadeffortdata" []) = .ok (.ok (.curve c)) ∧ c.layout = ld.name)) := by
  obtain ⟨x, hx1⟩ := loadFirst_shipped hd
  obtain ⟨fresh, layers, h1, h0, h2⟩ := worker_same hd hs hx1
  have hm := shipped_means hs hx1
  have hp := write_plan hu hos hl hf (by rw [hk]; exact hm)
  refine ⟨_, _, hp, h1, ?_⟩
  rintro final ⟨r1, r2⟩
  rw [← fails_eq h2] at r1 r2
  obtain ⟨b1, b2⟩ := C117_returns _ layers h2 ⟨lines, w.filters.extract fs, workersOf w.args os, final⟩ hj hx r1 r2
  obtain ⟨f, ts, c1, c0, c2, _, c3⟩ := built_counts h2 b1
  have cp := positive_pickle h2.fresh c1
  simp only [CorpusRun.pickle, bind_ok_iff, Except.ok.injEq] at c1
  obtain ⟨out, c4, rfl⟩ := c1
  have hw : Whole (shippedSetup w.letter x.1 x.2.2 fresh) (inputTexts w.filters fs lines) (AllStats.combine fresh out) :=
    ⟨c0, cp, countsOf_perm c2 (c3 hj b2)⟩
  refine ⟨out, AllStats.combine fresh out, ?_, ?_, hw, fun hl' => ?_⟩
  · rw [output_eq h1]
    simp only [hb, Option.isSome_none, Bool.false_eq_true, if_false]
    exact c4
  · obtain ⟨kt, _, kd, _, kd', k1, k2, k3, _⟩ := hm
    rw [← ha] at k1 k2 k3
    rw [C135_combine a d os' hos' kt kd (x.1, x.2.1, kd') (by rw [hk']; exact k1) k2 k3 fresh h0]
  · have hx2 := hx1
    simp only [loadFirst, bind_ok_iff, Except.ok.injEq] at hx1
    obtain ⟨⟨t, kb, kd⟩, e1, L, e2, rfl⟩ := hx1
    obtain ⟨fresh', e3, e4⟩ := C122_shipped w.letter [] t kb kd e1 ld hd hnull L e2
    obtain rfl : fresh' = fresh := Except.ok.inj (e3.symm.trans h0)
    obtain ⟨f1, ⟨m, f2, f4⟩, f3⟩ := e4 _ _ hw
    rw [← ha] at hm hu
    refine ⟨?_, ⟨t, kb, L, m, hx2, ?_, f4⟩, ?_⟩
    · rw [← f1, C135_figures_partial a hu d os' hos' [] (by simp) l hl' (t, kb, L) ⟨[_], none⟩ _ rfl "layoutstats" _
        (by simp [expectedFigures]; rfl) (.inr rfl) (by rw [if_pos (by decide), hk']; exact hm)]
      dsimp only [shippedSetup]
      cases layoutstats (getHandFinger Data.fingermap t) L (AllStats.combine fresh' out).simple with
      | error e => simp [Except.map]
      | ok r => simp [Except.map]
    · rw [C135_figures_partial a hu d os' hos' [] (by simp) l hl' (t, kb, L) ⟨[_], none⟩ _ rfl "keyheatmap" _
        (by simp [expectedFigures]; rfl) (.inr rfl) (by rw [if_pos (by decide), hk']; exact hm), heat_whole h2 hw, f2]
      rfl
    · intro hbs
      obtain ⟨c, g1, g2⟩ := f3 Data.mod01 (by simp [Data.models]) hbs
      refine ⟨c, ?_, g2⟩
      rw [C135_figures_partial a hu d os' hos' [] (by simp) l hl' (t, kb, L) ⟨[_], none⟩ _ rfl "triadeffortdata" _
        (by simp [expectedFigures]; rfl) (.inr rfl) (by rw [if_neg (by decide)]; exact hm), g1]
      rfl

/-! ### Cases meeting the hypotheses -/

def demoAnalyzeWorld : AnalyzeWorld where
  toLoadWorld := renderWorld.toLoadWorld
  display := ⟨fun _ => 0, fun _ => false, fun _ => none, fun _ => true⟩
  letterOther := fun _ => true

/-- Statistics of two presses. -/
def twoPresses : AllStats where
  simple := { buttons := [(1, 2)], combinations := [(⟨[], [1]⟩, 2)], unknown := [] }
  runlen := { lastHand := none, perHand := [], curPerHand := 0, lastFinger := none, fingerDist := [], fingerRunlen := 0 }
  triads := { ignored := [], triad := [], triads := [] }
  words := { current := [], words := [] }

def withLayout : List CommonOpt := [.keyboard .short "x".toList, .layout .long "ar-lulua".toList, .keyboard .glued "ibmpc105".toList]

theorem withLayout_good : ∀ o ∈ withLayout, o.Good := by
  simp [withLayout, CommonOpt.Good, PlainWord]

example : ∃ x, analyzeMain demoAnalyzeWorld (fun _ => none) ⟨[twoPresses], none⟩ (analyzeWords withLayout "keyheatmap" []) =
      .ok ((heatFigures x [(1, 2)]).map fun r => .heat r.1 r.2) ∧
    analyzeMain demoAnalyzeWorld (fun _ => none) ⟨[twoPresses], none⟩ (analyzeWords [] "keyheatmap" []) = .ok (.error .typeError) ∧
    analyzeMain demoAnalyzeWorld (fun _ => none) ⟨[twoPresses], none⟩ (analyzeWords [] "triadfreq" [.limit .short 3]) =
      .ok (.error .typeError) ∧
    analyzeMain demoAnalyzeWorld (fun _ => none) ⟨[], none⟩ (analyzeWords [] "keyheatmap" []) = .ok (.error .otherError) := by
  obtain ⟨x, hx⟩ := loadFirst_shipped (ld := Data.arLulua) (by simp [Data.layouts])
  have hm := shipped_means renderWorld_shipped hx
  refine ⟨x.1, C135_figures_partial _ argWorld_plain _ withLayout withLayout_good [] (by simp) "ar-lulua".toList rfl x _ twoPresses rfl _ _
    (by simp [expectedFigures, twoPresses]) (.inr rfl) (by rw [if_pos (by decide)]; exact hm), ?_, ?_, ?_⟩
  · obtain ⟨kt, _, kd, _, kd', k1, k2, k3, _⟩ := hm
    exact C135_false _ _ [] (by simp) rfl _ twoPresses rfl _ (by simp) kt kd (x.1, x.2.1, kd') k1 k2 k3
  · obtain ⟨kt, _, kd, _, kd', k1, k2, k3, _⟩ := hm
    exact C135_false_triads _ argWorld_plain _ [] (by simp) _ (by simp [TriadOpt.Good]) rfl _ twoPresses rfl kt kd (x.1, x.2.1, kd') k1 k2 k3
  · exact C135_unreadable _ _ [] (by simp) _ _ rfl _ (by simp)

/-- Two lines, two workers, no layout for `combine`. -/
example : ∃ p su, writeStart demoWriteWorld (fun _ => none) (writeWords [.jobs .short 2] "ar-lulua".toList ["lines"]) = .ok (.ok p) ∧
    p.setup = .ok su ∧ ∃ final out s, p.output demoWriteWorld final = .ok out ∧
      analyzeMain demoAnalyzeWorld (fun _ => none) ⟨out, none⟩ (analyzeWords [] "combine" []) = .ok (.ok (.combined s)) ∧
      Whole su ["اب".toList, "c".toList] s := by
  obtain ⟨p, su, h1, h2, h6⟩ := C135_pipeline_partial demoWriteWorld argWorld_plain (fun _ => none) [.jobs .short 2]
    (by simp [WriteOpt.Good]) rfl rfl (by simp [workersOf, lastOf, WriteOpt.jobs?]) "ar-lulua".toList (by simp [PlainWord]) Data.arLulua
    (by simp [Data.layouts]) (by decide +kernel) renderWorld_shipped ["lines"] [.lines] (by decide) ["اب".toList, "c".toList] (fun _ _ => rfl)
    demoAnalyzeWorld rfl [] (by simp) rfl
  obtain ⟨final, h7, _⟩ := C133_ends demoWriteWorld.filters [.lines] p.jobs ["اب".toList, "c".toList] _ 0 (.refl _)
  obtain ⟨out, s, h8, h9, h10, _⟩ := h6 final h7
  exact ⟨p, su, h1, h2, final, out, s, h8, h9, h10⟩

end Lulua.Props
