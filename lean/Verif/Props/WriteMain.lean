import Verif.Spec.WriteMain
import Verif.Props.Benchmark
import Verif.Props.Filters
import Verif.Props.RenderMain

/-!
# C133: `lulua-write` as a whole
-/

namespace Lulua.Props
open Lulua Spec

/-! ### The command line -/

theorem argFilters_eq {names : List String} {fs : List FilterName} (h : filterSel names = some fs) :
    argFilters (some (.texts (names.map String.toList))) = .ok fs := by
  unfold filterSel at h
  split at h
  · cases h
  · unfold argFilters
    dsimp only
    clear * - h
    induction names generalizing fs with
    | nil =>
      simp only [List.mapM_nil, Option.pure_def, Option.some.injEq] at h
      subst h
      rfl
    | cons n ns ih =>
      rw [List.mapM_cons] at h
      simp only [Option.bind_eq_bind, Option.bind_eq_some_iff, Option.pure_def, Option.some.injEq] at h
      obtain ⟨f, h1, fs', h2, rfl⟩ := h
      have h3 : filterAvail.getItem (String.ofList n.toList) = .ok f := by
        rw [String.ofList_toList]
        simp only [Dict.getItem, h1]
      rw [List.map_cons, List.mapM_cons, h3, ih h2]
      rfl

theorem filterSel_known {names : List String} {fs : List FilterName} (h : filterSel names = some fs) :
    names ≠ [] ∧ ∀ n ∈ names, n.toList ∈ filterAvail.map (·.1.toList) := by
  obtain ⟨h1, h2⟩ := (C118_choice names fs).1 h
  refine ⟨h1, fun n hn => ?_⟩
  have hk : ∀ x ∈ filterNames, x.1.toList ∈ filterAvail.map (·.1.toList) := by decide +kernel
  obtain ⟨f, _, hf⟩ := forall₂_left_mem h2 hn
  exact hk _ hf

theorem known_plain : ∀ t ∈ filterAvail.map (·.1.toList), PlainWord t := by
  unfold PlainWord
  decide +kernel

/-- What the function gets. -/
theorem write_attrs {w : ArgWorld} (hu : PlainNum w.uni) {os : List WriteOpt} (hos : ∀ o ∈ os, o.Good) {l : Text} (hl : PlainWord l)
    {names : List String} {fs : List FilterName} (hf : filterSel names = some fs) :
    ∃ ns, (writeProgram w).start w (writeWords os l names) = .ok ns ∧ ns.get? "layout" = some (.text l) ∧
      ns.get? "keyboard" = some (.text (writeKeyboard os)) ∧ ns.get? "filter" = some (.texts (names.map String.toList)) ∧
      ns.get? "jobs" = some (.int (workersOf w os)) ∧
      (ns.get? "benchmark" = some (.flag true) ↔ (lastOf WriteOpt.benchmark? os).isSome) := by
  obtain ⟨h1, h2⟩ := filterSel_known hf
  obtain ⟨ns, h3, h4⟩ := (C127_write w hu os hos l hl (names.map String.toList) (by simpa using h1) (by
    intro f hf
    obtain ⟨n, hn, rfl⟩ := List.mem_map.1 hf
    exact known_plain _ (h2 n hn))).1 (by
      intro f hf
      obtain ⟨n, hn, rfl⟩ := List.mem_map.1 hf
      exact h2 n hn)
  have hk : orElse (lastOf WriteOpt.keyboard? os) .text (.text "ibmpc105".toList) = .text (writeKeyboard os) := by
    unfold orElse writeKeyboard
    cases lastOf WriteOpt.keyboard? os <;> rfl
  have hj : orElse (lastOf WriteOpt.jobs? os) (fun n => .int n) (.int w.cpus) = .int (workersOf w os) := by
    unfold orElse workersOf
    cases lastOf WriteOpt.jobs? os <;> rfl
  refine ⟨ns, h3, (h4 _ _).2 ?_, (h4 _ _).2 ?_, (h4 _ _).2 ?_, (h4 _ _).2 ?_, ?_⟩
  · simp [writeAttrs]
  · rw [← hk]
    simp [writeAttrs]
  · simp [writeAttrs]
  · rw [← hj]
    simp [writeAttrs]
  · rw [h4]
    unfold writeAttrs orElse
    cases lastOf WriteOpt.benchmark? os <;> simp

/-- What `write` has found out before it starts processes. -/
theorem write_plan {w : WriteWorld} (hu : PlainNum w.args.uni) {d : Disk} {os : List WriteOpt} (hos : ∀ o ∈ os, o.Good) {l : Text}
    (hl : PlainWord l) {names : List String} {fs : List FilterName} (hf : filterSel names = some fs)
    {x : InternTable × PhysicalKeyboard × KeyboardLayout} (hx : Means w.toLoadWorld d (writeKeyboard os) l x) :
    writeStart w d (writeWords os l names) = .ok (.ok ⟨(lastOf WriteOpt.benchmark? os).isSome, workersOf w.args os, fs,
      workerSetup w d x.1 x.2.2⟩) := by
  obtain ⟨ns, h1, h2, h3, h4, h5, h6⟩ := write_attrs hu hos hl hf
  have h7 := loadNamed_means h3 h2 hx
  have h8 : decide (ns.get? "benchmark" = some (.flag true)) = (lastOf WriteOpt.benchmark? os).isSome := by
    cases hb : (lastOf WriteOpt.benchmark? os).isSome <;> simp_all
  simp only [writeStart, writePlan, h1, h7, h4, h5, argFilters_eq hf, argJobs, bind, Except.bind, Int.toNat_natCast, h8]

/-! ### Workers -/

/-- Loads the keyboard twice. -/
def loadTwice : Py Bool := do
  let (t, kb, _) ← PhysicalKeyboard.deserialize (tableAfter []) Data.ibmpc105
  let (t', kb', _) ← PhysicalKeyboard.deserialize t Data.ibmpc105
  .ok (decide (t' = t) && decide (kb' = kb))

theorem loadTwice_same : loadTwice = .ok true := by decide +kernel

theorem load_again {t : InternTable} {kb : PhysicalKeyboard} {kd : KeyboardData}
    (h : PhysicalKeyboard.deserialize (tableAfter []) Data.ibmpc105 = .ok (t, kb, kd)) :
    ∃ kd', PhysicalKeyboard.deserialize t Data.ibmpc105 = .ok (t, kb, kd') := by
  have h1 := loadTwice_same
  simp only [loadTwice, h, bind_ok_iff, Except.ok.injEq] at h1
  obtain ⟨_, rfl, ⟨t', kb', kd'⟩, h2, h3⟩ := h1
  simp only [Bool.and_eq_true, decide_eq_true_eq] at h3
  obtain ⟨rfl, rfl⟩ := h3
  exact ⟨kd', h2⟩

/-- A worker for a shipped layout has what the main process has. -/
theorem worker_same {w : WriteWorld} {d : Disk} {l : Text} {ld : LayoutData} (hd : ld ∈ Data.layouts) (hs : Shipped w.toLoadWorld d l ld)
    {x : InternTable × PhysicalKeyboard × KeyboardLayout} (hx : loadFirst ld = .ok x) :
    ∃ fresh layers, workerSetup w d x.1 x.2.2 = .ok (shippedSetup w.letter x.1 x.2.2 fresh) ∧ AllStats.init x.1 x.2.1 = .ok fresh ∧
      Usable (shippedSetup w.letter x.1 x.2.2 fresh) layers := by
  simp only [loadFirst, bind_ok_iff, Except.ok.injEq] at hx
  obtain ⟨⟨t, kb, kd⟩, h1, L, h2, rfl⟩ := hx
  obtain ⟨fresh, layers, h3, h4⟩ := C117_shipped_usable w.letter [] t kb kd h1 ld hd L h2
  obtain ⟨kd', h5⟩ := load_again h1
  refine ⟨fresh, layers, ?_, h3, h4⟩
  obtain ⟨kt, k1, k2⟩ := hs.keyboard
  have hn : (pathJoin "data/keyboards" (String.ofList "ibmpc105".toList ++ ".yaml")).toList = "data/keyboards/ibmpc105.yaml".toList := by
    decide +kernel
  have hfound : Found w.resource d "data/keyboards" "ibmpc105".toList kt := .inr ⟨hs.free.1, .inl (by rw [hn]; exact k1)⟩
  have h6 := getitem_found (l := keyboardLoader { w.toLoadWorld with table := t } d) rfl rfl hfound k2 (v := (t, kb))
    (by simp [keyboardLoader, h5, Except.map])
  rw [String.ofList_toList] at h6
  simp only [workerSetup, h6, h3, bind, Except.bind, shippedSetup]

/-- A worker for a shipped layout. -/
theorem worker_shipped {w : WriteWorld} {d : Disk} {l : Text} {ld : LayoutData} (hd : ld ∈ Data.layouts) (hs : Shipped w.toLoadWorld d l ld)
    {x : InternTable × PhysicalKeyboard × KeyboardLayout} (hx : loadFirst ld = .ok x) :
    ∃ su layers, workerSetup w d x.1 x.2.2 = .ok su ∧ Usable su layers ∧ su.layout = x.2.2 := by
  obtain ⟨fresh, layers, h1, _, h2⟩ := worker_same hd hs hx
  exact ⟨_, layers, h1, h2, rfl⟩

theorem loadFirst_shipped {ld : LayoutData} (hd : ld ∈ Data.layouts) : ∃ x, loadFirst ld = .ok x := by
  obtain ⟨t, kb, d', h1, h2⟩ := shipped_keyboard []
  obtain ⟨ls, h3, _⟩ := load_layout h2 (shipped_good ld hd)
  exact ⟨(t, kb, KeyboardLayout.mk' ld.name ls kb), by simp only [loadFirst, h1, h3, bind, Except.bind]⟩

theorem fails_eq {su : Setup} {layers : List Layer} (hu : Usable su layers) (extract : Text → Gen Text) :
    (fun l => ¬ ItemOk su extract l) = fun l => (extract l).error ≠ none := by
  funext l
  rw [C117_only_filters_fail su layers hu extract l]

theorem output_eq {p : WritePlan} {su : Setup} (h : p.setup = .ok su) (w : WriteWorld) (final : Pool Text) :
    p.output w final = if p.benchmark then CorpusRun.benchOutput su.fresh ⟨[], w.filters.extract p.filters, p.jobs, final⟩
      else CorpusRun.output su ⟨[], w.filters.extract p.filters, p.jobs, final⟩ := by
  unfold WritePlan.output
  split
  · rename_i hr
    cases p.benchmark <;> simp [CorpusRun.benchOutput, CorpusRun.output, hr, bind, Except.bind, pure, Except.pure]
  · simp only [h, bind, Except.bind]

/-- **C133** (ending): every execution, continued as long as something can happen, comes to an end. -/
theorem C133_ends (w : FilterWorld) (fs : List FilterName) (jobs : Nat) (lines : List Text) (s : Pool Text) (n : Nat)
    (h : Pool.Steps jobs (fun l => (w.extract fs l).error ≠ none) False False n (Pool.init jobs lines) s) :
    ∃ final, Ends w fs jobs lines final ∧ ∃ m, Pool.Steps jobs (fun l => (w.extract fs l).error ≠ none) False False m s final := by
  classical
  have key : ∀ k (s : Pool Text) n, s.weight jobs ≤ k →
      Pool.Steps jobs (fun l => (w.extract fs l).error ≠ none) False False n (Pool.init jobs lines) s →
      ∃ final, Ends w fs jobs lines final ∧ ∃ m, Pool.Steps jobs (fun l => (w.extract fs l).error ≠ none) False False m s final := by
    intro k
    induction k with
    | zero =>
      intro s n hk h
      refine ⟨s, ⟨⟨n, h⟩, fun t ht => ?_⟩, 0, .refl s⟩
      have := step_weight ht
      omega
    | succ k ih =>
      intro s n hk h
      by_cases hs : Stuck jobs (fun l => (w.extract fs l).error ≠ none) False False s
      · exact ⟨s, ⟨⟨n, h⟩, hs⟩, 0, .refl s⟩
      · unfold Stuck at hs
        push Not at hs
        obtain ⟨t, ht⟩ := hs
        have := step_weight ht
        obtain ⟨final, h1, m, h2⟩ := ih t (n + 1) (by omega) (h.tail ht)
        refine ⟨final, h1, m + 1, ?_⟩
        clear h1 this ih
        induction h2 with
        | refl => exact (Pool.Steps.refl s).tail ht
        | tail _ h4 ih2 => exact (ih2 ht).tail h4
  exact key _ s n (Nat.le_refl _) h

/-! ### Statistics -/

/-- **C133** (partial: if there is a worker, and no filter fails): with a shipped layout and options in any order and form, however the
processes are scheduled, `lulua-write` ends, and the statistics written are those of typing every text the filters make of standard
input once, whether or not they are split between workers. -/
theorem C133_counts_partial (w : WriteWorld) (hu : PlainNum w.args.uni) (d : Disk) (os : List WriteOpt) (hos : ∀ o ∈ os, o.Good)
    (hb : lastOf WriteOpt.benchmark? os = none) (hk : writeKeyboard os = "ibmpc105".toList) (hj : 0 < workersOf w.args os) (l : Text)
    (hl : PlainWord l) (ld : LayoutData) (hd : ld ∈ Data.layouts) (hs : Shipped w.toLoadWorld d l ld) (names : List String)
    (fs : List FilterName) (hf : filterSel names = some fs) (lines : List Text)
    (hx : ∀ line ∈ lines, (w.filters.extract fs line).error = none) :
    ∃ p su x, writeStart w d (writeWords os l names) = .ok (.ok p) ∧ p.setup = .ok su ∧ loadFirst ld = .ok x ∧ su.layout = x.2.2 ∧
      p.jobs = workersOf w.args os ∧
      ∀ final, Ends w.filters fs p.jobs lines final → final.main = .done ∧
        ∃ out, p.output w final = .ok out ∧ CountsOf su (inputTexts w.filters fs lines) (AllStats.combine su.fresh out) := by
  obtain ⟨x, hx1⟩ := loadFirst_shipped hd
  obtain ⟨su, layers, h1, h2, h3⟩ := worker_shipped hd hs hx1
  have hp := write_plan hu hos hl hf (by rw [hk]; exact shipped_means hs hx1)
  refine ⟨_, su, x, hp, h1, hx1, h3, rfl, ?_⟩
  rintro final ⟨r1, r2⟩
  rw [← fails_eq h2] at r1 r2
  obtain ⟨b1, b2⟩ := C117_returns su layers h2 ⟨lines, w.filters.extract fs, workersOf w.args os, final⟩ hj hx r1 r2
  obtain ⟨f, ts, c1, _, c2, _, c3⟩ := built_counts h2 b1
  simp only [CorpusRun.pickle, bind_ok_iff, Except.ok.injEq] at c1
  obtain ⟨out, c4, rfl⟩ := c1
  refine ⟨b2, out, ?_, countsOf_perm c2 (c3 hj b2)⟩
  rw [output_eq h1]
  simp only [hb, Option.isSome_none, Bool.false_eq_true, if_false]
  exact c4

/-- **C133** (`--benchmark`): the same command with this option ends as well, and what is written has no counts. -/
theorem C133_benchmark (w : WriteWorld) (hu : PlainNum w.args.uni) (d : Disk) (os : List WriteOpt) (hos : ∀ o ∈ os, o.Good)
    (hb : lastOf WriteOpt.benchmark? os = some ()) (hk : writeKeyboard os = "ibmpc105".toList) (hj : 0 < workersOf w.args os) (l : Text)
    (hl : PlainWord l) (ld : LayoutData) (hd : ld ∈ Data.layouts) (hs : Shipped w.toLoadWorld d l ld) (names : List String)
    (fs : List FilterName) (hf : filterSel names = some fs) (lines : List Text)
    (hx : ∀ line ∈ lines, (w.filters.extract fs line).error = none) (ht : inputTexts w.filters fs lines ≠ []) :
    ∃ p su, writeStart w d (writeWords os l names) = .ok (.ok p) ∧ p.setup = .ok su ∧
      ∀ final, Ends w.filters fs p.jobs lines final → final.main = .done ∧
        ∃ n, 0 < n ∧ n ≤ workersOf w.args os ∧ p.output w final = .ok (List.replicate n su.fresh) ∧
          AllStats.combine su.fresh (List.replicate n su.fresh) = su.fresh ∧ Fresh su.fresh := by
  obtain ⟨x, hx1⟩ := loadFirst_shipped hd
  obtain ⟨su, layers, h1, h2, h3⟩ := worker_shipped hd hs hx1
  have hp := write_plan hu hos hl hf (by rw [hk]; exact shipped_means hs hx1)
  refine ⟨_, su, hp, h1, ?_⟩
  rintro final ⟨r1, r2⟩
  have b2 := C26_no_deadlock (workersOf w.args os) hj lines _ (fun y hy hn => hn (hx y hy)) final r1 r2
  obtain ⟨n, n1, n2, n3⟩ := C131_false su.fresh ⟨lines, w.filters.extract fs, workersOf w.args os, final⟩ hj hx (by
    by_contra hc
    push Not at hc
    exact ht (List.flatMap_eq_nil_iff.2 hc)) r1 b2
  refine ⟨b2, n, n1, n2, ?_, (C131_nothing_partial su.fresh h2.fresh [] (by simp) n).1, h2.fresh⟩
  rw [output_eq h1]
  simp only [hb, Option.isSome_some, if_true]
  exact n3

/-! ### No workers -/

/-- The states without workers. -/
structure NoWorkers {ι : Type} (s : Pool ι) : Prop where
  workers : s.workers = []
  outq : s.outq = []
  results : s.results = []
  main : s.main = .done ∨ s.main = .stopPut 0 ∨ (∃ xs, s.main = .feeding xs) ∨ ∃ xs, s.main = .checking xs

theorem noWorkers_step {ι : Type} {fails : ι → Prop} {s t : Pool ι} (h : NoWorkers s) (hs : Pool.Step 0 fails False False s t) :
    NoWorkers t := by
  obtain ⟨h1, h2, h3, h4⟩ := h
  cases hs <;> simp_all <;> exact ⟨by simp_all, by simp_all, by simp_all, by simp_all⟩

theorem noWorkers_reachable {ι : Type} {fails : ι → Prop} {lines : List ι} {s : Pool ι} (h : PoolReachable 0 lines fails False False s) :
    NoWorkers s := by
  obtain ⟨n, h⟩ := h
  generalize hi : Pool.init 0 lines = i at h
  induction h with
  | refl => subst hi; exact ⟨rfl, rfl, rfl, .inr (.inr (.inl ⟨_, rfl⟩))⟩
  | tail _ h2 ih => exact noWorkers_step (ih hi) h2

theorem noWorkers_stuck {ι : Type} {fails : ι → Prop} {s : Pool ι} (h : NoWorkers s) (hs : Stuck 0 fails False False s) :
    s.main = .done := by
  obtain ⟨m, inq, outq, ws, rs⟩ := s
  obtain ⟨h1, h2, h3, h4⟩ := h
  rcases h4 with h | h | ⟨xs, h⟩ | ⟨xs, h⟩
  · exact h
  · dsimp only at h; subst h
    exact absurd .finish (hs _)
  · dsimp only at h; subst h
    cases xs with
    | nil => exact absurd .feedEnd (hs _)
    | cons x xs => exact absurd (.feed (.inl rfl)) (hs _)
  · dsimp only at h; subst h
    exact absurd .checkEmpty (hs _)

/-- **C133** is false as a user expects it: with `-j 0` standard input is read to its end, whatever the filters would make of it, and
`write` returns as usual, but nothing is written: there is no worker, and nobody complains. -/
theorem C133_false (w : WriteWorld) (hu : PlainNum w.args.uni) (d : Disk) (os : List WriteOpt) (hos : ∀ o ∈ os, o.Good)
    (hj : lastOf WriteOpt.jobs? os = some 0) (l : Text) (hl : PlainWord l) (x : InternTable × PhysicalKeyboard × KeyboardLayout)
    (hx : Means w.toLoadWorld d (writeKeyboard os) l x) (names : List String) (fs : List FilterName) (hf : filterSel names = some fs)
    (lines : List Text) :
    ∃ p, writeStart w d (writeWords os l names) = .ok (.ok p) ∧
      ∀ final, Ends w.filters fs p.jobs lines final → final.main = .done ∧ p.output w final = .ok [] := by
  have h0 : workersOf w.args os = 0 := by simp [workersOf, hj]
  have hp := write_plan hu hos hl hf hx
  rw [h0] at hp
  refine ⟨_, hp, ?_⟩
  rintro final ⟨r1, r2⟩
  have h1 := noWorkers_reachable r1
  exact ⟨noWorkers_stuck h1 r2, by simp [WritePlan.output, h1.results]⟩

/-- **C133** (what is missing then): `lulua-analyze combine` makes statistics of it which are not those of the input, if anything in
it can be typed. -/
theorem C133_false_counts (su : Setup) (hfr : Fresh su.fresh) (texts : List Text) (h : ∃ t ∈ texts, presses (typedFor su t) ≠ []) :
    ¬ CountsOf su texts (AllStats.combine su.fresh []) := by
  intro hc
  obtain ⟨t, ht, hp⟩ := h
  obtain ⟨c, hc1⟩ := List.exists_mem_of_ne_nil _ hp
  have h1 := hc.combinations c
  have h2 : (AllStats.combine su.fresh []).simple.combinations.count c = 0 := by
    simp [AllStats.combine, hfr.simple, SimpleStats.init, Dict.count]
  rw [h2] at h1
  have h3 := List.sum_eq_zero_iff.1 h1.symm ((presses (typedFor su t)).count c) (List.mem_map.2 ⟨t, ht, rfl⟩)
  exact absurd hc1 (List.count_eq_zero.1 h3)

/-! ### Mistakes -/

/-- **C133** (unknown names): a layout that cannot be found raises `KeyError` before anything is read. -/
theorem C133_unknown (w : WriteWorld) (hu : PlainNum w.args.uni) (d : Disk) (os : List WriteOpt) (hos : ∀ o ∈ os, o.Good) (l : Text)
    (hl : PlainWord l) (names : List String) (fs : List FilterName) (hf : filterSel names = some fs)
    (h : Unknown w.resource d "data/keyboards" (writeKeyboard os) ∨ (∃ kt kd r, Found w.resource d "data/keyboards" (writeKeyboard os) kt ∧
      w.keyboard kt = .ok kd ∧ PhysicalKeyboard.deserialize w.table kd = .ok r) ∧ Unknown w.resource d "data/layouts" l) :
    writeStart w d (writeWords os l names) = .ok (.error .keyError) := by
  obtain ⟨ns, h1, h2, h3, h4, h5, h6⟩ := write_attrs hu hos hl hf
  have h7 : loadNamed w.toLoadWorld d ns = .error .keyError := by
    rcases h with h | ⟨⟨kt, kd, r, a1, a2, a3⟩, h⟩
    · have := getitem_unknown (l := keyboardLoader w.toLoadWorld d) rfl rfl h
      simp only [loadNamed, byArg, h3, this, bind, Except.bind]
    · have b1 : (keyboardLoader w.toLoadWorld d).getitem "data/keyboards" (String.ofList (writeKeyboard os)) false = .ok (r.1, r.2.1) :=
        getitem_found (l := keyboardLoader w.toLoadWorld d) rfl rfl a1 a2 (by simp [keyboardLoader, a3, Except.map])
      have b2 := getitem_unknown (l := layoutLoader w.toLoadWorld d) rfl rfl h
      simp only [loadNamed, byArg, h3, h2, b1, b2, bind, Except.bind]
  simp only [writeStart, writePlan, h1, h7, bind, Except.bind]

/-! ### Cases meeting the hypotheses -/

def demoWriteWorld : WriteWorld where
  toLoadWorld := renderWorld.toLoadWorld
  filters := demoFilters []
  letter := fun _ => true

/-- Two lines, two workers. -/
example : ∃ p su, writeStart demoWriteWorld (fun _ => none) (writeWords [.jobs .short 2] "ar-lulua".toList ["lines"]) = .ok (.ok p) ∧
    p.setup = .ok su ∧ ∃ final out, p.output demoWriteWorld final = .ok out ∧
      CountsOf su ["ab".toList, "c".toList] (AllStats.combine su.fresh out) := by
  obtain ⟨p, su, x, h1, h2, h3, h4, h5, h6⟩ := C133_counts_partial demoWriteWorld argWorld_plain (fun _ => none) [.jobs .short 2]
    (by simp [WriteOpt.Good]) rfl rfl (by simp [workersOf, lastOf, WriteOpt.jobs?]) "ar-lulua".toList (by simp [PlainWord]) Data.arLulua
    (by simp [Data.layouts]) renderWorld_shipped ["lines"] [.lines] (by decide) ["ab".toList, "c".toList] (fun _ _ => rfl)
  obtain ⟨final, h7, _⟩ := C133_ends demoWriteWorld.filters [.lines] p.jobs ["ab".toList, "c".toList] _ 0 (.refl _)
  obtain ⟨_, out, h8, h9⟩ := h6 final h7
  exact ⟨p, su, h1, h2, final, out, h8, h9⟩

/-- The same without workers, and as a benchmark. -/
example : ∃ p, writeStart demoWriteWorld (fun _ => none) (writeWords [.jobs .short 0] "ar-lulua".toList ["lines"]) = .ok (.ok p) ∧
    ∃ final, Ends demoWriteWorld.filters [.lines] p.jobs ["ab".toList, "c".toList] final ∧ p.output demoWriteWorld final = .ok [] := by
  obtain ⟨x, hx⟩ := loadFirst_shipped (ld := Data.arLulua) (by simp [Data.layouts])
  obtain ⟨p, h1, h2⟩ := C133_false demoWriteWorld argWorld_plain (fun _ => none) [.jobs .short 0]
    (by simp [WriteOpt.Good]) rfl "ar-lulua".toList (by simp [PlainWord]) x (shipped_means renderWorld_shipped hx) ["lines"] [.lines] (by decide)
    ["ab".toList, "c".toList]
  obtain ⟨final, h7, _⟩ := C133_ends demoWriteWorld.filters [.lines] p.jobs ["ab".toList, "c".toList] _ 0 (.refl _)
  exact ⟨p, h1, final, h7, (h2 final h7).2⟩

example : ∃ p, writeStart demoWriteWorld (fun _ => none) (writeWords [.benchmark, .jobs .long 3] "ar-lulua".toList ["lines"]) = .ok (.ok p) ∧
    ∃ final out, Ends demoWriteWorld.filters [.lines] p.jobs ["ab".toList] final ∧ p.output demoWriteWorld final = .ok out ∧ out ≠ [] := by
  obtain ⟨p, su, h1, h2, h6⟩ := C133_benchmark demoWriteWorld argWorld_plain (fun _ => none) [.benchmark, .jobs .long 3]
    (by simp [WriteOpt.Good]) rfl rfl (show 0 < 3 by decide) "ar-lulua".toList (by simp [PlainWord]) Data.arLulua
    (by simp [Data.layouts]) renderWorld_shipped ["lines"] [.lines] (by decide) ["ab".toList] (fun _ _ => rfl) (List.cons_ne_nil "ab".toList [])
  obtain ⟨final, h7, _⟩ := C133_ends demoWriteWorld.filters [.lines] p.jobs ["ab".toList] _ 0 (.refl _)
  obtain ⟨_, n, h8, _, h9, _⟩ := h6 final h7
  refine ⟨p, h1, final, _, h7, h9, ?_⟩
  intro h
  rw [List.replicate_eq_nil_iff] at h
  omega

example : writeStart demoWriteWorld (fun _ => none) (writeWords [] "x".toList ["lines"]) = .ok (.error .keyError) := by
  obtain ⟨x, hx⟩ := loadFirst_shipped (ld := Data.arLulua) (by simp [Data.layouts])
  obtain ⟨kt, lt, kd, ld, kd', b1, b2, b3, -⟩ := shipped_means renderWorld_shipped hx
  exact C133_unknown demoWriteWorld argWorld_plain _ [] (by simp) _ (by simp [PlainWord]) ["lines"] [.lines] (by decide)
    (.inr ⟨⟨kt, kd, _, b1, b2, b3⟩, rfl, by decide +kernel, by decide +kernel⟩)

/-- A text with a press. -/
example : presses (typedFor demoSetup ['a']) ≠ [] := by decide +kernel

end Lulua.Props
