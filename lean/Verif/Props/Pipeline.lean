import Verif.Proofs.Pipeline
import Verif.Props.Analyze

/-!
# C117: the statistics the report is based on
-/

namespace Lulua.Props
open Lulua Spec

/-! ### Setups every text can be typed with -/

/-- The setup of `lulua-write` for a shipped layout. -/
def shippedSetup (letter : Char → Bool) (t : InternTable) (L : KeyboardLayout) (fresh : AllStats) : Setup :=
  ⟨getHandFinger Data.fingermap t, letter, L, fresh⟩

/-- A shipped layout as it is loaded. -/
theorem shipped_setup (letter : Char → Bool) {t : InternTable} {kb : PhysicalKeyboard} (h2 : LoadedAs t kb Data.ibmpc105)
    (d : LayoutData) (hd : d ∈ Data.layouts) (L : KeyboardLayout)
    (hL : (GenericLayout.deserialize d).specialize t kb = .ok L) :
    ∃ s0 ls, AllStats.init t kb = .ok ⟨.init, .init, s0, .init⟩ ∧ TriadStats.init t kb = .ok s0 ∧
      L = KeyboardLayout.mk' d.name ls kb ∧ SpecializedAs t kb (boardNames Data.ibmpc105) d ls ∧
      Usable (shippedSetup letter t L ⟨.init, .init, s0, .init⟩) ls := by
  have hg := shipped_good d hd
  obtain ⟨ls, h3, h4⟩ := load_layout h2 hg
  rw [hL] at h3
  simp only [Except.ok.injEq] at h3
  subst h3
  obtain ⟨s0, hs0⟩ : ∃ s0, TriadStats.init t kb = .ok s0 := by
    unfold TriadStats.init
    rcases findAll_iff h2.named TriadStats.ignoredNames with ⟨⟨bs, h1⟩, _⟩ | ⟨_, n, h5, h6⟩
    · simp only [h1, bind, Except.bind]; exact ⟨_, rfl⟩
    · have hall : ∀ n ∈ TriadStats.ignoredNames, n ∈ boardNames Data.ibmpc105 := by decide +kernel
      exact absurd ((h2.mem n).1 (hall n h5)) h6
  have hi : AllStats.init t kb = .ok ⟨.init, .init, s0, .init⟩ := by
    simp only [AllStats.init, hs0, bind, Except.bind]
  refine ⟨_, ls, hi, hs0, rfl, h4, ⟨_, _, rfl⟩, h4.fingered hg shipped_fingers, ?_, h4.unambiguous hg (fun n hn => h2.called hn), h4.wf,
    h4.reachable hg, h4.noEmptyText hg, fresh_init hi, (C18_ignored t kb s0 hs0).1⟩
  intro b e he
  simp only [shippedSetup, getHandFinger, bind, Except.bind, InternTable.nameOf, Dict.getItem] at he
  cases h5 : t.idToName.get? b with
  | none => simp only [h5, Except.error.injEq] at he; exact he.symm
  | some n =>
    simp only [h5] at he
    cases h6 : Data.fingermap.get? n with
    | none => simp only [h6, Except.error.injEq] at he; exact he.symm
    | some p => simp [h6] at he

/-- **C117** (layouts): the statistics of a shipped layout can be created, and every text can be typed with it. -/
theorem C117_shipped_usable (letter : Char → Bool) (names : List String) (t : InternTable) (kb : PhysicalKeyboard)
    (d' : KeyboardData) (hk : PhysicalKeyboard.deserialize (tableAfter names) Data.ibmpc105 = .ok (t, kb, d'))
    (d : LayoutData) (hd : d ∈ Data.layouts) (L : KeyboardLayout)
    (hL : (GenericLayout.deserialize d).specialize t kb = .ok L) :
    ∃ fresh layers, AllStats.init t kb = .ok fresh ∧ Usable (shippedSetup letter t L fresh) layers := by
  obtain ⟨_, ls, h1, _, _, _, h2⟩ := shipped_setup letter (shipped_loaded hk) d hd L hL
  exact ⟨_, ls, h1, h2⟩

/-- **C117** (failures): with such a layout a line fails only because of its filters. -/
theorem C117_only_filters_fail (su : Setup) (layers : List Layer) (hu : Usable su layers) (extract : Text → Gen Text)
    (l : Text) : ItemOk su extract l ↔ (extract l).error = none := by
  refine ⟨fun h => h.1, fun h => ⟨h, fun t _ => ?_⟩⟩
  obtain ⟨r, hr, _⟩ := textStats_counts hu t
  exact ⟨r, hr⟩

/-! ### What is counted -/

/-- **C117** (partial: if no `lulua-write` fails): `all.pickle` exists and its counts are those of typing every text of
every corpus once, each on its own, whatever the number of workers and the schedule. -/
theorem C117_counts_partial (su : Setup) (layers : List Layer) (hu : Usable su layers) (runs : List CorpusRun)
    (hb : ∀ r ∈ runs, Built su r) (hd : ∀ r ∈ runs, 0 < r.jobs ∧ r.final.main = .done) :
    ∃ f, allPickle su runs = .ok f ∧ CountsOf su (runs.flatMap corpusTexts) f := by
  obtain ⟨files, tss, h1, h2, h3⟩ := all_built_counts hu hb
  refine ⟨_, by simp only [allPickle, h1, bind, Except.bind], countsOf_perm (countsOf_combine hu.fresh h2).2 ?_⟩
  clear h1 h2 hb files
  induction h3 with
  | nil => exact .refl _
  | @cons ts r tss runs h _ ih =>
    rw [List.flatten_cons, List.flatMap_cons]
    have := hd r (by simp)
    exact (h.2 this.1 this.2).append (ih fun x hx => hd x (by simp [hx]))

/-- **C117** (running): if no filter fails, `lulua-write` returns, whatever the schedule. -/
theorem C117_returns (su : Setup) (layers : List Layer) (hu : Usable su layers) (r : CorpusRun) (hj : 0 < r.jobs)
    (hx : ∀ l ∈ r.lines, (r.extract l).error = none)
    (hr : PoolReachable r.jobs r.lines (fun l => ¬ ItemOk su r.extract l) False False r.final)
    (hs : Stuck r.jobs (fun l => ¬ ItemOk su r.extract l) False False r.final) :
    Built su r ∧ r.final.main = .done := by
  have := C26_no_deadlock r.jobs hj r.lines _
    (fun x hx' hn => hn ((C117_only_filters_fail su layers hu r.extract x).2 (hx x hx'))) r.final hr hs
  exact ⟨⟨hr, .inl this⟩, this⟩

/-- **C117** is false as a user expects it: if the first line of a corpus cannot be read, then with any number of workers
there is an execution after which the file of the corpus exists but has no statistics at all, and is used for
`all.pickle`: the failure of `lulua-write` in a pipeline is not noticed. -/
theorem C117_false (su : Setup) (extract : Text → Gen Text) (jobs : Nat) (hj : 0 < jobs) (bad : Text) (rest : List Text)
    (hbad : ¬ ItemOk su extract bad) :
    ∃ final, Built su ⟨bad :: rest, extract, jobs, final⟩ ∧
      CorpusRun.pickle su ⟨bad :: rest, extract, jobs, final⟩ = .ok su.fresh := by
  obtain ⟨j, rfl⟩ : ∃ j, jobs = j + 1 := ⟨jobs - 1, by omega⟩
  refine ⟨⟨.raised bad, [none], [], .exited :: List.replicate j (.idle []), []⟩, ⟨⟨7, ?_⟩, .inr (.inl ⟨bad, rfl⟩)⟩, rfl⟩
  have s0 := Pool.Steps.refl (jobs := j + 1) (fails := fun l => ¬ ItemOk su extract l) (ints := False) (kills := False)
    (Pool.init (j + 1) (bad :: rest))
  have s1 := s0.tail (.feed (.inr (by simp)))
  have s2 := s1.tail (.take (a := []) (b := List.replicate j (.idle [])))
  have s3 := s2.tail (.fail (a := []) (b := List.replicate j (.idle [])) hbad)
  have s4 := s3.tail (.putResult (a := []) (b := List.replicate j (.idle [])) (by simp))
  have s5 := s4.tail (.checkFull (by simp))
  have s6 := s5.tail (.putNone (.inr (by simp)))
  exact s6.tail .getExc

/-- **C117** (what holds in any case): no count of `all.pickle` is larger than that of typing every text once. -/
theorem C117_at_most (su : Setup) (layers : List Layer) (hu : Usable su layers) (runs : List CorpusRun)
    (hb : ∀ r ∈ runs, Built su r) :
    ∃ f, allPickle su runs = .ok f ∧ AtMost su (runs.flatMap corpusTexts) f := by
  obtain ⟨files, tss, h1, h2, h3⟩ := all_built_counts hu hb
  refine ⟨_, by simp only [allPickle, h1, bind, Except.bind], countsOf_atMost (countsOf_combine hu.fresh h2).2 ?_⟩
  rw [List.flatMap_def]
  apply subperm_flatten
  rw [List.forall₂_map_right_iff]
  exact h3.imp fun _ _ h => h.1

/-! ### The totals of the report -/

theorem countsOf_totals {su : Setup} {ts : List Text} {s : AllStats} (hok : StatsOk s) (h : CountsOf su ts s) :
    corpusTotals s = ((ts.map fun t => (presses (typedFor su t)).length).sum,
      (ts.map fun t => ((stretches (typedFor su t)).flatMap fun x => delimitedWords su.letter (eventsText x)).length).sum) := by
  unfold corpusTotals
  rw [sum_values_eq hok.combinations (M := ts.flatMap fun t => presses (typedFor su t))
      (fun c => by rw [h.combinations, sum_flatMap_count]),
    sum_values_eq hok.words (M := ts.flatMap fun t => (stretches (typedFor su t)).flatMap fun x =>
      delimitedWords su.letter (eventsText x)) (fun c => by
        rw [h.words, sum_flatMap_count]
        congr 1
        apply List.map_congr_left
        intro t _
        rw [wordCount_eq]; congr!), List.length_flatMap, List.length_flatMap]

/-- **C117** (totals): the numbers of characters and words the report sums up over the corpora are those of `all.pickle`,
whether or not something failed. -/
theorem C117_totals (su : Setup) (layers : List Layer) (hu : Usable su layers) (runs : List CorpusRun)
    (hb : ∀ r ∈ runs, Built su r) :
    ∃ f, allPickle su runs = .ok f ∧ reportTotals su runs = .ok (corpusTotals f) := by
  obtain ⟨files, tss, h1, h2, _⟩ := all_built_counts hu hb
  refine ⟨AllStats.combine su.fresh files, by simp only [allPickle, h1, bind, Except.bind], ?_⟩
  obtain ⟨h3, h4⟩ := countsOf_combine hu.fresh h2
  have h5 := (C90_report_total ((files.map corpusTotals).map some)).1 (files.map corpusTotals) rfl
  simp only [List.map_map] at h5
  simp only [reportTotals, h1, bind, Except.bind]
  have e : (files.map fun f => some (corpusTotals f)) = files.map (some ∘ corpusTotals) := rfl
  rw [e, h5, countsOf_totals h3 h4]
  congr 1
  simp only [sum_map_flatten, Prod.mk.injEq]
  constructor
  · exact sum_forall2 h2 _ _ fun ts f hr => by rw [Function.comp, countsOf_totals hr.1 hr.2]
  · exact sum_forall2 h2 _ _ fun ts f hr => by rw [Function.comp, countsOf_totals hr.1 hr.2]

/-! ### Cases -/

theorem demo_usable : Usable demoSetup demoLayers where
  layout := ⟨_, _, rfl⟩
  fingered := demoFingered
  unknownButton := demoHf_keyError
  unambiguous := by
    intro i j hi hj m h1 h2
    simp only [demoLayers, List.length_cons, List.length_nil] at hi hj
    have : i = 0 ∨ i = 1 := by omega
    have : j = 0 ∨ j = 1 := by omega
    rcases ‹i = 0 ∨ i = 1› with rfl | rfl <;> rcases ‹j = 0 ∨ j = 1› with rfl | rfl <;>
      simp_all [demoLayers]
  dicts := by
    intro l hl
    simp only [demoLayers, List.mem_cons, List.not_mem_nil, or_false] at hl
    rcases hl with rfl | rfl <;> decide
  reachable := by
    intro l hl
    simp only [demoLayers, List.mem_cons, List.not_mem_nil, or_false] at hl
    rcases hl with rfl | rfl <;> simp
  noEmptyText := by
    rw [NoEmptyText, ← layersHit_iff]
    decide
  fresh := ⟨rfl, rfl, rfl, rfl⟩
  noTriad := rfl

/-- Lines name files, of which `x` does not exist. -/
def demoRead (l : Text) : Gen Text := if l = ['x'] then ⟨[], some .otherError⟩ else ⟨[l, ['a', ' ']], none⟩

/-- The two cases: one worker and a corpus of one line, read; and one of two lines, the first of which fails. -/
def demoRunOk : CorpusRun := ⟨[['a', 'b', ' ']], demoRead, 1, ⟨.done, [], [], [.exited], [[['a', 'b', ' ']]]⟩⟩
def demoRunBad : CorpusRun :=
  ⟨[['x'], ['a', 'b', ' ']], demoRead, 1, ⟨.raised ['x'], [none], [], [.exited], []⟩⟩

theorem demoRunOk_built : Built demoSetup demoRunOk := by
  have hok : ¬ ¬ ItemOk demoSetup demoRead ['a', 'b', ' '] :=
    not_not.2 ((C117_only_filters_fail _ _ demo_usable _ _).2 rfl)
  refine ⟨⟨10, ?_⟩, .inl rfl⟩
  have s0 := Pool.Steps.refl (jobs := 1) (fails := fun l => ¬ ItemOk demoSetup demoRead l) (ints := False) (kills := False)
    (Pool.init 1 [['a', 'b', ' ']])
  have s1 := s0.tail (.feed (.inr (by decide)))
  have s2 := s1.tail (.take (a := []) (b := []))
  have s3 := s2.tail .checkEmpty
  have s4 := s3.tail .feedEnd
  have s5 := s4.tail (.putNone (.inr (by decide)))
  have s6 := s5.tail (.work (a := []) (b := []) hok)
  have s7 := s6.tail (.takeNone (a := []) (b := []))
  have s8 := s7.tail (.putResult (a := []) (b := []) (by decide))
  have s9 := s8.tail .getOk
  exact s9.tail .finish

theorem demoRunBad_built : Built demoSetup demoRunBad := by
  have hbad : ¬ ItemOk demoSetup demoRead ['x'] := fun h => by simpa [demoRead] using h.1
  refine ⟨⟨7, ?_⟩, .inr (.inl ⟨_, rfl⟩)⟩
  have s0 := Pool.Steps.refl (jobs := 1) (fails := fun l => ¬ ItemOk demoSetup demoRead l) (ints := False) (kills := False)
    (Pool.init 1 [['x'], ['a', 'b', ' ']])
  have s1 := s0.tail (.feed (.inr (by decide)))
  have s2 := s1.tail (.take (a := []) (b := []))
  have s3 := s2.tail (.fail (a := []) (b := []) hbad)
  have s4 := s3.tail (.putResult (a := []) (b := []) (by decide))
  have s5 := s4.tail (.checkFull (by simp))
  have s6 := s5.tail (.putNone (.inr (by decide)))
  exact s6.tail .getExc

/-- **C117** is false as a user expects it: `all.pickle` exists, but its counts are not those of the corpus. -/
theorem C117_counts_false : ∃ (r : CorpusRun) (f : AllStats), Built demoSetup r ∧ allPickle demoSetup [r] = .ok f ∧
    ¬ CountsOf demoSetup (corpusTexts r) f := by
  refine ⟨demoRunBad, _, demoRunBad_built, rfl, fun h => ?_⟩
  have := h.combinations ⟨[], [1]⟩
  revert this
  decide +kernel

/-- Both corpora together: the second adds nothing although one of its lines has texts. -/
example : (allPickle demoSetup [demoRunOk, demoRunBad]).map (fun f => (f.simple.combinations.count ⟨[], [1]⟩, corpusTotals f)) =
      .ok (1, (4, 2)) ∧
    reportTotals demoSetup [demoRunOk, demoRunBad] = .ok (4, 2) ∧
    ((corpusTexts demoRunOk).map fun t => (presses (typedFor demoSetup t)).count ⟨[], [1]⟩).sum = 1 ∧
    ((corpusTexts demoRunBad).map fun t => (presses (typedFor demoSetup t)).count ⟨[], [1]⟩).sum = 1 := by decide +kernel

end Lulua.Props
