import Verif.Proofs.Benchmark
import Verif.Props.Pipeline

/-!
# C131: `lulua-write --benchmark`
-/

namespace Lulua.Props
open Lulua Spec

/-- **C131** (one worker): the exception is that of the first item whose filters raise one. If there is none, the result are statistics
without any count if there is a text, and nothing otherwise. -/
theorem C131_worker {ι : Type} (fresh : AllStats) (extract : ι → Gen Text) (items : List ι) :
    (∀ e, benchWorker fresh extract items = .error e ↔
      ∃ a i b, items = a ++ i :: b ∧ (∀ j ∈ a, (extract j).error = none) ∧ (extract i).error = some e) ∧
    ((∀ i ∈ items, (extract i).error = none) → (∃ i ∈ items, (extract i).items ≠ []) →
      benchWorker fresh extract items = .ok (some fresh)) ∧
    ((∀ i ∈ items, (extract i).error = none) → (∀ i ∈ items, (extract i).items = []) →
      benchWorker fresh extract items = .ok none) := by
  rw [benchWorker_eq]
  refine ⟨fun e => ?_, fun h1 h2 => ?_, fun h1 h2 => ?_⟩
  · have : firstError extract items = some e ↔
        ∃ a i b, items = a ++ i :: b ∧ (∀ j ∈ a, (extract j).error = none) ∧ (extract i).error = some e := by
      unfold firstError
      rw [List.findSome?_eq_some_iff]
      constructor
      · rintro ⟨a, i, b, h1, h2, h3⟩; exact ⟨a, i, b, h1, h3, h2⟩
      · rintro ⟨a, i, b, h1, h2, h3⟩; exact ⟨a, i, b, h1, h3, h2⟩
    rw [← this]
    cases firstError extract items <;> simp
  · rw [firstError_none.2 h1]
    obtain ⟨i, hi, hx⟩ := h2
    have : textsOf extract items ≠ [] := by
      intro h
      exact hx (List.flatMap_eq_nil_iff.1 h i hi)
    simp [this]
  · rw [firstError_none.2 h1]
    simp [show textsOf extract items = [] from List.flatMap_eq_nil_iff.2 h2]

/-- **C131** is false as the help says it, “Benchmark filter, no stats”: whenever a line has a text, every execution that returns
writes statistics, at least once and at most once for each worker. -/
theorem C131_false (fresh : AllStats) (r : CorpusRun) (hj : 0 < r.jobs) (hx : ∀ l ∈ r.lines, (r.extract l).error = none)
    (ht : ∃ l ∈ r.lines, (r.extract l).items ≠ [])
    (hr : PoolReachable r.jobs r.lines (fun l => (r.extract l).error ≠ none) False False r.final) (hd : r.final.main = .done) :
    ∃ n, 0 < n ∧ n ≤ r.jobs ∧ r.benchOutput fresh = .ok (List.replicate n fresh) := by
  obtain ⟨h1, h2, _⟩ := C26_exactly_once r.jobs hj r.lines _ r.final hr hd
  obtain ⟨os, h3, h4⟩ := benchOutputs (fresh := fresh) (extract := r.extract) (ps := r.final.results)
    fun p hp i hi => hx i (h1.mem_iff.1 (List.mem_flatten.2 ⟨p, hp, hi⟩))
  refine ⟨r.final.results.countP fun p => !(textsOf r.extract p).isEmpty, ?_, h2 ▸ List.countP_le_length,
    by simp only [CorpusRun.benchOutput, h3, bind, Except.bind, h4]⟩
  obtain ⟨l, hl, hl2⟩ := ht
  obtain ⟨p, hp, hlp⟩ := List.mem_flatten.1 (h1.mem_iff.2 hl)
  refine List.countP_pos_iff.2 ⟨p, hp, ?_⟩
  have : textsOf r.extract p ≠ [] := fun h => hl2 (List.flatMap_eq_nil_iff.1 h l hlp)
  simpa using this

/-- **C131** (partial: statistics are written, but): they have no count at all, so `lulua-analyze combine` makes of them what it makes
of no file, and adding them to other files changes nothing. -/
theorem C131_nothing_partial (fresh : AllStats) (hf : Fresh fresh) (files : List AllStats) (ho : ∀ f ∈ files, StatsOk f) (n : Nat) :
    AllStats.combine fresh (List.replicate n fresh) = fresh ∧
    AllStats.combine fresh (files ++ List.replicate n fresh) = AllStats.combine fresh files := by
  refine ⟨combine_fresh hf (statsOk_fresh hf) n, ?_⟩
  unfold AllStats.combine
  rw [List.foldl_append]
  exact combine_fresh hf (combine_sem hf ho).1 n

/-- **C131** (same failures): with a layout every text can be typed with a worker fails exactly if it does without `--benchmark`, and
with the same exception; so a benchmark that returns shows that the filters can read the corpus. -/
theorem C131_failures {ι : Type} (su : Setup) (layers : List Layer) (hu : Usable su layers) (extract : ι → Gen Text) (items : List ι)
    (e : PyErr) : benchWorker su.fresh extract items = .error e ↔ writeWorker su extract items = .error e := by
  have hall : ∀ t, TextOk su t := fun t => by
    obtain ⟨r, hr, _⟩ := textStats_counts hu t
    exact ⟨r, hr⟩
  rw [benchWorker_eq]
  have := workItems_error_iff hall extract items ⟨su.fresh, 0⟩ e
  have h2 : writeWorker su extract items = .error e ↔ workItems su extract items ⟨su.fresh, 0⟩ = .error e := by
    unfold writeWorker
    cases workItems su extract items ⟨su.fresh, 0⟩ <;> simp [bind, Except.bind]
  rw [h2, this]
  cases firstError extract items <;> simp

/-- **C131** (same results): and it puts statistics into the queue exactly if it does without. -/
theorem C131_results {ι : Type} (su : Setup) (layers : List Layer) (hu : Usable su layers) (extract : ι → Gen Text) (items : List ι) :
    benchWorker su.fresh extract items = .ok none ↔ writeWorker su extract items = .ok none := by
  have hall : ∀ t, TextOk su t := fun t => by
    obtain ⟨r, hr, _⟩ := textStats_counts hu t
    exact ⟨r, hr⟩
  rw [benchWorker_eq]
  cases h : firstError extract items with
  | some e =>
    have := (workItems_error_iff hall extract items ⟨su.fresh, 0⟩ e).2 h
    simp [writeWorker, this, bind, Except.bind]
  | none =>
    have h1 := firstError_none.1 h
    obtain ⟨rs, _, h3⟩ := workItems_ok su extract items ⟨su.fresh, 0⟩ fun i hi => ⟨h1 i hi, fun t _ => hall t⟩
    simp only [writeWorker, h3, bind, Except.bind, Nat.zero_add]
    cases textsOf extract items <;> simp

/-- **C131** (analysis): `lulua-analyze layoutstats` raises an exception for what was written, whatever the layout. -/
theorem C131_analysis (hf : HandFinger) (L : KeyboardLayout) (fresh : AllStats) (h : Fresh fresh) :
    ∃ e, layoutstats hf L fresh.simple = .error e := by
  rw [h.simple]
  have : ∃ e, hamzaStats L [] = .error e := by
    unfold hamzaStats
    cases hamzaLoop L [] ([alef] :: letterWithHamza) [] with
    | error e => exact ⟨e, rfl⟩
    | ok g => exact ⟨.zeroDivision, rfl⟩
  obtain ⟨e, he⟩ := this
  unfold layoutstats
  simp only [SimpleStats.init, he, bind, Except.bind]
  cases layoutHandStats hf [] <;> simp

/-! ### Cases meeting the hypotheses -/

example : benchWorker demoFresh demoExtract [["aabA ab"], [], ["x", "ab "]] = .ok (some demoFresh) :=
  (C131_worker _ _ _).2.1 (by decide) ⟨["aabA ab"], by simp, by decide⟩

example : benchWorker demoFresh demoExtract [[], []] = .ok none := (C131_worker _ _ _).2.2 (by decide) (by decide)

/-- The filter raises an exception after a text. -/
example : benchWorker demoFresh (fun b : Bool => ⟨["ab ".toList], if b then some .valueError else none⟩) [false, true, false] =
    .error .valueError :=
  ((C131_worker _ _ _).1 _).2 ⟨[false], true, [false], rfl, by decide, rfl⟩

/-- A run with one worker and one line. -/
def benchRun : CorpusRun :=
  ⟨["ab ".toList], fun l => ⟨[l], none⟩, 1, ⟨.done, [], [], [.exited], [["ab ".toList]]⟩⟩

example : Fresh demoFresh ∧ 0 < benchRun.jobs ∧ (∀ l ∈ benchRun.lines, (benchRun.extract l).error = none) ∧
    (∃ l ∈ benchRun.lines, (benchRun.extract l).items ≠ []) ∧ benchRun.final.main = .done ∧
    benchRun.benchOutput demoFresh = .ok [demoFresh] :=
  ⟨⟨rfl, rfl, rfl, rfl⟩, by decide, by decide, ⟨"ab ".toList, by decide, by decide⟩, rfl, rfl⟩

/-- The run can happen. -/
example : PoolReachable benchRun.jobs benchRun.lines (fun l => (benchRun.extract l).error ≠ none) False False benchRun.final := by
  have s0 := Pool.Steps.refl (jobs := 1) (fails := fun l => (benchRun.extract l).error ≠ none) (ints := False) (kills := False)
    (Pool.init 1 ["ab ".toList])
  have s1 := s0.tail (.feed (.inr (by simp)))
  have s2 := s1.tail .checkEmpty
  have s3 := s2.tail (.take (a := []) (b := []))
  have s4 := s3.tail (.work (a := []) (b := []) (by simp [benchRun]))
  have s5 := s4.tail .feedEnd
  have s6 := s5.tail (.putNone (.inr (by simp)))
  have s7 := s6.tail (.takeNone (a := []) (b := []))
  have s8 := s7.tail (.putResult (a := []) (b := []) (by simp))
  have s9 := s8.tail .getOk
  exact ⟨_, s9.tail .finish⟩

end Lulua.Props
