import Verif.Model.Benchmark
import Verif.Proofs.Pipeline

/-!
# Proofs about `lulua-write --benchmark`
-/

namespace Lulua
open Spec

variable {ι : Type}

/-- The exception of the first item whose filters raise one. -/
def firstError (extract : ι → Gen Text) (items : List ι) : Option PyErr := items.findSome? fun i => (extract i).error

theorem benchItems_eq (extract : ι → Gen Text) (items : List ι) (n : Nat) :
    benchItems extract items n = match firstError extract items with
      | some e => .error e
      | none => .ok (n + (textsOf extract items).length) := by
  induction items generalizing n with
  | nil => rfl
  | cons i items ih =>
    cases h : (extract i).error with
    | some e => simp [benchItems, benchItem, firstError, h, bind, Except.bind]
    | none =>
      have : benchItems extract (i :: items) n = benchItems extract items (n + (extract i).items.length) := by
        simp [benchItems, benchItem, h, bind, Except.bind]
      rw [this, ih, show firstError extract (i :: items) = firstError extract items by simp [firstError, h]]
      cases firstError extract items with
      | some e => rfl
      | none => simp [textsOf, Nat.add_assoc]

theorem benchWorker_eq (fresh : AllStats) (extract : ι → Gen Text) (items : List ι) :
    benchWorker fresh extract items = match firstError extract items with
      | some e => .error e
      | none => .ok (if textsOf extract items = [] then none else some fresh) := by
  unfold benchWorker
  rw [benchItems_eq]
  cases firstError extract items with
  | some e => rfl
  | none =>
    simp only [bind, Except.bind, Nat.zero_add]
    cases textsOf extract items <;> simp

theorem firstError_none {extract : ι → Gen Text} {items : List ι} :
    firstError extract items = none ↔ ∀ i ∈ items, (extract i).error = none := by
  simp [firstError]

/-- With a layout every text can be typed with, the worker fails like that of the benchmark. -/
theorem workItems_error_iff {su : Setup} (hall : ∀ t, TextOk su t) (extract : ι → Gen Text) (items : List ι)
    (s : WorkState) (e : PyErr) : workItems su extract items s = .error e ↔ firstError extract items = some e := by
  induction items generalizing s with
  | nil => simp [workItems, firstError]
  | cons i items ih =>
    obtain ⟨rs, _, h2⟩ := workTexts_ok su (extract i).items s fun t _ => hall t
    cases h : (extract i).error with
    | some e' => simp [workItems, workItem, h2, h, bind, Except.bind, firstError]
    | none =>
      simp only [workItems, workItem, h2, h, bind, Except.bind]
      rw [ih]
      simp [firstError, h]

/-- Merging statistics without counts changes nothing. -/
theorem update_fresh {s o : AllStats} (hs : StatsOk s) (ho : Fresh o) : s.update o = s := by
  have h1 : s.simple.update o.simple = s.simple := by rw [ho.simple]; rfl
  have h2 : s.triads.update o.triads = s.triads := by simp [TriadStats.update, ho.triads, updateCounts]
  have h3 : s.words.update o.words = s.words := by rw [ho.words]; rfl
  have h4 : s.runlen.update o.runlen = s.runlen := by
    rw [ho.runlen]
    obtain ⟨l, hl⟩ := Option.isSome_iff_exists.1 (hs.hands .left)
    obtain ⟨r, hr⟩ := Option.isSome_iff_exists.1 (hs.hands .right)
    have : updateNested s.runlen.perHand (RunlenStats.init).perHand = s.runlen.perHand := by
      simp [RunlenStats.init, Direction.all, updateNested, hl, hr, updateCounts, Dict.set_get]
    simp [RunlenStats.update, this]
  unfold AllStats.update
  rw [h1, h2, h3, h4]

theorem combine_fresh {fresh : AllStats} (hf : Fresh fresh) {s : AllStats} (hs : StatsOk s) (n : Nat) :
    (List.replicate n fresh).foldl AllStats.update s = s := by
  induction n with
  | zero => rfl
  | succ n ih => rw [List.replicate_succ, List.foldl_cons, update_fresh hs hf, ih]

/-- What all workers write. -/
theorem benchOutputs {fresh : AllStats} {extract : ι → Gen Text} {ps : List (List ι)}
    (h : ∀ p ∈ ps, ∀ i ∈ p, (extract i).error = none) :
    ∃ os, ps.mapM (benchWorker fresh extract) = .ok os ∧
      os.filterMap id = List.replicate (ps.countP fun p => !(textsOf extract p).isEmpty) fresh := by
  induction ps with
  | nil => exact ⟨[], rfl, rfl⟩
  | cons p ps ih =>
    obtain ⟨os, h1, h2⟩ := ih fun q hq => h q (by simp [hq])
    have hp := benchWorker_eq fresh extract p
    rw [firstError_none.2 (h p (by simp))] at hp
    refine ⟨_, by rw [List.mapM_cons, hp, h1]; rfl, ?_⟩
    rw [List.filterMap_cons, List.countP_cons]
    by_cases hx : textsOf extract p = []
    · simpa [hx] using h2
    · simpa [hx, List.replicate_succ] using h2

end Lulua
