import Verif.Spec.Status
import Verif.Props.Pool

/-!
# C102: the progress display
-/

namespace Lulua.Props
open Lulua Lulua.Spec

variable {ι : Type}

theorem display_trans {jobs : Nat} {texts : ι → Nat} {fails : ι → Prop} {ints kills dies : Prop} {n m : Nat}
    {s t u : Display ι} (h : Display.Steps jobs texts fails ints kills dies n s t)
    (h' : Display.Steps jobs texts fails ints kills dies m t u) :
    Display.Steps jobs texts fails ints kills dies (n + m) s u := by
  induction h' with
  | refl => exact h
  | tail _ hs ih => exact .tail (ih h) hs

/-- **C102** (same executions): leaving out the display gives an execution of the pool without it, so everything proved
about the latter holds. -/
theorem C102_projects (jobs : Nat) (texts : ι → Nat) (fails : ι → Prop) (ints kills dies : Prop) (n : Nat)
    (s t : Display ι) (h : Display.Steps jobs texts fails ints kills dies n s t) :
    ∃ m ≤ n, Pool.Steps jobs fails ints kills m s.pool t.pool := by
  induction h with
  | refl => exact ⟨0, le_refl _, .refl _⟩
  | tail _ hs ih =>
    obtain ⟨m, hm, ih⟩ := ih
    cases hs with
    | pool h _ => exact ⟨m + 1, by omega, .tail ih h⟩
    | item h _ _ => exact ⟨m + 1, by omega, .tail ih h⟩
    | _ => exact ⟨m, by omega, ih⟩

def SState.weight : SState → Nat
  | .running => 1
  | _ => 0

def Phase.weight : Phase → Nat
  | .working => 3
  | .joining => 1
  | .returned => 0

def Display.weight (jobs : Nat) (s : Display ι) : Nat :=
  2 * s.pool.weight jobs + s.statusq.length + SState.weight s.status + Phase.weight s.phase

theorem display_weight {jobs : Nat} {texts : ι → Nat} {fails : ι → Prop} {ints kills dies : Prop} {s t : Display ι}
    (h : Display.Step jobs texts fails ints kills dies s t) : Display.weight jobs t < Display.weight jobs s := by
  cases h with
  | pool h _ => have := step_weight h; simp only [Display.weight]; omega
  | item h _ _ => have := step_weight h; simp only [Display.weight, List.length_append, List.length_singleton]; omega
  | update => simp [Display.weight]
  | exit => simp [Display.weight, SState.weight]; omega
  | die => simp [Display.weight, SState.weight]
  | stop => simp [Display.weight, Phase.weight]; omega
  | join => simp [Display.weight, Phase.weight]

/-- **C102** (termination): whatever the schedule, there are at most so many steps. -/
theorem C102_terminates (jobs : Nat) (texts : ι → Nat) (items : List ι) (fails : ι → Prop) (ints kills dies : Prop)
    (n : Nat) (s : Display ι) (h : Display.Steps jobs texts fails ints kills dies n (Display.init jobs items) s) :
    n ≤ 10 * items.length + 12 * jobs + 8 := by
  have key : ∀ {n} {s t : Display ι}, Display.Steps jobs texts fails ints kills dies n s t →
      Display.weight jobs t + n ≤ Display.weight jobs s := by
    intro n s t h
    induction h with
    | refl => simp
    | tail _ h ih => have := display_weight h; omega
  have h1 := key h
  have h2 := init_weight jobs items
  simp only [Display.weight, Display.init, SState.weight, Phase.weight, List.length_nil] at h1
  omega

/-- The display and the main process agree about the end. -/
structure ShowInv (dies : Prop) (s : Display ι) : Prop where
  early : s.phase = .working → none ∉ s.statusq ∧ s.status ≠ .exited
  waiting : s.phase = .joining → s.status = .running → none ∈ s.statusq
  finished : s.phase ≠ .working → s.pool.main = .done
  returned : s.phase = .returned → s.status ≠ .running
  alive : s.status = .dead → dies

theorem done_step {jobs : Nat} {fails : ι → Prop} {ints kills : Prop} {p q : Pool ι}
    (h : Pool.Step jobs fails ints kills p q) (hd : p.main = .done) : q.main = .done := by
  cases h <;> simp_all

theorem showInv_step {jobs : Nat} {texts : ι → Nat} {fails : ι → Prop} {ints kills dies : Prop} {s t : Display ι}
    (hi : ShowInv dies s) (h : Display.Step jobs texts fails ints kills dies s t) : ShowInv dies t := by
  obtain ⟨h1, h2, h3, h4, h5⟩ := hi
  cases h with
  | pool h _ => exact ⟨h1, h2, fun hp => done_step h (h3 hp), h4, h5⟩
  | item h _ _ =>
    refine ⟨fun hp => ?_, fun hp hr => ?_, fun hp => done_step h (h3 hp), h4, h5⟩
    · simpa using h1 hp
    · simpa using h2 hp hr
  | update =>
    refine ⟨fun hp => ?_, fun hp hr => ?_, h3, h4, h5⟩
    · simpa using h1 hp
    · simpa using h2 hp hr
  | exit =>
    refine ⟨fun hp => ?_, by simp, h3, by simp, by simp⟩
    have := h1 hp
    simp at this
  | die h => exact ⟨fun hp => ⟨(h1 hp).1, by simp⟩, by simp, h3, by simp, fun _ => h⟩
  | stop h _ => exact ⟨by simp, by simp, fun _ => h, by simp, h5⟩
  | join h _ => exact ⟨by simp, by simp, fun _ => h3 (by simp), fun _ => h, h5⟩

theorem showInv_reachable {jobs : Nat} {texts : ι → Nat} {items : List ι} {fails : ι → Prop} {ints kills dies : Prop}
    {n : Nat} {s : Display ι} (h : Display.Steps jobs texts fails ints kills dies n (Display.init jobs items) s) :
    ShowInv dies s := by
  generalize hs : Display.init jobs items = s0 at h
  induction h with
  | refl => subst hs; exact ⟨by simp [Display.init], by simp [Display.init], by simp [Display.init], by simp [Display.init], by simp [Display.init]⟩
  | tail _ h ih => exact showInv_step (ih hs) h

/-- **C102** (no deadlock): as long as fewer items fail than there are workers and no process is killed, the display
never makes `write` wait for ever: it returns if no item fails, and raises the exception of a failing item otherwise. -/
theorem C102_no_deadlock (jobs : Nat) (texts : ι → Nat) (items : List ι) (fails : ι → Prop) [DecidablePred fails]
    (hf : items.countP (fun x => decide (fails x)) < jobs) (n : Nat) (s : Display ι)
    (h : Display.Steps jobs texts fails False False False n (Display.init jobs items) s)
    (hs : ∀ t, ¬ Display.Step jobs texts fails False False False s t) :
    (s.phase = .returned ∧ ∀ x ∈ items, ¬ fails x) ∨ ∃ x ∈ items, fails x ∧ s.pool.main = .raised x := by
  classical
  have hi := showInv_reachable h
  obtain ⟨m, -, hp⟩ := C102_projects jobs texts fails False False False n _ s h
  have hr : PoolReachable jobs items fails False False s.pool := ⟨m, hp⟩
  obtain ⟨p, sq, b, st, ph⟩ := s
  have hj : 0 < jobs := by omega
  have hq : st = .running → sq = [] := by
    rintro rfl
    rcases sq with _ | ⟨_ | k, sq⟩
    · rfl
    · exact absurd .exit (hs _)
    · exact absurd .update (hs _)
  have hdead : st ≠ .dead := fun h => (hi.alive h).elim
  cases ph with
  | working =>
    have hrun : st = .running := by
      have := (hi.early rfl).2
      cases st <;> simp_all
    have h0 := hq hrun
    subst h0
    have hstuck : Stuck jobs fails False False p := by
      intro q hq
      by_cases hx : ∃ x, Pool.Processes x p q
      · obtain ⟨x, hx⟩ := hx
        exact hs _ (.item hq hx (by simp))
      · exact hs _ (.pool hq (by simpa using hx))
    rcases C27_reported_partial jobs items fails hf p hr hstuck with ⟨hd, _⟩ | h
    · exact absurd (Display.Step.stop (sq := []) (sq' := []) hd (by simp)) (hs _)
    · exact .inr h
  | joining =>
    have hd : p.main = .done := hi.finished (by simp)
    have hw := (C26_exactly_once jobs hj items fails p hr hd).2.2.2
    have hrun : st = .running := by
      by_contra hst
      exact hs _ (.join hst fun w hm => .inl (hw w hm))
    have := hi.waiting rfl hrun
    rw [hq hrun] at this
    simp at this
  | returned =>
    have hd : p.main = .done := hi.finished (by simp)
    exact .inl ⟨rfl, C27_done_partial jobs hj items fails p hr hd⟩

theorem processed_item {x : ι} {p q : Pool ι} (h : Pool.Processes x p q) : (processed q).Perm (x :: processed p) := by
  classical
  obtain ⟨m, inq, outq, a, b, l, rs, rfl, rfl⟩ := h
  rw [List.perm_iff_count]
  intro y
  simp [processed, workerProcessed, List.count_cons]
  omega

theorem processed_other {jobs : Nat} {fails : ι → Prop} {ints : Prop} {p q : Pool ι}
    (h : Pool.Step jobs fails ints False p q) (hx : ∀ x, ¬ Pool.Processes x p q)
    (he : ∀ x, .finishing (.exc x) ∉ q.workers) : (processed q).Perm (processed p) := by
  classical
  cases h with
  | work _ => exact absurd ⟨_, _, _, _, _, _, _, rfl, rfl⟩ (hx _)
  | fail _ => rename_i x _ _ _ _ _ _ _; exact absurd (by simp) (he x)
  | kill h => exact h.elim
  | _ =>
    rw [List.perm_iff_count]
    intro y
    first
      | (simp [processed, workerProcessed, resultProcessed]; done)
      | (simp [processed, workerProcessed, resultProcessed]; omega)
      | (rename_i r _ _; cases r <;> simp [processed, workerProcessed, resultProcessed] <;> omega)

/-- **C102** (what is shown): when `write` returns, the number shown and the numbers that came too late for the display
add up to the number of texts of all items. -/
theorem C102_shown (jobs : Nat) (hj : 0 < jobs) (texts : ι → Nat) (items : List ι) (fails : ι → Prop)
    (hf : ∀ x ∈ items, ¬ fails x) (n : Nat) (s : Display ι)
    (h : Display.Steps jobs texts fails False False False n (Display.init jobs items) s) (hr : s.phase = .returned) :
    s.bar + announced s.statusq = (items.map texts).sum := by
  have key : s.bar + announced s.statusq = ((processed s.pool).map texts).sum := by
    clear hr
    generalize hs : Display.init jobs items = s0 at h
    induction h with
    | refl => subst hs; simp [Display.init, processed, Pool.init, announced, workerProcessed]
    | tail h1 h2 ih =>
      have ih := ih hs
      have hreach := C102_projects _ _ _ _ _ _ _ _ _ (Display.Steps.tail h1 h2)
      rw [← hs] at hreach
      obtain ⟨m, -, hreach⟩ := hreach
      have hp := poolInv_reachable (items := items) ⟨m, hreach⟩
      have he : ∀ x, .finishing (.exc x) ∉ (Display.pool _).workers := fun x hx => by
        have := hp.failed x (.inl hx)
        exact hf x this.1 this.2
      cases h2 with
      | pool h hx => rw [((processed_other h hx he).map texts).sum_eq]; exact ih
      | item h hx _ =>
        rw [((processed_item hx).map texts).sum_eq]
        simp only [announced, List.map_append, List.sum_append, List.map_cons, List.sum_cons] at ih ⊢
        simp at ih ⊢
        omega
      | update => simp [announced] at ih ⊢; omega
      | exit => simpa [announced] using ih
      | die h => exact h.elim
      | stop _ _ => simpa [announced] using ih
      | join _ _ => exact ih
  obtain ⟨m, -, hp⟩ := C102_projects jobs texts fails False False False n _ s h
  have hd : s.pool.main = .done := (showInv_reachable h).finished (by rw [hr]; simp)
  obtain ⟨h1, _, h3, h4⟩ := C26_exactly_once jobs hj items fails s.pool ⟨m, hp⟩ hd
  rw [key, ← (h1.map texts).sum_eq, processed, h3]
  have : (s.pool.workers.map workerProcessed).flatten = [] := by
    rw [List.flatten_eq_nil_iff]
    intro l hl
    obtain ⟨w, hw, rfl⟩ := List.mem_map.1 hl
    rw [h4 w hw]; rfl
  rw [this]; simp

/-- **C102** (a dead display): after the status process has died at most as many items are processed as `statusq` has
room for, so if more are left and none fails, `write` neither returns nor raises an exception. -/
theorem C102_dead (jobs : Nat) (hj : 0 < jobs) (texts : ι → Nat) (items : List ι) (fails : ι → Prop)
    (hf : ∀ x ∈ items, ¬ fails x) (n m : Nat) (s t : Display ι)
    (h : Display.Steps jobs texts fails False False True n (Display.init jobs items) s) (hd : s.status = .dead)
    (hl : (processed s.pool).length + (jobs + 1) < items.length + s.statusq.length)
    (ht : Display.Steps jobs texts fails False False True m s t) : ¬ Ended t.pool := by
  have room : ∀ {n} {s : Display ι}, Display.Steps jobs texts fails False False True n (Display.init jobs items) s →
      s.statusq.length ≤ jobs + 1 := by
    intro n s h
    generalize hs : Display.init jobs items = s0 at h
    induction h with
    | refl => subst hs; simp [Display.init]
    | tail _ h ih =>
      have ih := ih hs
      cases h with
      | pool _ _ => exact ih
      | item _ _ h => simp; omega
      | update => simp at ih ⊢; omega
      | exit => simp at ih ⊢; omega
      | die _ => exact ih
      | stop _ h => simp at h ⊢; omega
      | join _ _ => exact ih
  have hroom := room (display_trans h ht)
  have key : t.status = .dead ∧
      (processed t.pool).length + s.statusq.length ≤ (processed s.pool).length + t.statusq.length := by
    clear hroom hl
    induction ht with
    | refl => exact ⟨hd, le_refl _⟩
    | tail h1 h2 ih =>
      obtain ⟨ih1, ih2⟩ := ih h hd
      obtain ⟨k, -, hreach⟩ := C102_projects _ _ _ _ _ _ _ _ _ (display_trans h (Display.Steps.tail h1 h2))
      have hp := poolInv_reachable (items := items) ⟨k, hreach⟩
      have he : ∀ x, .finishing (.exc x) ∉ (Display.pool _).workers := fun x hx => by
        have := hp.failed x (.inl hx)
        exact hf x this.1 this.2
      cases h2 with
      | pool h hx => rw [(processed_other h hx he).length_eq]; exact ⟨ih1, ih2⟩
      | item h hx _ =>
        rw [(processed_item hx).length_eq]
        refine ⟨ih1, ?_⟩
        simp at ih2 ⊢
        omega
      | update => simp at ih1
      | exit => simp at ih1
      | die h => simp at ih1
      | stop _ _ => refine ⟨ih1, ?_⟩; simp at ih2 ⊢; omega
      | join _ _ => exact ⟨ih1, ih2⟩
  obtain ⟨k, -, hreach⟩ := C102_projects _ _ _ _ _ _ _ _ _ (display_trans h ht)
  have hr : PoolReachable jobs items fails False False t.pool := ⟨k, hreach⟩
  rintro (h1 | ⟨x, h1⟩ | h1)
  · have h2 := (C26_exactly_once jobs hj items fails t.pool hr h1).1.length_eq
    have h3 : t.pool.results.flatten.length ≤ (processed t.pool).length := by
      rw [processed, List.append_assoc, List.length_append]; omega
    omega
  · have := (C27_raised_partial jobs items fails False False t.pool hr).1 x h1
    exact hf x this.1 this.2
  · exact (C27_raised_partial jobs items fails False False t.pool hr).2 h1

/-- **C102 fails if the display dies**: then `write` waits for ever, as soon as there are more items than `statusq` has
room for, without any failing item or killed worker. -/
theorem C102_refuted (jobs : Nat) (hj : 0 < jobs) (texts : ι → Nat) (items : List ι) (hl : jobs + 1 < items.length) :
    ∃ s, Display.Steps jobs texts (fun _ => False) False False True 1 (Display.init jobs items) s ∧
      ∀ m t, Display.Steps jobs texts (fun _ => False) False False True m s t → ¬ Ended t.pool := by
  have h : Display.Steps jobs texts (fun _ => False) False False True 1 (Display.init jobs items)
      ⟨Pool.init jobs items, [], 0, .dead, .working⟩ := .tail (.refl _) (.die trivial)
  refine ⟨_, h, fun m t ht => C102_dead jobs hj texts items _ (by simp) 1 m _ t h rfl ?_ ht⟩
  simp [processed, Pool.init, workerProcessed]
  omega

/-- Two workers, four items, the display dies at once. -/
example : ∃ s, Display.Steps 2 (fun n => n) (fun _ => False) False False True 1 (Display.init 2 [1, 2, 3, 4]) s ∧
      ∀ m t, Display.Steps 2 (fun n => n) (fun _ => False) False False True m s t → ¬ Ended t.pool :=
  C102_refuted 2 (by decide) _ _ (by decide)

/-- One worker, one item with two texts, from the start to the end: the hypotheses of `C102_shown` can be met. -/
example : ∃ n s, Display.Steps 1 (fun n => n) (fun _ => False) False False False n (Display.init 1 [2]) s ∧
    s.phase = .returned ∧ s.bar = 2 := by
  refine ⟨14, ⟨⟨.done, [], [], [.exited], [[2]]⟩, [], 2, .exited, .returned⟩, ?_, rfl, rfl⟩
  have np : ∀ {p q : Pool Nat}, p.workers.map WState.weight ≠ [3] ∨ q.workers.map WState.weight ≠ [1] →
      p.workers.length = 1 → ∀ x, ¬ Pool.Processes x p q := by
    rintro p q h hl x ⟨m, inq, outq, a, b, l, rs, rfl, rfl⟩
    obtain ⟨rfl, rfl⟩ : a = [] ∧ b = [] := by
      simp at hl
      exact ⟨List.length_eq_zero_iff.1 (by omega), List.length_eq_zero_iff.1 (by omega)⟩
    simp [WState.weight] at h
  refine .tail (.tail (.tail (.tail (.tail (.tail (.tail (.tail (.tail (.tail (.tail (.tail (.tail (.tail (.refl _)
    (.pool (.feed (by simp)) (np (by decide) (by decide))))
    (.pool .checkEmpty (np (by decide) (by decide))))
    (.pool .feedEnd (np (by decide) (by decide))))
    (.pool (.take (a := []) (b := [])) (np (by decide) (by decide))))
    (.item (.work (a := []) (b := []) (by simp)) ⟨_, _, _, [], [], _, _, rfl, rfl⟩ (by decide)))
    (.pool (.putNone (by simp)) (np (by decide) (by decide))))
    (.pool (.takeNone (a := []) (b := [])) (np (by decide) (by decide))))
    (.pool (.putResult (a := []) (b := []) (by simp)) (np (by decide) (by decide))))
    (.pool .getOk (np (by decide) (by decide))))
    (.pool .finish (np (by decide) (by decide))))
    .update)
    (.stop (sq := []) (sq' := []) rfl (by decide)))
    .exit) (.join (by decide) (by decide))

end Lulua.Props
