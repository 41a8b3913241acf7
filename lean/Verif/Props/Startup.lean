import Verif.Model.Startup
import Verif.Model.WriteMain
import Verif.Proofs.Pool
import Verif.Props.UtilLocal

/-! # C142: workers that cannot start -/

namespace Lulua.Props
open Lulua Spec

variable {ι : Type}

/-- Reachable if the workers fail at once. -/
def FailedReachable (jobs : Nat) (items : List ι) (e : ι) (fails : ι → Prop) (ints : Prop) (s : Pool ι) : Prop :=
  ∃ n, Pool.Steps jobs fails ints False n (Pool.initFailed jobs items e) s

private structure StartInv (jobs : Nat) (items : List ι) (e : ι) (s : Pool ι) : Prop where
  workers : ∀ w ∈ s.workers, w = .finishing (.exc e) ∨ w = .exited
  outq : ∀ r ∈ s.outq, r = .exc e
  results : s.results = []
  count : s.main = .raised e ∨
    (s.workers.countP WState.pending + s.outq.length = jobs ∧
      ((∃ todo, (s.main = .feeding todo ∨ s.main = .checking todo) ∧ s.inq.length + todo.length = items.length) ∨
       (s.main = .stopPut jobs ∧ s.inq.length ≤ items.length) ∨ s.main = .stopGet jobs))

private theorem startInv_step {jobs : Nat} (hj : 0 < jobs) {items : List ι} {e : ι} {fails : ι → Prop} {ints : Prop} {s t : Pool ι}
    (hi : StartInv jobs items e s) (h : Pool.Step jobs fails ints False s t) : StartInv jobs items e t := by
  obtain ⟨h1, h2, h3, h4⟩ := hi
  cases h with
  | feed hl =>
    refine ⟨h1, h2, h3, .inr ?_⟩
    rcases h4 with h4 | ⟨h4, ⟨todo, h5 | h5, h6⟩ | ⟨h5, h6⟩ | h5⟩
    · cases h4
    rotate_left
    · cases h5
    · cases h5
    · cases h5
    cases h5
    refine ⟨h4, .inl ⟨_, .inr rfl, ?_⟩⟩
    simp only [List.length_append, List.length_cons, List.length_nil] at h6 ⊢
    omega
  | feedEnd =>
    refine ⟨h1, h2, h3, .inr ?_⟩
    rcases h4 with h4 | ⟨h4, ⟨todo, h5 | h5, h6⟩ | h5 | h5⟩ <;> simp_all
  | checkEmpty =>
    refine ⟨h1, h2, h3, .inr ?_⟩
    rcases h4 with h4 | ⟨h4, ⟨todo, h5 | h5, h6⟩ | h5 | h5⟩ <;> simp_all
  | checkFull =>
    refine ⟨h1, h2, h3, .inr ?_⟩
    rcases h4 with h4 | ⟨h4, ⟨todo, h5 | h5, h6⟩ | h5 | h5⟩ <;> simp_all
    omega
  | putNone =>
    refine ⟨h1, h2, h3, .inr ?_⟩
    rcases h4 with h4 | ⟨h4, ⟨todo, h5 | h5, h6⟩ | h5 | h5⟩ <;> simp_all
  | getOk => exact absurd (h2 _ (List.mem_cons_self ..)) (by simp)
  | getExc =>
    have := h2 _ (List.mem_cons_self ..)
    simp only [Res.exc.injEq] at this
    subst this
    exact ⟨h1, fun r hr => h2 r (List.mem_cons_of_mem _ hr), h3, .inl rfl⟩
  | finish =>
    rcases h4 with h4 | ⟨h4, ⟨todo, h5 | h5, h6⟩ | h5 | h5⟩ <;> simp_all
  | assertFail =>
    rcases h4 with h4 | ⟨h4, ⟨todo, h5 | h5, h6⟩ | h5 | h5⟩ <;> simp_all
  | take => have := h1 _ (List.mem_append_right _ (List.mem_cons_self ..)); simp at this
  | work => have := h1 _ (List.mem_append_right _ (List.mem_cons_self ..)); simp at this
  | fail => have := h1 _ (List.mem_append_right _ (List.mem_cons_self ..)); simp at this
  | takeNone => have := h1 _ (List.mem_append_right _ (List.mem_cons_self ..)); simp at this
  | putResult hl =>
    have hw := h1 _ (List.mem_append_right _ (List.mem_cons_self ..))
    simp only [WState.finishing.injEq, reduceCtorEq, or_false] at hw
    subst hw
    refine ⟨?_, ?_, h3, ?_⟩
    · intro w hw
      simp only [List.mem_append, List.mem_cons] at hw h1
      rcases hw with hw | rfl | hw
      · exact h1 w (.inl hw)
      · exact .inr rfl
      · exact h1 w (.inr (.inr hw))
    · intro r hr
      rcases List.mem_append.1 hr with hr | hr
      · exact h2 r hr
      · simpa using hr
    · rcases h4 with h4 | ⟨h4, h5⟩
      · exact .inl h4
      · refine .inr ⟨?_, h5⟩
        simp [List.countP_append, List.countP_cons, WState.pending] at h4 ⊢
        omega
  | interrupt =>
    refine ⟨h1, h2, h3, .inr ?_⟩
    rcases h4 with h4 | ⟨h4, ⟨todo, h5 | h5, h6⟩ | h5 | h5⟩ <;> simp_all
    omega
  | kill hk => exact hk.elim

private theorem startInv {jobs : Nat} (hj : 0 < jobs) {items : List ι} {e : ι} {fails : ι → Prop} {ints : Prop} {s : Pool ι}
    (h : FailedReachable jobs items e fails ints s) : StartInv jobs items e s := by
  obtain ⟨n, h⟩ := h
  generalize hs : Pool.initFailed jobs items e = s0 at h
  induction h with
  | refl =>
    subst hs
    refine ⟨?_, by simp [Pool.initFailed], rfl, .inr ⟨?_, .inl ⟨items, .inl rfl, by simp [Pool.initFailed]⟩⟩⟩
    · intro w hw
      exact .inl (List.eq_of_mem_replicate hw)
    · simp [Pool.initFailed, List.countP_replicate, WState.pending]
  | tail _ h2 ih => exact startInv_step hj (ih hs) h2

/-- If the workers cannot start, `write ()` never returns normally and writes nothing. The only exception it raises is that
of the workers. -/
theorem C142_not_silent (jobs : Nat) (hj : 0 < jobs) (items : List ι) (e : ι) (fails : ι → Prop) (ints : Prop) (s : Pool ι)
    (h : FailedReachable jobs items e fails ints s) : s.results = [] ∧ (Ended s → s.main = .raised e) := by
  have hi := startInv hj h
  refine ⟨hi.results, fun he => ?_⟩
  rcases hi.count with h4 | ⟨-, ⟨todo, h5 | h5, -⟩ | ⟨h5, -⟩ | h5⟩
  · exact h4
  all_goals
    exfalso
    rcases he with he | ⟨x, he⟩ | he <;> simp [h5] at he

/-- **C142** (partial: for inputs of fewer lines than twice the number of workers): it raises their exception, also if it is
interrupted while reading. -/
theorem C142_reported_partial (jobs : Nat) (hj : 0 < jobs) (items : List ι) (hl : items.length < jobs * 2) (e : ι)
    (fails : ι → Prop) (ints : Prop) (s : Pool ι) (h : FailedReachable jobs items e fails ints s)
    (hs : Stuck jobs fails ints False s) : s.main = .raised e := by
  have hi := startInv hj h
  obtain ⟨m, inq, outq, ws, rs⟩ := s
  -- a worker with an exception can deliver it
  have hnone : ws.countP WState.pending + outq.length = jobs → outq.length = jobs := by
    intro hc
    by_contra hne
    have hpos : 0 < ws.countP WState.pending := by omega
    obtain ⟨w, hw, hp⟩ := List.countP_pos_iff.1 hpos
    rcases hi.workers w hw with rfl | rfl
    · obtain ⟨a, b, rfl⟩ := List.append_of_mem hw
      exact hs _ (.putResult (by omega))
    · simp [WState.pending] at hp
  rcases hi.count with h4 | ⟨hc, ⟨todo, h5 | h5, h6⟩ | ⟨h5, h6⟩ | h5⟩
  · exact h4
  all_goals
    exfalso
    dsimp only at h5 hc
    subst h5
  · cases todo with
    | nil => exact hs _ .feedEnd
    | cons x xs =>
      simp only [List.length_cons] at h6
      exact hs _ (.feed (.inr (by omega)))
  · exact hs _ .checkEmpty
  · obtain ⟨k, rfl⟩ : ∃ k, jobs = k + 1 := ⟨jobs - 1, by omega⟩
    dsimp only at h6
    exact hs _ (.putNone (.inr (by omega)))
  · obtain ⟨k, rfl⟩ : ∃ k, jobs = k + 1 := ⟨jobs - 1, by omega⟩
    have ho := hnone hc
    cases outq with
    | nil => simp at ho
    | cons r outq =>
      have := hi.outq r (List.mem_cons_self ..)
      subst this
      exact hs _ .getExc

/-- An execution has at most five steps per line and seven per worker. -/
theorem C142_terminates (jobs : Nat) (items : List ι) (e : ι) (fails : ι → Prop) (ints : Prop) (n : Nat) (s : Pool ι)
    (h : Pool.Steps jobs fails ints False n (Pool.initFailed jobs items e) s) : n ≤ 5 * items.length + 7 * jobs + 2 := by
  have := steps_weight h
  have e1 : (Pool.initFailed jobs items e).weight jobs = 5 * items.length + 7 * jobs + 2 := by
    simp [Pool.weight, Pool.initFailed, MState.weight, WState.weight]
    omega
  omega

private theorem feedSome {jobs : Nat} {fails : ι → Prop} {ints : Prop} (ws : List (WState ι)) (rest : List ι) :
    ∀ (more : List ι) (q : List (Option ι)), q.length + more.length ≤ jobs * 2 →
      ∃ n, Pool.Steps jobs fails ints False n ⟨.feeding (more ++ rest), q, [], ws, []⟩
        ⟨.feeding rest, q ++ more.map some, [], ws, []⟩
  | [], q, _ => ⟨0, by simpa using Pool.Steps.refl _⟩
  | x :: more, q, h => by
    simp only [List.length_cons] at h
    obtain ⟨n, hn⟩ := feedSome (jobs := jobs) (fails := fails) (ints := ints) ws rest more (q ++ [some x]) (by simp only [List.length_append, List.length_cons, List.length_nil]; omega)
    have s1 := ((Pool.Steps.refl (jobs := jobs) (fails := fails) (ints := ints) (kills := False)
      ⟨.feeding (x :: (more ++ rest)), q, [], ws, []⟩).tail (.feed (.inr (by omega)))).tail .checkEmpty
    have := s1.trans hn
    exact ⟨_, by simpa using this⟩

private theorem putAll {jobs : Nat} {fails : ι → Prop} {ints : Prop} (m : MState ι) (q : List (Option ι)) (e : ι) :
    ∀ (k : Nat) (a : List (WState ι)) (o : List (Res ι)), o.length + k ≤ jobs + 1 →
      ∃ n, Pool.Steps jobs fails ints False n ⟨m, q, o, a ++ List.replicate k (.finishing (.exc e)), []⟩
        ⟨m, q, o ++ List.replicate k (.exc e), a ++ List.replicate k .exited, []⟩
  | 0, a, o, _ => ⟨0, by simpa using Pool.Steps.refl _⟩
  | k + 1, a, o, h => by
    obtain ⟨n, hn⟩ := putAll (jobs := jobs) (fails := fails) (ints := ints) m q e k (a ++ [.exited]) (o ++ [.exc e]) (by simp only [List.length_append, List.length_cons, List.length_nil]; omega)
    have s1 := (Pool.Steps.refl (jobs := jobs) (fails := fails) (ints := ints) (kills := False)
      ⟨m, q, o, a ++ .finishing (.exc e) :: List.replicate k (.finishing (.exc e)), []⟩).tail (.putResult (by omega))
    rw [List.append_assoc, List.append_assoc, List.append_assoc] at hn
    have := s1.trans hn
    exact ⟨_, by simpa [List.replicate_succ] using this⟩

/-- The input queue is full and all workers are gone. -/
private theorem fullQueue (jobs : Nat) (more rest : List ι) (h : more.length = jobs * 2) (e : ι) (fails : ι → Prop) (ints : Prop) :
    FailedReachable jobs (more ++ rest) e fails ints
      ⟨.feeding rest, more.map some, List.replicate jobs (.exc e), List.replicate jobs .exited, []⟩ := by
  obtain ⟨n, hn⟩ := feedSome (jobs := jobs) (fails := fails) (ints := ints)
    (List.replicate jobs (.finishing (.exc e))) rest more [] (by simp [h])
  obtain ⟨k, hk⟩ := putAll (jobs := jobs) (fails := fails) (ints := ints) (.feeding rest) (more.map some) e jobs [] [] (by simp)
  exact ⟨_, hn.trans (by simpa using hk)⟩

private theorem stuck_stopPut (jobs : Nat) (hj : 0 < jobs) (q : List (Option ι)) (hq : q.length = jobs * 2) (o : List (Res ι))
    (fails : ι → Prop) (ints : Prop) : Stuck jobs fails ints False ⟨.stopPut jobs, q, o, List.replicate jobs .exited, []⟩ := by
  intro t ht
  generalize hs : (⟨.stopPut jobs, q, o, List.replicate jobs .exited, []⟩ : Pool ι) = s at ht
  have hw : ∀ (a b : List (WState ι)) (w : WState ι), List.replicate jobs .exited = a ++ w :: b → w = .exited := by
    intro a b w h
    exact List.eq_of_mem_replicate (h ▸ List.mem_append_right _ (List.mem_cons_self ..))
  cases ht <;> simp only [Pool.mk.injEq, reduceCtorEq, false_and, MState.stopPut.injEq] at hs
  case putNone h => obtain ⟨h1, rfl, -⟩ := hs; omega
  case finish => omega
  case assertFail => omega
  case take => exact absurd (hw _ _ _ hs.2.2.2.1) (by simp)
  case work => exact absurd (hw _ _ _ hs.2.2.2.1) (by simp)
  case fail => exact absurd (hw _ _ _ hs.2.2.2.1) (by simp)
  case takeNone => exact absurd (hw _ _ _ hs.2.2.2.1) (by simp)
  case putResult => exact absurd (hw _ _ _ hs.2.2.2.1) (by simp)
  case kill h _ _ => exact h

/-- **C142 is false** for all other inputs: there is an execution after which nothing can happen any more, although `write ()`
has not raised the exception of the workers. It waits for room in the input queue. -/
theorem C142_false (jobs : Nat) (hj : 0 < jobs) (items : List ι) (hl : jobs * 2 ≤ items.length) (e : ι) (fails : ι → Prop) :
    ∃ s, FailedReachable jobs items e fails False s ∧ Stuck jobs fails False False s ∧ ¬ Ended s := by
  have hlen : (items.take (jobs * 2)).length = jobs * 2 := by simp [hl]
  have hr := fullQueue jobs (items.take (jobs * 2)) (items.drop (jobs * 2)) hlen e fails False
  rw [List.take_append_drop] at hr
  cases hd : items.drop (jobs * 2) with
  | nil =>
    rw [hd] at hr
    obtain ⟨n, hn⟩ := hr
    refine ⟨_, ⟨_, hn.tail .feedEnd⟩, stuck_stopPut jobs hj _ (by simp [hl]) _ _ _, ?_⟩
    rintro (h | ⟨x, h⟩ | h) <;> simp at h
  | cons x rest =>
    rw [hd] at hr
    refine ⟨_, hr, ?_, ?_⟩
    · intro t ht
      generalize hs : (⟨.feeding (x :: rest), (items.take (jobs * 2)).map some, List.replicate jobs (.exc e),
        List.replicate jobs .exited, []⟩ : Pool ι) = s at ht
      have hw : ∀ (a b : List (WState ι)) (w : WState ι), List.replicate jobs .exited = a ++ w :: b → w = .exited := by
        intro a b w h
        exact List.eq_of_mem_replicate (h ▸ List.mem_append_right _ (List.mem_cons_self ..))
      cases ht <;> simp only [Pool.mk.injEq, reduceCtorEq, false_and, MState.feeding.injEq] at hs
      case feed h => obtain ⟨-, rfl, -⟩ := hs; simp at h; omega
      case take => exact absurd (hw _ _ _ hs.2.2.2.1) (by simp)
      case work => exact absurd (hw _ _ _ hs.2.2.2.1) (by simp)
      case fail => exact absurd (hw _ _ _ hs.2.2.2.1) (by simp)
      case takeNone => exact absurd (hw _ _ _ hs.2.2.2.1) (by simp)
      case putResult => exact absurd (hw _ _ _ hs.2.2.2.1) (by simp)
      case interrupt h => exact h
      case kill h _ _ => exact h
    · rintro (h | ⟨y, h⟩ | h) <;> simp at h

/-- Interrupting it while it reads does not help: it then waits for room to put `None`. -/
theorem C142_interrupt (jobs : Nat) (hj : 0 < jobs) (items : List ι) (hl : jobs * 2 ≤ items.length) (e : ι) (fails : ι → Prop) :
    ∃ s, FailedReachable jobs items e fails True s ∧ Stuck jobs fails True False s ∧ ¬ Ended s := by
  have hlen : (items.take (jobs * 2)).length = jobs * 2 := by simp [hl]
  obtain ⟨n, hn⟩ := fullQueue jobs (items.take (jobs * 2)) (items.drop (jobs * 2)) hlen e fails True
  rw [List.take_append_drop] at hn
  refine ⟨_, ⟨_, hn.tail (.interrupt trivial)⟩, stuck_stopPut jobs hj _ (by simp [hl]) _ _ _, ?_⟩
  rintro (h | ⟨x, h⟩ | h) <;> simp at h

/-- So `write ()` is sure to report that its workers cannot start exactly for inputs of fewer lines than twice the number of
workers. -/
theorem C142_exactly (jobs : Nat) (hj : 0 < jobs) (items : List ι) (e : ι) (fails : ι → Prop) :
    (∀ s, FailedReachable jobs items e fails False s → Stuck jobs fails False False s → s.main = .raised e) ↔
      items.length < jobs * 2 := by
  constructor
  · intro h
    by_contra hl
    obtain ⟨s, h1, h2, h3⟩ := C142_false jobs hj items (by omega) e fails
    exact h3 (.inr (.inl ⟨e, h s h1 h2⟩))
  · exact fun hl s h1 h2 => C142_reported_partial jobs hj items hl e fails False s h1 h2

/-- How that happens: something in the working directory is called `ibmpc105` and cannot be opened (a directory), decoded or made
a keyboard of. With `-k` the main process does not look at it. -/
theorem C142_cause (w : WriteWorld) (d : Disk) (t : InternTable) (L : KeyboardLayout) (e : PyErr) (h1 : e ≠ .fileNotFound)
    (h2 : e ≠ .readerError)
    (h : let k := keyboardLoader { w.toLoadWorld with table := t } d
      k.openFile "ibmpc105" = .error e ∨
        ∃ fd, k.openFile "ibmpc105" = .ok fd ∧ (k.load fd = .error e ∨ ∃ y, k.load fd = .ok y ∧ k.deserialize y = .error e)) :
    workerSetup w d t L = .error e := by
  have := C57_false _ "data/keyboards" "ibmpc105" e h1 h2 h
  unfold workerSetup
  rw [this]
  rfl

/-- Four workers and nine lines. -/
example : ∃ s, FailedReachable 4 (List.range 9) 0 (fun _ => False) False s ∧ Stuck 4 (fun _ => False) False False s ∧ ¬ Ended s :=
  C142_false 4 (by decide) _ (by decide) 0 _

end Lulua.Props
