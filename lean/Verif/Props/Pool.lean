import Verif.Proofs.Pool
import Verif.Props.Text

/-!
# C26, C27: the worker pool
-/

namespace Lulua.Props
open Lulua Spec

variable {ι : Type}

/-! ### C26 -/

/-- **C26** (exactly once): when `write ()` returns, every line of the input has been processed by
exactly one worker and is part of exactly one result; there is one result per worker; nothing is left
in the result queue and all workers have stopped. -/
theorem C26_exactly_once (jobs : Nat) (hj : 0 < jobs) (items : List ι) (fails : ι → Prop) (s : Pool ι)
    (h : PoolReachable jobs items fails False False s) (hd : s.main = .done) :
    s.results.flatten.Perm items ∧ s.results.length = jobs ∧ s.outq = [] ∧ ∀ w ∈ s.workers, w = .exited := by
  classical
  have hp := poolInv_reachable h
  have hf := failInv_reachable h
  obtain ⟨h1, h2, h3, h4, -⟩ := done_all hj hp hd
  refine ⟨?_, h1, h2, h3⟩
  rcases hf.all with hb | hb | ha
  · exact hb.elim
  · exfalso
    rcases hb with ⟨w, hw, hb⟩ | ⟨r, hr, _⟩ | ⟨x, h⟩ | h
    · rw [h3 w hw] at hb; simp [WState.bad] at hb
    · rw [h2] at hr; simp at hr
    · rw [hd] at h; simp at h
    · rw [hd] at h; simp at h
  · have e1 : (s.workers.map WState.items).flatten = [] := by
      rw [List.flatten_eq_nil_iff]
      intro l hl
      obtain ⟨w, hw, rfl⟩ := List.mem_map.1 hl
      rw [h3 w hw]; rfl
    have e2 : s.inq.filterMap id = [] := by
      rw [List.filterMap_eq_nil_iff]
      exact h4
    unfold Pool.everything at ha
    rw [h2, e1, e2, hd] at ha
    simpa [MState.todo] using ha

/-- **C26** (no deadlock): while `write ()` has not returned, something can happen. -/
theorem C26_no_deadlock (jobs : Nat) (hj : 0 < jobs) (items : List ι) (fails : ι → Prop)
    (hf : ∀ x ∈ items, ¬ fails x) (s : Pool ι) (h : PoolReachable jobs items fails False False s)
    (hs : Stuck jobs fails False False s) : s.main = .done := by
  classical
  have hp := poolInv_reachable h
  by_contra hd
  have h0 : items.countP (fun x => decide (fails x)) < jobs := by
    rw [List.countP_eq_zero.2 (by simpa using hf)]; exact hj
  have he : ¬ Ended s := by
    rintro (h1 | ⟨x, h1⟩ | h1)
    · exact hd h1
    · exact hf x (hp.failed x (.inr (.inr h1))).1 (hp.failed x (.inr (.inr h1))).2
    · exact no_assertion h h1
  obtain ⟨t, ht⟩ := progress h0 hp (failInv_reachable h) he
  exact hs t ht

/-- **C26** (termination): an execution has at most five steps per line and six per worker, whatever is
scheduled when, and whether or not items fail or processes are killed. -/
theorem C26_terminates (jobs : Nat) (items : List ι) (fails : ι → Prop) (ints kills : Prop) (n : Nat) (s : Pool ι)
    (h : Pool.Steps jobs fails ints kills n (Pool.init jobs items) s) : n ≤ 5 * items.length + 6 * jobs + 2 := by
  have := steps_weight h
  rw [init_weight] at this
  omega

/-- **C26** (what is written): if no item fails, then whatever the schedule, the statistics written add up to
those of a single worker that takes all items in order. -/
theorem C26_statistics (su : Setup) (hfr : Fresh su.fresh) (extract : ι → Gen Text) (jobs : Nat) (hj : 0 < jobs)
    (items : List ι) (hok : ∀ i ∈ items, ItemOk su extract i) (s : Pool ι)
    (h : PoolReachable jobs items (fun i => ¬ ItemOk su extract i) False False s)
    (hs : Stuck jobs (fun i => ¬ ItemOk su extract i) False False s) :
    s.main = .done ∧ ∃ one many, written su extract [items] = .ok one ∧ written su extract s.results = .ok many ∧
      StatsEq (AllStats.combine su.fresh many) (AllStats.combine su.fresh one) := by
  have hd := C26_no_deadlock jobs hj items _ (fun x hx hn => hn (hok x hx)) s h hs
  have hp := (C26_exactly_once jobs hj items _ s h hd).1
  obtain ⟨one, many, h1, h2, h3⟩ := C25_workers su hfr extract items hok s.results hp
  exact ⟨hd, one, many, h1, h2, h3 many (List.Perm.refl _)⟩

/-- A complete execution with two workers and three items: the second worker gets two of them. -/
example : ∃ s, PoolReachable 2 [1, 2, 3] (fun _ : Nat => False) False False s ∧ s.main = .done ∧ s.results = [[2, 3], [1]] := by
  refine ⟨⟨.done, [], [], [.exited, .exited], [[2, 3], [1]]⟩, ⟨22, ?_⟩, rfl, rfl⟩
  have s0 := Pool.Steps.refl (jobs := 2) (fails := fun _ : Nat => False) (ints := False) (kills := False) (Pool.init 2 [1, 2, 3])
  have s1 := s0.tail (.feed (.inr (by decide)))
  have s2 := s1.tail .checkEmpty
  have s3 := s2.tail (.feed (.inr (by decide)))
  have s4 := s3.tail (.take (a := []) (b := [.idle []]))
  have s5 := s4.tail .checkEmpty
  have s6 := s5.tail (.feed (.inr (by decide)))
  have s7 := s6.tail (.take (a := [.busy [] 1]) (b := []))
  have s8 := s7.tail .checkEmpty
  have s9 := s8.tail (.work (a := [.busy [] 1]) (b := []) id)
  have s10 := s9.tail (.take (a := [.busy [] 1]) (b := []))
  have s11 := s10.tail .feedEnd
  have s12 := s11.tail (.putNone (.inr (by decide)))
  have s13 := s12.tail (.work (a := [.busy [] 1]) (b := []) id)
  have s14 := s13.tail (.takeNone (a := [.busy [] 1]) (b := []))
  have s15 := s14.tail (.putResult (a := [.busy [] 1]) (b := []) (by decide))
  have s16 := s15.tail .getOk
  have s17 := s16.tail (.putNone (.inr (by decide)))
  have s18 := s17.tail (.work (a := []) (b := [.exited]) id)
  have s19 := s18.tail (.takeNone (a := []) (b := [.exited]))
  have s20 := s19.tail (.putResult (a := []) (b := [.exited]) (by decide))
  have s21 := s20.tail .getOk
  exact s21.tail .finish

/-! ### C27 -/

/-- **C27** (partial: says nothing about whether `write ()` ends): if it returns normally, no item failed. -/
theorem C27_done_partial (jobs : Nat) (hj : 0 < jobs) (items : List ι) (fails : ι → Prop) (s : Pool ι)
    (h : PoolReachable jobs items fails False False s) (hd : s.main = .done) : ∀ x ∈ items, ¬ fails x := by
  classical
  have hp := (C26_exactly_once jobs hj items fails s h hd).1
  intro x hx
  obtain ⟨l, hl, hx⟩ := List.mem_flatten.1 (hp.mem_iff.2 hx)
  exact (failInv_reachable h).fineR l hl x hx

/-- **C27** (partial: says nothing about whether `write ()` ends): an exception it raises is that of a failing
item of the input, and the assertion does not fail — even if processes are killed. -/
theorem C27_raised_partial (jobs : Nat) (items : List ι) (fails : ι → Prop) (ints kills : Prop) (s : Pool ι)
    (h : PoolReachable jobs items fails ints kills s) :
    (∀ x, s.main = .raised x → x ∈ items ∧ fails x) ∧ s.main ≠ .assertion :=
  ⟨fun x hx => (poolInv_reachable h).failed x (.inr (.inr hx)), no_assertion h⟩

/-- **C27** (partial: for fewer failing items than workers): the execution ends, by raising the exception of
a failing item if there is one. -/
theorem C27_reported_partial (jobs : Nat) (items : List ι) (fails : ι → Prop) [DecidablePred fails]
    (hf : items.countP (fun x => decide (fails x)) < jobs) (s : Pool ι)
    (h : PoolReachable jobs items fails False False s) (hs : Stuck jobs fails False False s) :
    (s.main = .done ∧ ∀ x ∈ items, ¬ fails x) ∨ ∃ x ∈ items, fails x ∧ s.main = .raised x := by
  have hp := poolInv_reachable h
  have he : Ended s := by
    by_contra he
    obtain ⟨t, ht⟩ := progress hf hp (failInv_reachable h) he
    exact hs t ht
  rcases he with h1 | ⟨x, h1⟩ | h1
  · exact .inl ⟨h1, C27_done_partial jobs (by omega) items fails s h h1⟩
  · have := hp.failed x (.inr (.inr h1))
    exact .inr ⟨x, this.1, this.2, h1⟩
  · exact absurd h1 (no_assertion h)

/-- **C27 is false**: for any number of workers, if the first item of every worker fails and there are more than
three times as many items as workers, there is an execution after which nothing can happen any more, although
`write ()` has neither returned nor raised an exception: the main process waits for room in the
input queue, which no worker empties. -/
theorem C27_false (jobs : Nat) (hj : 0 < jobs) (fails : ι → Prop) (bad more : List ι) (x : ι) (rest : List ι)
    (h1 : bad.length = jobs) (h2 : ∀ y ∈ bad, fails y) (h3 : more.length = jobs * 2) :
    ∃ s, PoolReachable jobs (bad ++ more ++ x :: rest) fails False False s ∧ Stuck jobs fails False False s ∧ ¬ Ended s :=
  deadlock hj bad more x rest h1 h2 h3

/-- Four workers, of thirteen items the first four fail. -/
example : ∃ s, PoolReachable 4 (List.range 13) (fun i => i < 4) False False s ∧ Stuck 4 (fun i => i < 4) False False s ∧ ¬ Ended s :=
  C27_false 4 (by decide) _ [0, 1, 2, 3] [4, 5, 6, 7, 8, 9, 10, 11] 12 [] rfl (by decide) rfl

/-- Two workers, one failing item. -/
example : [1, 2, 3].countP (fun x => decide (x = 2)) < 2 := by decide

/-- An execution with one worker that ends with the exception of the failing item. -/
example : ∃ s, PoolReachable 1 [1, 2] (fun i : Nat => i = 1) False False s ∧ s.main = .raised 1 := by
  refine ⟨⟨.raised 1, [none], [], [.exited], []⟩, ⟨7, ?_⟩, rfl⟩
  have s0 := Pool.Steps.refl (jobs := 1) (fails := fun i : Nat => i = 1) (ints := False) (kills := False) (Pool.init 1 [1, 2])
  have s1 := s0.tail (.feed (.inr (by decide)))
  have s2 := s1.tail (.take (a := []) (b := []))
  have s3 := s2.tail (.fail (a := []) (b := []) rfl)
  have s4 := s3.tail (.putResult (a := []) (b := []) (by decide))
  have s5 := s4.tail (.checkFull (by simp))
  have s6 := s5.tail (.putNone (.inr (by decide)))
  exact s6.tail .getExc

/-! ### C72: interrupts and killed workers -/

/-- **C72**: if `write ()` returns although it may have been interrupted while reading and workers may have been
killed, then no worker was killed before its result was delivered, and exactly a beginning of the input has been
processed, each line once. -/
theorem C72_no_silent_loss (jobs : Nat) (hj : 0 < jobs) (items : List ι) (fails : ι → Prop) (s : Pool ι)
    (h : PoolReachable jobs items fails True True s) (hd : s.main = .done) :
    (∀ w ∈ s.workers, w = .exited) ∧ s.results.length = jobs ∧
      ∃ done, done <+: items ∧ s.results.flatten.Perm done := by
  obtain ⟨h1, -, h3, -, h5⟩ := done_all hj (poolInv_reachable h) hd
  exact ⟨h3, h1, h5⟩

/-- One worker, interrupted after the first of two lines. -/
example : ∃ s, PoolReachable 1 [1, 2] (fun _ : Nat => False) True True s ∧ s.main = .done ∧ s.results = [[1]] := by
  refine ⟨⟨.done, [], [], [.exited], [[1]]⟩, ⟨10, ?_⟩, rfl, rfl⟩
  have s0 := Pool.Steps.refl (jobs := 1) (fails := fun _ : Nat => False) (ints := True) (kills := True) (Pool.init 1 [1, 2])
  have s1 := s0.tail (.feed (.inr (by decide)))
  have s2 := s1.tail (.take (a := []) (b := []))
  have s3 := s2.tail .checkEmpty
  have s4 := s3.tail (.interrupt trivial)
  have s5 := s4.tail (.putNone (.inr (by decide)))
  have s6 := s5.tail (.work (a := []) (b := []) id)
  have s7 := s6.tail (.takeNone (a := []) (b := []))
  have s8 := s7.tail (.putResult (a := []) (b := []) (by decide))
  have s9 := s8.tail .getOk
  exact s9.tail .finish

/-! ### C73: a killed worker -/

/-- A killed worker stays. -/
theorem killed_stays {jobs : Nat} {fails : ι → Prop} {ints kills : Prop} {n : Nat} {s t : Pool ι}
    (h : Pool.Steps jobs fails ints kills n s t) (hk : .killed ∈ s.workers) : .killed ∈ t.workers := by
  induction h with
  | refl => exact hk
  | tail _ h2 ih =>
    have ih := ih hk
    cases h2 <;> simp_all

/-- **C73 is false**: once a worker has been killed, `write ()` never returns normally: it raises the exception of
another item, or waits for ever. -/
theorem C73_false (jobs : Nat) (hj : 0 < jobs) (items : List ι) (fails : ι → Prop) (s t : Pool ι) (n : Nat)
    (h : PoolReachable jobs items fails True True s) (hk : .killed ∈ s.workers)
    (ht : Pool.Steps jobs fails True True n s t) (hf : ∀ x ∈ items, ¬ fails x) : ¬ Ended t := by
  obtain ⟨m, h⟩ := h
  have hr : PoolReachable jobs items fails True True t := ⟨_, h.trans ht⟩
  rintro (h1 | ⟨x, h1⟩ | h1)
  · have := (C72_no_silent_loss jobs hj items fails t hr h1).1 _ (killed_stays ht hk)
    simp at this
  · have := (C27_raised_partial jobs items fails True True t hr).1 x h1
    exact hf x this.1 this.2
  · exact no_assertion hr h1

/-- **C73** (partial: if no worker is killed and fewer items fail than there are workers): `write ()` ends even
if it is interrupted while reading. -/
theorem C73_interrupted_partial (jobs : Nat) (items : List ι) (fails : ι → Prop) [DecidablePred fails]
    (hf : items.countP (fun x => decide (fails x)) < jobs) (s : Pool ι)
    (h : PoolReachable jobs items fails True False s) (hs : Stuck jobs fails True False s) : Ended s := by
  by_contra he
  obtain ⟨t, ht⟩ := progress hf (poolInv_reachable h) (failInv_reachable h) he
  exact hs t ht

/-- Two workers, one of which is killed at once. -/
example : PoolReachable 2 [1, 2, 3] (fun _ : Nat => False) True True
    ⟨.feeding [1, 2, 3], [], [], [.killed, .idle []], []⟩ :=
  ⟨1, (Pool.Steps.refl _).tail (.kill (a := []) (b := [.idle []]) (w := .idle []) trivial (by simp) (by simp))⟩

/-! ### C74: no workers -/

/-- **C74 is false**: with `-j 0` `write ()` returns normally without having processed anything, whatever the input:
this execution exists, -/
theorem C74_false (items : List ι) (fails : ι → Prop) :
    ∃ s, PoolReachable 0 items fails False False s ∧ s.main = .done ∧ s.results = [] := by
  have : ∀ q : List (Option ι), ∃ n q', Pool.Steps 0 fails False False n ⟨.feeding items, q, [], [], []⟩ ⟨.feeding [], q', [], [], []⟩ := by
    induction items with
    | nil => exact fun q => ⟨0, q, .refl _⟩
    | cons x xs ih =>
      intro q
      obtain ⟨n, q', h⟩ := ih (q ++ [some x])
      exact ⟨_, q', (((Pool.Steps.refl _).tail (.feed (.inl rfl))).tail .checkEmpty).trans h⟩
  obtain ⟨n, q', h⟩ := this []
  exact ⟨_, ⟨_, (h.tail .feedEnd).tail .finish⟩, rfl, rfl⟩

/-- and every execution that ends, ends like this. -/
theorem C74_always (items : List ι) (fails : ι → Prop) (s : Pool ι) (h : PoolReachable 0 items fails False False s)
    (hs : Stuck 0 fails False False s) : s.main = .done ∧ s.results = [] := by
  have hp := poolInv_reachable h
  have hr : ∀ x, s.main ≠ .raised x := by
    have : ∀ n t, Pool.Steps 0 fails False False n (Pool.init 0 items) t → t.workers = [] ∧ t.outq = [] ∧
        ∀ x, t.main ≠ .raised x := by
      intro n t ht
      generalize he : Pool.init 0 items = s0 at ht
      induction ht with
      | refl => subst he; simp [Pool.init]
      | tail _ h2 ih =>
        obtain ⟨h1, h3, h4⟩ := ih he
        cases h2 <;> simp_all
    obtain ⟨n, h⟩ := h
    exact (this n s h).2.2
  have h0 : s.outq = [] ∧ s.results = [] := by
    rcases hp.pending with ⟨x, h⟩ | h
    · exact absurd h (hr x)
    · exact ⟨List.length_eq_zero_iff.1 (by omega), List.length_eq_zero_iff.1 (by omega)⟩
  refine ⟨?_, h0.2⟩
  have hc := hp.counts
  have hg := hp.get0
  have ha := no_assertion h
  obtain ⟨m, inq, outq, ws, rs⟩ := s
  cases m with
  | feeding todo =>
    cases todo with
    | nil => exact absurd .feedEnd (hs _)
    | cons x xs => exact absurd (.feed (.inl rfl)) (hs _)
  | checking todo => exact absurd .checkEmpty (hs _)
  | stopPut n =>
    cases n with
    | zero => exact absurd .finish (hs _)
    | succ n => simp only [Pool.Counts] at hc; omega
  | stopGet n =>
    cases n with
    | zero => exact absurd rfl hg
    | succ n => simp only [Pool.Counts] at hc; omega
  | done => rfl
  | raised x => exact absurd rfl (hr x)
  | assertion => exact absurd rfl ha

/-- **C74** (partial: only with at least one worker): what is returned covers the input. -/
theorem C74_partial (jobs : Nat) (hj : 0 < jobs) (items : List ι) (fails : ι → Prop) (s : Pool ι)
    (h : PoolReachable jobs items fails False False s) (hd : s.main = .done) : s.results.flatten.Perm items :=
  (C26_exactly_once jobs hj items fails s h hd).1

end Lulua.Props
