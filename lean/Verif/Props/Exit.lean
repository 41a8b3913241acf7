import Verif.Model.Exit
import Verif.Props.Pool

/-! # C143: the process of `lulua-write` leaves -/

namespace Lulua.Props
open Lulua Spec

variable {ι : Type}

/-- After a normal return with at least one worker nothing is left in the input queue, so the process leaves however small the
pipe is. -/
theorem C143_returned (jobs : Nat) (hj : 0 < jobs) (items : List ι) (fails : ι → Prop) (ints : Prop) (s : Pool ι)
    (h : PoolReachable jobs items fails ints False s) (hd : s.main = .done) (room : Nat) (size : Option ι → Nat) :
    s.inq = [] ∧ CanLeave room size s := by
  classical
  obtain ⟨h1, h2, h3, h4, -⟩ := done_all hj (poolInv_reachable h) hd
  have hn := (failInv_reachable h).nones
  rw [hd] at hn
  simp only [MState.Nones] at hn
  have hc : s.inq.countP Option.isNone = 0 := by omega
  have he : s.inq = [] := by
    cases hi : s.inq with
    | nil => rfl
    | cons x l =>
      rw [List.countP_eq_zero] at hc
      have hx : x ∈ s.inq := by rw [hi]; exact List.mem_cons_self ..
      exact absurd (by rw [h4 x hx]; rfl) (hc x hx)
  exact ⟨he, by simp [CanLeave, he]⟩

/-- The input queue never has more entries than twice the number of workers. -/
theorem inq_bound {jobs : Nat} (hj : 0 < jobs) {items : List ι} {fails : ι → Prop} {ints kills : Prop} {s : Pool ι}
    (h : PoolReachable jobs items fails ints kills s) : s.inq.length ≤ jobs * 2 := by
  obtain ⟨n, h⟩ := h
  generalize hs : Pool.init jobs items = s0 at h
  induction h with
  | refl => subst hs; simp [Pool.init]
  | tail _ h2 ih =>
    have ih := ih hs
    cases h2 <;> simp_all <;> omega

/-- **C143** (partial: at least one worker, and twice the number of workers entries fit into the pipe): the process leaves after every
return and every exception. -/
theorem C143_partial (jobs : Nat) (hj : 0 < jobs) (items : List ι) (fails : ι → Prop) (ints kills : Prop) (s : Pool ι)
    (h : PoolReachable jobs items fails ints kills s) (room largest : Nat) (size : Option ι → Nat) (hn : size none ≤ largest)
    (hi : ∀ x ∈ items, size (some x) ≤ largest) (hr : jobs * 2 * largest ≤ room) : CanLeave room size s := by
  have hb := inq_bound hj h
  have hk := (poolInv_reachable h).known
  have : (s.inq.map size).sum ≤ s.inq.length * largest := by
    have := List.sum_le_card_nsmul (s.inq.map size) largest (by
      intro y hy
      obtain ⟨x, hx, rfl⟩ := List.mem_map.1 hy
      cases x with
      | none => exact hn
      | some x => exact hi x (hk x (.inl hx)))
    simpa using this
  exact this.trans ((Nat.mul_le_mul_right _ hb).trans hr)

/-- **C143 is false** if an item fails while larger lines wait: the exception is raised and the process does not leave. For any pipe
there are such lines. -/
theorem C143_false (room : Nat) (size : Option ι → Nat) (bad large : ι) (hl : room < size (some large)) (fails : ι → Prop)
    (hb : fails bad) :
    ∃ s, PoolReachable 1 [bad, large] fails False False s ∧ s.main = .raised bad ∧ ¬ CanLeave room size s := by
  refine ⟨⟨.raised bad, [some large, none], [], [.exited], []⟩, ⟨9, ?_⟩, rfl, ?_⟩
  · have s0 := Pool.Steps.refl (jobs := 1) (fails := fails) (ints := False) (kills := False) (Pool.init 1 [bad, large])
    have s1 := s0.tail (.feed (.inr (by simp)))
    have s2 := s1.tail (.take (a := []) (b := []))
    have s3 := s2.tail .checkEmpty
    have s4 := s3.tail (.feed (.inr (by simp)))
    have s5 := s4.tail (.fail (a := []) (b := []) hb)
    have s6 := s5.tail (.putResult (a := []) (b := []) (by simp))
    have s7 := s6.tail (.checkFull (by simp))
    have s8 := s7.tail (.putNone (.inr (by simp)))
    exact s8.tail .getExc
  · simp only [CanLeave, List.map_cons, List.map_nil, List.sum_cons, List.sum_nil]
    omega

/-- **C143 is false** without workers: `write ()` returns, but with all of the input in the queue, so the process leaves exactly if the
input fits into the pipe. -/
theorem C143_no_workers (items : List ι) (fails : ι → Prop) (s : Pool ι) (h : PoolReachable 0 items fails False False s)
    (hs : Stuck 0 fails False False s) (room : Nat) (size : Option ι → Nat) :
    s.main = .done ∧ (CanLeave room size s ↔ (items.map fun x => size (some x)).sum ≤ room) := by
  obtain ⟨hd, -⟩ := C74_always items fails s h hs
  refine ⟨hd, ?_⟩
  have key : s.workers = [] ∧ s.outq = [] ∧ ((∃ fed todo, (s.main = .feeding todo ∨ s.main = .checking todo) ∧ items = fed ++ todo ∧
      s.inq = fed.map some) ∨ (s.main = .stopPut 0 ∨ s.main = .done) ∧ s.inq = items.map some) := by
    obtain ⟨n, h⟩ := h
    clear hd hs
    generalize he : Pool.init 0 items = s0 at h
    induction h with
    | refl => subst he; exact ⟨rfl, rfl, .inl ⟨[], items, .inl rfl, rfl, rfl⟩⟩
    | tail _ h2 ih =>
      obtain ⟨h1, h3, h4⟩ := ih he
      cases h2 with
      | feed =>
        refine ⟨h1, h3, ?_⟩
        rcases h4 with ⟨fed, todo, h5 | h5, h6, h7⟩ | ⟨h5 | h5, h6⟩ <;> cases h5
        dsimp only at h7
        subst h7
        exact .inl ⟨fed ++ [_], _, .inr rfl, by rw [h6, List.append_assoc]; rfl, by simp⟩
      | feedEnd =>
        refine ⟨h1, h3, ?_⟩
        rcases h4 with ⟨fed, todo, h5 | h5, h6, h7⟩ | ⟨h5 | h5, h6⟩ <;> cases h5
        exact .inr ⟨.inl rfl, by rw [h6, List.append_nil]; exact h7⟩
      | checkEmpty =>
        refine ⟨h1, h3, ?_⟩
        rcases h4 with ⟨fed, todo, h5 | h5, h6, h7⟩ | ⟨h5 | h5, h6⟩ <;> cases h5
        exact .inl ⟨fed, _, .inl rfl, h6, h7⟩
      | checkFull h => exact absurd h3 h
      | putNone =>
        rcases h4 with ⟨fed, todo, h5 | h5, h6, h7⟩ | ⟨h5 | h5, h6⟩ <;> cases h5
      | getOk => simp at h3
      | getExc => simp at h3
      | finish =>
        refine ⟨h1, h3, ?_⟩
        rcases h4 with ⟨fed, todo, h5 | h5, h6, h7⟩ | ⟨h5 | h5, h6⟩ <;> cases h5
        exact .inr ⟨.inr rfl, h6⟩
      | assertFail h => exact absurd h3 h
      | take => simp at h1
      | work => simp at h1
      | fail => simp at h1
      | takeNone => simp at h1
      | putResult => simp at h1
      | interrupt h => exact h.elim
      | kill h => exact h.elim
  obtain ⟨-, -, ⟨fed, todo, h5 | h5, -⟩ | ⟨-, h6⟩⟩ := key
  · rw [hd] at h5; cases h5
  · rw [hd] at h5; cases h5
  · rw [CanLeave, h6, List.map_map]
    rfl

/-- With `-j 0` and 64 KiB of room, a line of 65537 bytes is too much. -/
example : ∃ s, PoolReachable 0 [65537] (fun _ : Nat => False) False False s ∧ s.main = .done ∧
    ¬ CanLeave 65536 (fun x => x.getD 0) s := by
  refine ⟨⟨.done, [some 65537], [], [], []⟩, ⟨4, ?_⟩, rfl, by decide⟩
  have s0 := Pool.Steps.refl (jobs := 0) (fails := fun _ : Nat => False) (ints := False) (kills := False) (Pool.init 0 [65537])
  exact (((s0.tail (.feed (.inl rfl))).tail .checkEmpty).tail .feedEnd).tail .finish

/-- Four workers, lines of up to eight KiB. -/
example : 4 * 2 * 8192 ≤ 65536 := by decide

end Lulua.Props
