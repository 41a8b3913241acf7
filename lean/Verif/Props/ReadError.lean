import Verif.Model.ReadError
import Verif.Props.Exit

/-! # C144: input that cannot be read -/

namespace Lulua.Props
open Lulua Spec

variable {ι : Type}

/-- Reachable if the input breaks off after the items. -/
def BrokenReachable (jobs : Nat) (items : List ι) (fails : ι → Prop) (b : Broken ι) : Prop :=
  ∃ n, Broken.Steps jobs fails n (.running (Pool.init jobs items)) b

/-- The pool, still running or not. -/
def poolOf : Broken ι → Pool ι
  | .running s => s
  | .left s => s

theorem broken_pool {jobs : Nat} {items : List ι} {fails : ι → Prop} {b : Broken ι} (h : BrokenReachable jobs items fails b) :
    PoolReachable jobs items fails False False (poolOf b) := by
  obtain ⟨n, h⟩ := h
  generalize hs : Broken.running (Pool.init jobs items) = b0 at h
  induction h with
  | refl => subst hs; exact ⟨0, .refl _⟩
  | tail _ h2 ih =>
    obtain ⟨m, ih⟩ := ih hs
    cases h2 with
    | step h3 _ => exact ⟨_, ih.tail h3⟩
    | error _ => exact ⟨m, ih⟩

theorem left_feeding {jobs : Nat} {items : List ι} {fails : ι → Prop} {s : Pool ι}
    (h : BrokenReachable jobs items fails (.left s)) : s.main = .feeding [] := by
  obtain ⟨n, h⟩ := h
  generalize hb : Broken.left s = b at h
  cases h with
  | refl => cases hb
  | tail _ h2 =>
    cases h2 with
    | step _ _ => cases hb
    | error h3 => cases hb; exact h3

private theorem bad_step {jobs : Nat} {fails : ι → Prop} {s t : Pool ι} (h : Pool.Step jobs fails False False s t) (hb : s.Bad) :
    t.Bad := by
  have keep : ∀ {m m' : MState ι} {q q' : List (Option ι)} {o : List (Res ι)} {a b : List (WState ι)} {w w' : WState ι}
      {rs : List (List ι)}, WState.bad w = false → m = m' → Pool.Bad ⟨m, q, o, a ++ w :: b, rs⟩ →
      Pool.Bad ⟨m', q', o, a ++ w' :: b, rs⟩ := by
    intro m m' q q' o a b w w' rs hw hm h
    subst hm
    exact bad_mid hw h
  cases h with
  | take => exact keep rfl rfl hb
  | work _ => exact keep rfl rfl hb
  | fail _ => exact keep rfl rfl hb
  | takeNone => exact keep rfl rfl hb
  | @putResult m inq outq a b r rs hl =>
    rcases hb with ⟨w, hw, hx⟩ | ⟨x, hx, hy⟩ | h | h
    · rcases List.mem_append.1 hw with hw | hw
      · exact .inl ⟨w, List.mem_append_left _ hw, hx⟩
      · rcases List.mem_cons.1 hw with rfl | hw
        · cases r with
          | ok l => simp [WState.bad] at hx
          | exc x => exact .inr (.inl ⟨.exc x, by simp, rfl⟩)
        · exact .inl ⟨w, List.mem_append_right _ (List.mem_cons_of_mem _ hw), hx⟩
    · exact .inr (.inl ⟨x, List.mem_append_left _ hx, hy⟩)
    · exact .inr (.inr (.inl h))
    · exact .inr (.inr (.inr h))
  | getOk =>
    rcases hb with h | ⟨x, hx, hy⟩ | ⟨x, h⟩ | h
    · exact .inl h
    · rcases List.mem_cons.1 hx with rfl | hx
      · simp [Res.bad] at hy
      · exact .inr (.inl ⟨x, hx, hy⟩)
    · cases h
    · cases h
  | getExc => exact .inr (.inr (.inl ⟨_, rfl⟩))
  | interrupt h => exact h.elim
  | kill h => exact h.elim
  | assertFail _ => exact .inr (.inr (.inr rfl))
  | _ =>
    rcases hb with h | h | ⟨x, h⟩ | h
    · exact .inl h
    · exact .inr (.inl h)
    · cases h
    · cases h

/-- Past reading there was an exception of an item. -/
private theorem past_bad {jobs : Nat} {items : List ι} {fails : ι → Prop} {b : Broken ι} (h : BrokenReachable jobs items fails b) :
    (∃ l, (poolOf b).main = .feeding l ∨ (poolOf b).main = .checking l) ∨ (poolOf b).Bad := by
  obtain ⟨n, h⟩ := h
  generalize hs : Broken.running (Pool.init jobs items) = b0 at h
  induction h with
  | refl => subst hs; exact .inl ⟨items, .inl rfl⟩
  | @tail n s0 t u h1 h2 ih =>
    subst hs
    have hr : BrokenReachable jobs items fails t := ⟨n, h1⟩
    have ih := ih rfl
    cases h2 with
    | error _ => exact ih
    | @step s t h3 h4 =>
      rcases ih with ⟨l, hl⟩ | hb
      · have early := (poolInv_reachable (broken_pool hr)).early ⟨l, hl⟩
        simp only [poolOf] at hl early
        cases h3 with
        | feedEnd => exact absurd (h4 rfl) (by simp)
        | feed _ => exact .inl ⟨_, .inr rfl⟩
        | checkEmpty => exact .inl ⟨_, .inl rfl⟩
        | @checkFull xs inq outq ws rs ho =>
          right
          obtain ⟨r, hr⟩ := List.exists_mem_of_ne_nil _ ho
          exact .inr (.inl ⟨r, hr, early.2.1 r hr⟩)
        | putNone _ => rcases hl with h | h <;> cases h
        | getOk => rcases hl with h | h <;> cases h
        | getExc => rcases hl with h | h <;> cases h
        | finish => rcases hl with h | h <;> cases h
        | assertFail _ => rcases hl with h | h <;> cases h
        | interrupt h => exact h.elim
        | kill h => exact h.elim
        | _ => exact .inl ⟨l, hl⟩
      · exact .inr (bad_step h3 hb)

/-- If the input cannot be read to its end, `write ()` writes no statistics before it is left by the exception, whatever has been
processed by then. -/
theorem C144_nothing_written (jobs : Nat) (items : List ι) (fails : ι → Prop) (s : Pool ι)
    (h : BrokenReachable jobs items fails (.left s)) : s.results = [] := by
  have hc := (poolInv_reachable (broken_pool h)).counts
  simp only [poolOf, Pool.Counts, left_feeding h] at hc
  exact hc

/-- With at least one worker it never returns normally. -/
theorem C144_not_silent (jobs : Nat) (hj : 0 < jobs) (items : List ι) (fails : ι → Prop) (b : Broken ι)
    (h : BrokenReachable jobs items fails b) : (poolOf b).main ≠ .done := by
  intro hd
  have hp := poolInv_reachable (broken_pool h)
  obtain ⟨-, h2, h3, -⟩ := done_all hj hp hd
  rcases past_bad h with ⟨l, hl⟩ | ⟨w, hw, hb⟩ | ⟨r, hr, _⟩ | ⟨x, hx⟩ | hx
  · rw [hd] at hl; rcases hl with h | h <;> cases h
  · rw [h3 w hw] at hb; simp [WState.bad] at hb
  · rw [h2] at hr; simp at hr
  · rw [hd] at hx; cases hx
  · rw [hd] at hx; cases hx

/-- **C144** (partial: fewer failing items than workers, see `C27_false`): it ends with the exception of reading, or that of a failing item. -/
theorem C144_reported_partial (jobs : Nat) (items : List ι) (fails : ι → Prop) [DecidablePred fails]
    (hf : items.countP (fun x => decide (fails x)) < jobs) (b : Broken ι) (h : BrokenReachable jobs items fails b)
    (hs : ∀ c, ¬ Broken.Step jobs fails b c) :
    (∃ s, b = .left s) ∨ ∃ x ∈ items, fails x ∧ (poolOf b).main = .raised x := by
  cases b with
  | left s => exact .inl ⟨s, rfl⟩
  | running s =>
    right
    have hr := broken_pool h
    have hp := poolInv_reachable hr
    have he : Ended s := by
      by_contra he
      obtain ⟨t, ht⟩ := progress hf hp (failInv_reachable hr) he
      by_cases hm : s.main = .feeding []
      · exact hs _ (.error hm)
      · exact hs _ (.step ht fun h => absurd h hm)
    rcases he with h1 | ⟨x, h1⟩ | h1
    · exact absurd h1 (C144_not_silent jobs (by omega) items fails _ h)
    · have := hp.failed x (.inr (.inr h1))
      exact ⟨x, this.1, this.2, h1⟩
    · exact absurd h1 (no_assertion hr)

/-- If no item fails, it ends with the exception of reading. -/
theorem C144_reported (jobs : Nat) (hj : 0 < jobs) (items : List ι) (fails : ι → Prop) (hf : ∀ x ∈ items, ¬ fails x) (b : Broken ι)
    (h : BrokenReachable jobs items fails b) (hs : ∀ c, ¬ Broken.Step jobs fails b c) : ∃ s, b = .left s ∧ s.results = [] := by
  classical
  rcases C144_reported_partial jobs items fails (by rw [List.countP_eq_zero.2 (by simpa using hf)]; exact hj) b h hs with
    ⟨s, rfl⟩ | ⟨x, hx, hx', _⟩
  · exact ⟨s, rfl, C144_nothing_written jobs items fails s h⟩
  · exact absurd hx' (hf x hx)

/-- An execution is finite. -/
theorem C144_terminates (jobs : Nat) (items : List ι) (fails : ι → Prop) (n : Nat) (b : Broken ι)
    (h : Broken.Steps jobs fails n (.running (Pool.init jobs items)) b) : n ≤ 5 * items.length + 6 * jobs + 3 := by
  have key : ∀ n b, Broken.Steps jobs fails n (.running (Pool.init jobs items)) b →
      (∀ s, b = .running s → Pool.Steps jobs fails False False n (Pool.init jobs items) s) ∧ n ≤ 5 * items.length + 6 * jobs + 3 := by
    intro n b h
    generalize hs : Broken.running (Pool.init jobs items) = b0 at h
    induction h with
    | refl => subst hs; exact ⟨fun s hs => by cases hs; exact .refl _, by omega⟩
    | tail _ h2 ih =>
      obtain ⟨i1, -⟩ := ih hs
      cases h2 with
      | step h3 _ =>
        have h4 := (i1 _ rfl).tail h3
        exact ⟨fun s hs => by cases hs; exact h4, (C26_terminates jobs items fails False False _ _ h4).trans (by omega)⟩
      | error _ => exact ⟨fun s hs => (by cases hs), by have := C26_terminates jobs items fails False False _ _ (i1 _ rfl); omega⟩
  exact (key n b h).2

/-- A user expects that what was read before is not lost. False: with one worker and one good line, the line has been processed, but no
statistics are written. -/
theorem C144_false : ∃ s, BrokenReachable 1 [7] (fun _ : Nat => False) (.left s) ∧ s.workers = [.idle [7]] ∧ s.results = [] := by
  refine ⟨⟨.feeding [], [], [], [.idle [7]], []⟩, ⟨5, ?_⟩, rfl, rfl⟩
  have s0 := Broken.Steps.refl (jobs := 1) (fails := fun _ : Nat => False) (.running (Pool.init 1 [7]))
  have s1 := s0.tail (.step (.feed (.inr (by decide))) (by simp [Pool.init]))
  have s2 := s1.tail (.step (.take (a := []) (b := [])) (by simp))
  have s3 := s2.tail (.step (.work (a := []) (b := []) id) (by simp))
  have s4 := s3.tail (.step .checkEmpty (by simp))
  exact s4.tail (.error rfl)

end Lulua.Props
