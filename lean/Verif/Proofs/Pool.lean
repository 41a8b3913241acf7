import Verif.Spec.Pool
import Mathlib.Data.List.Perm.Basic
import Mathlib.Algebra.BigOperators.Group.List.Basic

namespace Lulua
open Spec

variable {ι : Type}

/-! ### Termination -/

def WState.weight : WState ι → Nat
  | .idle _ => 1
  | .busy _ _ => 3
  | .finishing _ => 2
  | .exited => 0
  | .killed => 0

def inWeight : Option ι → Nat
  | some _ => 3
  | none => 2

def MState.weight (jobs : Nat) : MState ι → Nat
  | .feeding todo => 5 * todo.length + 5 * jobs + 2
  | .checking todo => 5 * todo.length + 5 * jobs + 3
  | .stopPut n => 5 * n + 1
  | .stopGet n => 5 * n - 2
  | .done => 0
  | .raised _ => 0
  | .assertion => 0

def Pool.weight (jobs : Nat) (s : Pool ι) : Nat :=
  s.main.weight jobs + (s.inq.map inWeight).sum + (s.workers.map WState.weight).sum

theorem step_weight {jobs : Nat} {fails : ι → Prop} {ints kills : Prop} {s t : Pool ι}
    (h : Pool.Step jobs fails ints kills s t) : t.weight jobs < s.weight jobs := by
  cases h with
  | kill _ h1 h2 =>
    rename_i m inq outq a b w rs _
    have : 0 < w.weight := by cases w <;> simp_all [WState.weight]
    have e : WState.weight (.killed : WState ι) = 0 := rfl
    simp only [Pool.weight, List.map_append, List.map_cons, List.sum_append, List.sum_cons, e]
    omega
  | _ => simp [Pool.weight, MState.weight, WState.weight, inWeight] <;> omega

theorem steps_weight {jobs : Nat} {fails : ι → Prop} {ints kills : Prop} {n : Nat} {s t : Pool ι}
    (h : Pool.Steps jobs fails ints kills n s t) : t.weight jobs + n ≤ s.weight jobs := by
  induction h with
  | refl => simp
  | tail _ h ih => have := step_weight h; omega

theorem init_weight (jobs : Nat) (items : List ι) :
    (Pool.init jobs items).weight jobs = 5 * items.length + 6 * jobs + 2 := by
  simp [Pool.weight, Pool.init, MState.weight, WState.weight]
  omega

/-! ### What is where -/

/-- Items processed or being processed by a worker that has not delivered. -/
def WState.items : WState ι → List ι
  | .idle l => l
  | .busy l x => l ++ [x]
  | .finishing (.ok l) => l
  | _ => []

def Res.items : Res ι → List ι
  | .ok l => l
  | .exc _ => []

/-- All items that entered the pool, wherever they are now. -/
def Pool.everything (s : Pool ι) : List ι :=
  s.results.flatten ++ (s.outq.map Res.items).flatten ++ (s.workers.map WState.items).flatten ++ s.inq.filterMap id

/-- A worker that has not delivered. -/
def WState.pending : WState ι → Bool
  | .exited => false
  | _ => true

/-- An exception on its way, or a killed worker. -/
def WState.bad : WState ι → Bool
  | .finishing (.exc _) => true
  | .killed => true
  | _ => false

def Res.bad : Res ι → Bool
  | .exc _ => true
  | .ok _ => false

/-- Statistics on their way. -/
def WState.good : WState ι → Bool
  | .finishing (.ok _) => true
  | _ => false

/-- Something went wrong, visibly for the rest of the run. -/
def Pool.Bad (s : Pool ι) : Prop :=
  (∃ w ∈ s.workers, WState.bad w = true) ∨ (∃ r ∈ s.outq, Res.bad r = true) ∨ (∃ x, s.main = .raised x) ∨
    s.main = .assertion

/-- The part of the input that has been read. -/
def Pool.Read (items : List ι) (s : Pool ι) (fed : List ι) : Prop :=
  match s.main with
  | .feeding todo => items = fed ++ todo
  | .checking todo => items = fed ++ todo
  | _ => fed <+: items

/-- Results so far and results to come. -/
def Pool.Counts (jobs : Nat) (s : Pool ι) : Prop :=
  match s.main with
  | .feeding _ => s.results = []
  | .checking _ => s.results = []
  | .stopPut n => s.results.length + n = jobs
  | .stopGet n => s.results.length + n = jobs
  | .done => s.results.length = jobs
  | .raised _ => True
  | .assertion => True

/-- Before stopping, nobody has been told to stop. -/
def Pool.Early (s : Pool ι) : Prop :=
  none ∉ s.inq ∧ (∀ r ∈ s.outq, Res.bad r = true) ∧ (∀ w ∈ s.workers, WState.good w = false)

structure PoolInv (jobs : Nat) (items : List ι) (fails : ι → Prop) (s : Pool ι) : Prop where
  number : s.workers.length = jobs
  get0 : s.main ≠ .stopGet 0
  pending : (∃ x, s.main = .raised x) ∨ (s.workers.countP WState.pending + s.outq.length + s.results.length = jobs)
  counts : s.Counts jobs
  early : (∃ l, s.main = .feeding l ∨ s.main = .checking l) → s.Early
  order : ∃ (xs : List ι) (k : Nat), s.inq = xs.map some ++ List.replicate k none ∧
    (xs ≠ [] → (∀ r ∈ s.outq, Res.bad r = true) ∧ (∀ w ∈ s.workers, WState.good w = false) ∧ s.results = [])
  conserve : s.Bad ∨ ∃ fed, s.Read items fed ∧ s.everything.Perm fed
  known : ∀ x, (some x ∈ s.inq ∨ (∃ l, WState.busy l x ∈ s.workers) ∨
    (∃ todo, (s.main = .feeding todo ∨ s.main = .checking todo) ∧ x ∈ todo)) → x ∈ items
  failed : ∀ x, (WState.finishing (.exc x) ∈ s.workers ∨ .exc x ∈ s.outq ∨ s.main = .raised x) →
    x ∈ items ∧ fails x

theorem countP_mid {a b : List (WState ι)} {w w' : WState ι} (p : WState ι → Bool) (h : p w = p w') :
    (a ++ w :: b).countP p = (a ++ w' :: b).countP p := by
  simp [List.countP_append, List.countP_cons, h]

theorem bad_mid {m : MState ι} {inq inq' : List (Option ι)} {outq : List (Res ι)} {a b : List (WState ι)}
    {w w' : WState ι} {rs : List (List ι)} (hw : WState.bad w = false)
    (h : Pool.Bad ⟨m, inq, outq, a ++ w :: b, rs⟩) : Pool.Bad ⟨m, inq', outq, a ++ w' :: b, rs⟩ := by
  rcases h with ⟨x, hx, hb⟩ | h
  · left
    simp only [List.mem_append, List.mem_cons] at hx
    rcases hx with hx | rfl | hx
    · exact ⟨x, by simp [hx], hb⟩
    · rw [hw] at hb; simp at hb
    · exact ⟨x, by simp [hx], hb⟩
  · exact .inr h

theorem poolInv_init (jobs : Nat) (items : List ι) (fails : ι → Prop) :
    PoolInv jobs items fails (Pool.init jobs items) where
  number := by simp [Pool.init]
  get0 := by simp [Pool.init]
  pending := .inr (by
    have : WState.pending (.idle [] : WState ι) = true := rfl
    simp [Pool.init, List.countP_replicate, this])
  counts := rfl
  early := fun _ => ⟨by simp [Pool.init], by simp [Pool.init], by
    intro w hw
    simp only [Pool.init, List.mem_replicate] at hw
    rw [hw.2]; rfl⟩
  order := ⟨[], 0, rfl, fun h => absurd rfl h⟩
  conserve := .inr ⟨[], rfl, by simp [Pool.everything, Pool.init, WState.items]⟩
  known := by
    intro x h
    rcases h with h | ⟨l, h⟩ | ⟨todo, h | h, hx⟩
    · simp [Pool.init] at h
    · simp [Pool.init] at h
    · simp only [Pool.init, MState.feeding.injEq] at h; rw [h]; exact hx
    · simp [Pool.init] at h
  failed := by
    intro x h
    simp [Pool.init] at h

theorem poolInv_step {jobs : Nat} {items : List ι} {fails : ι → Prop} {ints kills : Prop} {s t : Pool ι}
    (hi : PoolInv jobs items fails s) (h : Pool.Step jobs fails ints kills s t) : PoolInv jobs items fails t := by
  obtain ⟨i1, i0, i2, i3, i4, ⟨xs, k, i5, i5'⟩, i6, i7, i8⟩ := hi
  cases h with
  | feed hl =>
    rename_i x rest inq outq ws rs
    have e := i4 ⟨_, .inl rfl⟩
    have hk : k = 0 := by
      by_contra hk
      apply e.1
      simp only at i5 ⊢
      rw [i5]
      simp [hk]
    subst hk
    simp only [List.replicate_zero, List.append_nil] at i5
    refine ⟨i1, by first | exact i0 | simp, by simpa using i2, i3, fun _ => ⟨?_, e.2.1, e.2.2⟩, ⟨xs ++ [x], 0, ?_, ?_⟩, ?_, ?_, ?_⟩
    · have := e.1; simpa using this
    · simp [i5]
    · intro _; exact ⟨e.2.1, e.2.2, i3⟩
    · rcases i6 with i6 | ⟨fed, h1, h2⟩
      · left; simpa [Pool.Bad] using i6
      · right
        refine ⟨fed ++ [x], ?_, ?_⟩
        · simp only [Pool.Read] at h1 ⊢; simp [h1]
        · have : Pool.everything (⟨.checking rest, inq ++ [some x], outq, ws, rs⟩ : Pool ι) =
              Pool.everything (⟨.feeding (x :: rest), inq, outq, ws, rs⟩ : Pool ι) ++ [x] := by
            simp [Pool.everything]
          rw [this]; exact h2.append_right _
    · intro y hy
      apply i7 y
      rcases hy with hy | hy | ⟨todo, hy | hy, hyt⟩
      · simp only [List.mem_append, List.mem_singleton, Option.some.injEq] at hy
        rcases hy with hy | rfl
        · exact .inl hy
        · exact .inr (.inr ⟨_, .inl rfl, by simp⟩)
      · exact .inr (.inl hy)
      · simp at hy
      · simp only [MState.checking.injEq] at hy
        subst hy
        exact .inr (.inr ⟨_, .inl rfl, by simp [hyt]⟩)
    · intro y hy; exact i8 y (by simpa using hy)
  | feedEnd =>
    refine ⟨i1, by first | exact i0 | simp, by simpa using i2, ?_, by simp, ⟨xs, k, i5, i5'⟩, ?_, ?_, ?_⟩
    · simp only [Pool.Counts] at i3 ⊢; simp [i3]
    · rcases i6 with i6 | ⟨fed, h1, h2⟩
      · left; simpa [Pool.Bad] using i6
      · right
        simp only [Pool.Read, List.append_nil] at h1
        exact ⟨fed, by simp [Pool.Read, h1], h2⟩
    · intro y hy
      apply i7 y
      rcases hy with hy | hy | ⟨todo, hy, _⟩
      · exact .inl hy
      · exact .inr (.inl hy)
      · simp at hy
    · intro y hy; exact i8 y (by simpa using hy)
  | checkEmpty =>
    rename_i rest inq outq ws rs
    refine ⟨i1, by first | exact i0 | simp, by simpa using i2, i3, fun _ => i4 ⟨_, .inr rfl⟩, ⟨xs, k, i5, i5'⟩, ?_, ?_, ?_⟩
    · rcases i6 with i6 | ⟨fed, h1, h2⟩
      · left; simpa [Pool.Bad] using i6
      · right; exact ⟨fed, h1, h2⟩
    · intro y hy
      apply i7 y
      rcases hy with hy | hy | ⟨todo, hy | hy, hyt⟩
      · exact .inl hy
      · exact .inr (.inl hy)
      · simp only [MState.feeding.injEq] at hy
        exact .inr (.inr ⟨_, .inr rfl, by rw [hy]; exact hyt⟩)
      · simp at hy
    · intro y hy; exact i8 y (by simpa using hy)
  | checkFull ho =>
    rename_i rest inq outq ws rs
    have e := i4 ⟨_, .inr rfl⟩
    refine ⟨i1, by first | exact i0 | simp, by simpa using i2, ?_, by simp, ⟨xs, k, i5, i5'⟩, ?_, ?_, ?_⟩
    · simp only [Pool.Counts] at i3 ⊢; simp [i3]
    · left
      obtain ⟨r, hr⟩ := List.exists_mem_of_ne_nil _ ho
      exact .inr (.inl ⟨r, hr, e.2.1 r hr⟩)
    · intro y hy
      apply i7 y
      rcases hy with hy | hy | ⟨todo, hy, _⟩
      · exact .inl hy
      · exact .inr (.inl hy)
      · simp at hy
    · intro y hy; exact i8 y (by simpa using hy)
  | putNone hl =>
    rename_i n inq outq ws rs
    refine ⟨i1, by first | exact i0 | simp, by simpa using i2, i3, by simp, ⟨xs, k + 1, ?_, i5'⟩, ?_, ?_, ?_⟩
    · simp only at i5 ⊢
      rw [i5, List.append_assoc, ← List.replicate_succ']
    · rcases i6 with i6 | ⟨fed, h1, h2⟩
      · left; simpa [Pool.Bad] using i6
      · right; exact ⟨fed, h1, by simpa [Pool.everything] using h2⟩
    · intro y hy
      apply i7 y
      rcases hy with hy | hy | ⟨todo, hy, _⟩
      · left; simpa using hy
      · exact .inr (.inl hy)
      · simp at hy
    · intro y hy; exact i8 y (by simpa using hy)
  | getOk =>
    rename_i n inq l outq ws rs
    have hx : xs = [] := by
      by_contra hx
      have := (i5' hx).1 (.ok l) (by simp)
      simp [Res.bad] at this
    subst hx
    refine ⟨i1, by first | exact i0 | simp, ?_, ?_, by simp, ⟨[], k, i5, fun h => absurd rfl h⟩, ?_, ?_, ?_⟩
    · right
      rcases i2 with ⟨x, i2⟩ | i2
      · simp at i2
      · simp only [List.length_cons, List.length_append, List.length_nil] at i2 ⊢; omega
    · simp only [Pool.Counts, List.length_append, List.length_cons, List.length_nil] at i3 ⊢; omega
    · rcases i6 with i6 | ⟨fed, h1, h2⟩
      · left
        rcases i6 with h | ⟨r, hr, hb⟩ | ⟨x, h⟩ | h
        · exact .inl h
        · simp only [List.mem_cons] at hr
          rcases hr with rfl | hr
          · simp [Res.bad] at hb
          · exact .inr (.inl ⟨r, hr, hb⟩)
        · simp at h
        · simp at h
      · right; exact ⟨fed, h1, by simpa [Pool.everything, Res.items] using h2⟩
    · intro y hy
      apply i7 y
      rcases hy with hy | hy | ⟨todo, hy, _⟩
      · exact .inl hy
      · exact .inr (.inl hy)
      · simp at hy
    · intro y hy
      refine i8 y ?_
      rcases hy with hy | hy | hy
      · exact .inl hy
      · exact .inr (.inl (by simp [hy]))
      · simp at hy
  | getExc =>
    rename_i n inq x outq ws rs
    refine ⟨i1, by first | exact i0 | simp, .inl ⟨x, rfl⟩, trivial, by simp, ⟨xs, k, i5, fun h => ?_⟩, .inl (.inr (.inr (.inl ⟨x, rfl⟩))), ?_, ?_⟩
    · obtain ⟨a, b, c⟩ := i5' h
      exact ⟨fun r hr => a r (by simp [hr]), b, c⟩
    · intro y hy
      apply i7 y
      rcases hy with hy | hy | ⟨todo, hy, _⟩
      · exact .inl hy
      · exact .inr (.inl hy)
      · simp at hy
    · intro y hy
      refine i8 y ?_
      rcases hy with hy | hy | hy
      · exact .inl hy
      · exact .inr (.inl (by simp [hy]))
      · simp only [MState.raised.injEq] at hy; subst hy; exact .inr (.inl (by simp))
  | finish =>
    refine ⟨i1, by first | exact i0 | simp, by simpa using i2, i3, by simp, ⟨xs, k, i5, i5'⟩, ?_, ?_, ?_⟩
    · rcases i6 with i6 | ⟨fed, h1, h2⟩
      · left; simpa [Pool.Bad] using i6
      · right; exact ⟨fed, h1, h2⟩
    · intro y hy; exact i7 y (by simpa using hy)
    · intro y hy; exact i8 y (by simpa using hy)
  | assertFail ho =>
    refine ⟨i1, by first | exact i0 | simp, by simpa using i2, trivial, by simp, ⟨xs, k, i5, i5'⟩, .inl (.inr (.inr (.inr rfl))), ?_, ?_⟩
    · intro y hy; exact i7 y (by simpa using hy)
    · intro y hy; exact i8 y (by simpa using hy)
  | take =>
    rename_i m x inq outq a b l rs
    cases xs with
    | nil =>
      cases k with
      | zero => simp at i5
      | succ k => simp [List.replicate_succ] at i5
    | cons x' xs =>
      simp only [List.map_cons, List.cons_append, List.cons.injEq, Option.some.injEq] at i5
      obtain ⟨rfl, i5⟩ := i5
      obtain ⟨o1, o2, o3⟩ := i5' (by simp)
      have o2' : ∀ w ∈ a ++ .busy l x :: b, WState.good w = false := by
        intro w hw
        simp only [List.mem_append, List.mem_cons] at hw
        rcases hw with hw | rfl | hw
        · exact o2 w (by simp [hw])
        · rfl
        · exact o2 w (by simp [hw])
      refine ⟨by simpa using i1, i0, ?_, i3, ?_, ⟨xs, k, i5, fun h => ⟨o1, o2', o3⟩⟩, ?_, ?_, ?_⟩
      · have e := countP_mid (a := a) (b := b) (w := .idle l) (w' := .busy l x) WState.pending rfl; simp only [← e]; exact i2
      · intro h
        obtain ⟨e1, e2, e3⟩ := i4 h
        exact ⟨fun h => e1 (by simp [h]), e2, o2'⟩
      · rcases i6 with i6 | ⟨fed, h1, h2⟩
        · left; exact bad_mid rfl i6
        · right
          refine ⟨fed, h1, ?_⟩
          refine List.Perm.trans ?_ h2
          simp only [Pool.everything, List.map_append, List.map_cons, WState.items, List.flatten_append,
            List.flatten_cons, List.append_assoc, List.filterMap_cons, id]
          refine List.Perm.append_left _ (List.Perm.append_left _ (List.Perm.append_left _ (List.Perm.append_left _ ?_)))
          rw [← List.append_assoc, List.singleton_append, List.cons_append]
          exact List.perm_middle.symm
      · intro y hy
        apply i7 y
        rcases hy with hy | ⟨l', hy⟩ | hy
        · left; simp [hy]
        · simp only [List.mem_append, List.mem_cons, WState.busy.injEq] at hy
          rcases hy with hy | ⟨_, rfl⟩ | hy
          · exact .inr (.inl ⟨l', by simp [hy]⟩)
          · left; simp
          · exact .inr (.inl ⟨l', by simp [hy]⟩)
        · exact .inr (.inr hy)
      · intro y hy
        exact i8 y (by simpa using hy)
  | work hf =>
    rename_i m x inq outq a b l rs
    have o2' : (∀ w ∈ a ++ .busy l x :: b, WState.good w = false) →
        ∀ w ∈ a ++ .idle (l ++ [x]) :: b, WState.good w = false := by
      intro o2 w hw
      simp only [List.mem_append, List.mem_cons] at hw
      rcases hw with hw | rfl | hw
      · exact o2 w (by simp [hw])
      · rfl
      · exact o2 w (by simp [hw])
    refine ⟨by simpa using i1, i0, ?_, i3, ?_, ⟨xs, k, i5, fun h => ?_⟩, ?_, ?_, ?_⟩
    · have e := countP_mid (a := a) (b := b) (w := .busy l x) (w' := .idle (l ++ [x])) WState.pending rfl; simp only [← e]; exact i2
    · intro h
      obtain ⟨e1, e2, e3⟩ := i4 h
      exact ⟨e1, e2, o2' e3⟩
    · obtain ⟨p, q, r⟩ := i5' h
      exact ⟨p, o2' q, r⟩
    · rcases i6 with i6 | ⟨fed, h1, h2⟩
      · left; exact bad_mid rfl i6
      · right
        exact ⟨fed, h1, by simpa [Pool.everything, WState.items] using h2⟩
    · intro y hy
      apply i7 y
      rcases hy with hy | ⟨l', hy⟩ | hy
      · exact .inl hy
      · right; left
        refine ⟨l', ?_⟩
        simp only [List.mem_append, List.mem_cons, reduceCtorEq, false_or] at hy ⊢
        rcases hy with hy | hy <;> simp [hy]
      · exact .inr (.inr hy)
    · intro y hy
      exact i8 y (by simpa using hy)
  | fail hf =>
    rename_i m x inq outq a b l rs
    have o2' : (∀ w ∈ a ++ .busy l x :: b, WState.good w = false) →
        ∀ w ∈ a ++ .finishing (.exc x) :: b, WState.good w = false := by
      intro o2 w hw
      simp only [List.mem_append, List.mem_cons] at hw
      rcases hw with hw | rfl | hw
      · exact o2 w (by simp [hw])
      · rfl
      · exact o2 w (by simp [hw])
    refine ⟨by simpa using i1, i0, ?_, i3, ?_, ⟨xs, k, i5, fun h => ?_⟩,
      .inl (.inl ⟨.finishing (.exc x), by simp, rfl⟩), ?_, ?_⟩
    · have e := countP_mid (a := a) (b := b) (w := .busy l x) (w' := .finishing (.exc x)) WState.pending rfl; simp only [← e]; exact i2
    · intro h
      obtain ⟨e1, e2, e3⟩ := i4 h
      exact ⟨e1, e2, o2' e3⟩
    · obtain ⟨p, q, r⟩ := i5' h
      exact ⟨p, o2' q, r⟩
    · intro y hy
      apply i7 y
      rcases hy with hy | ⟨l', hy⟩ | hy
      · exact .inl hy
      · right; left
        refine ⟨l', ?_⟩
        simp only [List.mem_append, List.mem_cons, reduceCtorEq, false_or] at hy ⊢
        rcases hy with hy | hy <;> simp [hy]
      · exact .inr (.inr hy)
    · intro y hy
      rcases hy with hy | hy | hy
      · simp only [List.mem_append, List.mem_cons, WState.finishing.injEq, Res.exc.injEq] at hy
        rcases hy with hy | rfl | hy
        · exact i8 y (.inl (by simp [hy]))
        · exact ⟨i7 y (.inr (.inl ⟨l, by simp⟩)), hf⟩
        · exact i8 y (.inl (by simp [hy]))
      · exact i8 y (.inr (.inl hy))
      · exact i8 y (.inr (.inr hy))
  | takeNone =>
    rename_i m inq outq a b l rs
    have hx : xs = [] := by
      cases xs with
      | nil => rfl
      | cons x' xs => simp at i5
    subst hx
    cases k with
    | zero => simp at i5
    | succ k =>
      simp only [List.map_nil, List.nil_append, List.replicate_succ, List.cons.injEq, true_and] at i5
      refine ⟨by simpa using i1, i0, ?_, i3, ?_, ⟨[], k, by simpa using i5, fun h => absurd rfl h⟩, ?_, ?_, ?_⟩
      · have e := countP_mid (a := a) (b := b) (w := .idle l) (w' := .finishing (.ok l)) WState.pending rfl; simp only [← e]; exact i2
      · intro h
        exact absurd (List.mem_cons_self ..) (i4 h).1
      · rcases i6 with i6 | ⟨fed, h1, h2⟩
        · left; exact bad_mid rfl i6
        · right
          exact ⟨fed, h1, by simpa [Pool.everything, WState.items] using h2⟩
      · intro y hy
        apply i7 y
        rcases hy with hy | ⟨l', hy⟩ | hy
        · left; simp [hy]
        · right; left
          refine ⟨l', ?_⟩
          simp only [List.mem_append, List.mem_cons, reduceCtorEq, false_or] at hy ⊢
          rcases hy with hy | hy <;> simp [hy]
        · exact .inr (.inr hy)
      · intro y hy
        exact i8 y (by simpa using hy)
  | putResult hl =>
    rename_i m inq outq a b r rs
    have o1' : (∀ w ∈ a ++ .finishing r :: b, WState.good w = false) → (∀ r ∈ outq, Res.bad r = true) →
        (∀ r' ∈ outq ++ [r], Res.bad r' = true) ∧ ∀ w ∈ a ++ .exited :: b, WState.good w = false := by
      intro o2 o1
      constructor
      · intro r' hr
        simp only [List.mem_append, List.mem_singleton] at hr
        rcases hr with hr | rfl
        · exact o1 r' hr
        · have := o2 (.finishing r') (by simp)
          cases r' with
          | ok l => simp [WState.good] at this
          | exc x => rfl
      · intro w hw
        simp only [List.mem_append, List.mem_cons] at hw
        rcases hw with hw | rfl | hw
        · exact o2 w (by simp [hw])
        · rfl
        · exact o2 w (by simp [hw])
    refine ⟨by simpa using i1, i0, ?_, i3, ?_, ⟨xs, k, i5, fun h => ?_⟩, ?_, ?_, ?_⟩
    · rcases i2 with i2 | i2
      · exact .inl i2
      · right
        simp only [List.countP_append, List.countP_cons, WState.pending, List.length_append, List.length_cons,
          List.length_nil] at i2 ⊢
        simp only [if_true] at i2
        simp
        omega
    · intro h
      obtain ⟨e1, e2, e3⟩ := i4 h
      exact ⟨e1, o1' e3 e2⟩
    · obtain ⟨p, q, r⟩ := i5' h
      obtain ⟨u, v⟩ := o1' q p
      exact ⟨u, v, r⟩
    · rcases i6 with i6 | ⟨fed, h1, h2⟩
      · left
        rcases i6 with ⟨w, hw, hb⟩ | ⟨r', hr, hb⟩ | h | h
        · simp only [List.mem_append, List.mem_cons] at hw
          rcases hw with hw | rfl | hw
          · exact .inl ⟨w, by simp [hw], hb⟩
          · refine .inr (.inl ⟨r, by simp, ?_⟩)
            cases r with
            | ok l => simp [WState.bad] at hb
            | exc x => rfl
          · exact .inl ⟨w, by simp [hw], hb⟩
        · exact .inr (.inl ⟨r', by simp [hr], hb⟩)
        · exact .inr (.inr (.inl h))
        · exact .inr (.inr (.inr h))
      · cases r with
        | exc x => left; exact .inr (.inl ⟨.exc x, by simp, rfl⟩)
        | ok l =>
          right
          refine ⟨fed, h1, ?_⟩
          refine List.Perm.trans ?_ h2
          simp only [Pool.everything, List.map_append, List.map_cons, WState.items, Res.items, List.flatten_append,
            List.flatten_cons, List.append_assoc, List.map_nil, List.flatten_nil, List.nil_append, List.append_nil]
          refine List.Perm.append_left _ (List.Perm.append_left _ ?_)
          rw [← List.append_assoc, ← List.append_assoc (List.map WState.items a).flatten]
          exact List.Perm.append_right _ List.perm_append_comm
    · intro y hy
      apply i7 y
      rcases hy with hy | ⟨l', hy⟩ | hy
      · exact .inl hy
      · right; left
        refine ⟨l', ?_⟩
        simp only [List.mem_append, List.mem_cons, reduceCtorEq, false_or] at hy ⊢
        rcases hy with hy | hy <;> simp [hy]
      · exact .inr (.inr hy)
    · intro y hy
      apply i8 y
      rcases hy with hy | hy | hy
      · left
        simp only [List.mem_append, List.mem_cons, reduceCtorEq, false_or] at hy ⊢
        rcases hy with hy | hy <;> simp [hy]
      · simp only [List.mem_append, List.mem_singleton] at hy
        rcases hy with hy | rfl
        · exact .inr (.inl hy)
        · left; simp
      · exact .inr (.inr hy)
  | interrupt hf =>
    rename_i rest inq outq ws rs
    refine ⟨i1, by first | exact i0 | simp, by simpa using i2, ?_, by simp, ⟨xs, k, i5, i5'⟩, ?_, ?_, ?_⟩
    · simp only [Pool.Counts] at i3 ⊢; simp [i3]
    · rcases i6 with i6 | ⟨fed, h1, h2⟩
      · left; simpa [Pool.Bad] using i6
      · right
        simp only [Pool.Read] at h1
        exact ⟨fed, by simp only [Pool.Read]; exact ⟨rest, h1.symm⟩, h2⟩
    · intro y hy
      apply i7 y
      rcases hy with hy | hy | ⟨todo, hy, _⟩
      · exact .inl hy
      · exact .inr (.inl hy)
      · simp at hy
    · intro y hy; exact i8 y (by simpa using hy)
  | kill hf hw1 hw2 =>
    rename_i m inq outq a b w rs
    have hp : WState.pending w = true := by cases w <;> simp_all [WState.pending]
    have o2' : (∀ w' ∈ a ++ w :: b, WState.good w' = false) →
        ∀ w' ∈ a ++ .killed :: b, WState.good w' = false := by
      intro o2 w' hw
      simp only [List.mem_append, List.mem_cons] at hw
      rcases hw with hw | rfl | hw
      · exact o2 w' (by simp [hw])
      · rfl
      · exact o2 w' (by simp [hw])
    refine ⟨by simpa using i1, i0, ?_, i3, ?_, ⟨xs, k, i5, fun h => ?_⟩, .inl (.inl ⟨.killed, by simp, rfl⟩), ?_, ?_⟩
    · have : WState.pending (.killed : WState ι) = true := rfl
      simpa [hp, this] using i2
    · intro h
      obtain ⟨e1, e2, e3⟩ := i4 h
      exact ⟨e1, e2, o2' e3⟩
    · obtain ⟨p, q, r⟩ := i5' h
      exact ⟨p, o2' q, r⟩
    · intro y hy
      apply i7 y
      rcases hy with hy | ⟨l', hy⟩ | hy
      · exact .inl hy
      · right; left
        refine ⟨l', ?_⟩
        simp only [List.mem_append, List.mem_cons, reduceCtorEq, false_or] at hy ⊢
        rcases hy with hy | hy <;> simp [hy]
      · exact .inr (.inr hy)
    · intro y hy
      apply i8 y
      rcases hy with hy | hy
      · left
        simp only [List.mem_append, List.mem_cons, reduceCtorEq, false_or] at hy ⊢
        rcases hy with hy | hy <;> simp [hy]
      · exact .inr hy

theorem poolInv_reachable {jobs : Nat} {items : List ι} {fails : ι → Prop} {ints kills : Prop} {s : Pool ι}
    (h : PoolReachable jobs items fails ints kills s) : PoolInv jobs items fails s := by
  obtain ⟨n, h⟩ := h
  generalize hs : Pool.init jobs items = s0 at h
  induction h with
  | refl => rw [← hs]; exact poolInv_init jobs items fails
  | tail _ h2 ih => exact poolInv_step (ih hs) h2

/-- Everything at the end. -/
theorem done_all {jobs : Nat} {items : List ι} {fails : ι → Prop} {s : Pool ι} (hj : 0 < jobs)
    (hi : PoolInv jobs items fails s) (hd : s.main = .done) :
    s.results.length = jobs ∧ s.outq = [] ∧ (∀ w ∈ s.workers, w = .exited) ∧ (∀ i ∈ s.inq, i = none) ∧
      ∃ fed, fed <+: items ∧ s.results.flatten.Perm fed := by
  have h1 : s.results.length = jobs := by have := hi.counts; rw [Pool.Counts, hd] at this; exact this
  have h2 : s.workers.countP WState.pending = 0 ∧ s.outq.length = 0 := by
    rcases hi.pending with ⟨x, h⟩ | h
    · rw [hd] at h; simp at h
    · omega
  have h3 : s.outq = [] := List.length_eq_zero_iff.1 h2.2
  have h4 : ∀ w ∈ s.workers, w = .exited := by
    intro w hw
    have := List.countP_eq_zero.1 h2.1 w hw
    cases w <;> simp_all [WState.pending]
  have h5 : ∀ i ∈ s.inq, i = none := by
    obtain ⟨xs, k, h5, h6⟩ := hi.order
    have : xs = [] := by
      by_contra hx
      have := (h6 hx).2.2
      rw [this] at h1
      simp at h1
      omega
    subst this
    intro i hi
    rw [h5] at hi
    simp only [List.map_nil, List.nil_append, List.mem_replicate] at hi
    exact hi.2
  refine ⟨h1, h3, h4, h5, ?_⟩
  rcases hi.conserve with h | ⟨fed, hf, hp⟩
  · exfalso
    rcases h with ⟨w, hw, hb⟩ | ⟨r, hr, _⟩ | ⟨x, h⟩ | h
    · rw [h4 w hw] at hb; simp [WState.bad] at hb
    · rw [h3] at hr; simp at hr
    · rw [hd] at h; simp at h
    · rw [hd] at h; simp at h
  · refine ⟨fed, ?_, ?_⟩
    · rw [Pool.Read, hd] at hf; exact hf
    · have e1 : (s.workers.map WState.items).flatten = [] := by
        rw [List.flatten_eq_nil_iff]
        intro l hl
        obtain ⟨w, hw, rfl⟩ := List.mem_map.1 hl
        rw [h4 w hw]; rfl
      have e2 : s.inq.filterMap id = [] := by
        rw [List.filterMap_eq_nil_iff]
        exact h5
      unfold Pool.everything at hp
      rw [h3, e1, e2] at hp
      simpa using hp

/-! ### Without ints kills -/

/-- What is still to be read. -/
def MState.todo : MState ι → List ι
  | .feeding todo => todo
  | .checking todo => todo
  | _ => []

/-- How many `None` were put, given the number of workers. -/
def MState.Nones (jobs c : Nat) : MState ι → Prop
  | .feeding _ => c = 0
  | .checking _ => c = 0
  | .stopPut n => c + n = jobs
  | .stopGet n => c + n = jobs + 1
  | .done => c = jobs
  | _ => True

/-- The items that are known to be without problem. -/
def WState.fine : WState ι → List ι
  | .idle l => l
  | .busy l _ => l
  | .finishing (.ok l) => l
  | _ => []

/-- Failures that have happened or will happen in a worker. -/
def WState.risk (fails : ι → Prop) [DecidablePred fails] : WState ι → Nat
  | .busy _ x => if fails x then 1 else 0
  | .finishing (.exc _) => 1
  | _ => 0

/-- Failures that have happened or may still happen. -/
def Pool.risk (fails : ι → Prop) [DecidablePred fails] (s : Pool ι) : Nat :=
  (s.inq.filterMap id).countP (fun x => decide (fails x)) + s.main.todo.countP (fun x => decide (fails x)) +
    (s.workers.map (WState.risk fails)).sum + s.outq.countP Res.bad

/-- Everything is accounted for: items, the `None` put, and failures. -/
structure FailInv (jobs : Nat) (items : List ι) (fails : ι → Prop) [DecidablePred fails] (ints : Prop) (s : Pool ι) : Prop where
  all : ints ∨ s.Bad ∨ (s.everything ++ s.main.todo).Perm items
  alive : ∀ w ∈ s.workers, w ≠ .killed
  fineW : ∀ w ∈ s.workers, ∀ x ∈ w.fine, ¬ fails x
  fineQ : ∀ l, .ok l ∈ s.outq → ∀ x ∈ l, ¬ fails x
  fineR : ∀ l ∈ s.results, ∀ x ∈ l, ¬ fails x
  nones : s.main.Nones jobs
    (s.inq.countP Option.isNone + s.workers.countP WState.good + s.outq.countP (fun r => !r.bad) + s.results.length)
  risk : s.risk fails ≤ items.countP (fun x => decide (fails x))

theorem failInv_init (jobs : Nat) (items : List ι) (fails : ι → Prop) [DecidablePred fails] (ints : Prop) :
    FailInv jobs items fails ints (Pool.init jobs items) where
  all := .inr (.inr (by simp [Pool.everything, Pool.init, WState.items, MState.todo]))
  alive := by
    intro w hw
    simp only [Pool.init, List.mem_replicate] at hw
    rw [hw.2]; simp
  fineW := by
    intro w hw
    simp only [Pool.init, List.mem_replicate] at hw
    rw [hw.2]; simp [WState.fine]
  fineQ := by simp [Pool.init]
  fineR := by simp [Pool.init]
  nones := by
    have : WState.good (.idle [] : WState ι) = false := rfl
    simp [Pool.init, MState.Nones, List.countP_replicate, this]
  risk := by
    have : WState.risk fails (.idle [] : WState ι) = 0 := rfl
    simp [Pool.init, Pool.risk, MState.todo, this]

/-- Exceptions do not get lost. -/
theorem bad_step {jobs : Nat} {fails : ι → Prop} {ints kills : Prop} {s t : Pool ι} (hm : s.main ≠ .stopPut 0 ∨ s.outq = [])
    (hi : s.Bad) (h : Pool.Step jobs fails ints kills s t) : t.Bad := by
  cases h with
  | feed hl => simpa [Pool.Bad] using hi
  | feedEnd => simpa [Pool.Bad] using hi
  | checkEmpty => simpa [Pool.Bad] using hi
  | checkFull ho => simpa [Pool.Bad] using hi
  | putNone hl => simpa [Pool.Bad] using hi
  | getOk =>
    rcases hi with h | ⟨r, hr, hb⟩ | ⟨x, h⟩ | h
    · exact .inl h
    · simp only [List.mem_cons] at hr
      rcases hr with rfl | hr
      · simp [Res.bad] at hb
      · exact .inr (.inl ⟨r, hr, hb⟩)
    · simp at h
    · simp at h
  | getExc => exact .inr (.inr (.inl ⟨_, rfl⟩))
  | finish => simpa [Pool.Bad] using hi
  | assertFail ho => exact .inr (.inr (.inr rfl))
  | take => exact bad_mid rfl hi
  | work _ => exact bad_mid rfl hi
  | fail hx => exact .inl ⟨_, List.mem_append_right _ (List.mem_cons_self ..), rfl⟩
  | takeNone => exact bad_mid rfl hi
  | putResult hl =>
    rcases hi with ⟨w, hw, hb⟩ | ⟨r, hr, hb⟩ | h
    · simp only [List.mem_append, List.mem_cons] at hw
      rcases hw with hw | rfl | hw
      · exact .inl ⟨w, by simp [hw], hb⟩
      · refine .inr (.inl ⟨_, List.mem_append_right _ (List.mem_singleton.2 rfl), ?_⟩)
        revert hb
        cases ‹Res ι› <;> simp [WState.bad, Res.bad]
      · exact .inl ⟨w, by simp [hw], hb⟩
    · exact .inr (.inl ⟨r, by simp [hr], hb⟩)
    · exact .inr (.inr h)
  | interrupt h => simpa [Pool.Bad] using hi
  | kill h => exact .inl ⟨.killed, by simp, rfl⟩

theorem forall_mid {p : WState ι → Prop} {a b : List (WState ι)} {w w' : WState ι}
    (h : ∀ v ∈ a ++ w :: b, p v) (hw : p w → p w') : ∀ v ∈ a ++ w' :: b, p v := by
  intro v hv
  simp only [List.mem_append, List.mem_cons] at hv
  rcases hv with hv | rfl | hv
  · exact h v (by simp [hv])
  · exact hw (h w (by simp))
  · exact h v (by simp [hv])

theorem sum_mid (f : WState ι → Nat) (a b : List (WState ι)) (w : WState ι) :
    ((a ++ w :: b).map f).sum = ((a ++ b).map f).sum + f w := by
  simp; omega

theorem countP_mid' (f : WState ι → Bool) (a b : List (WState ι)) (w : WState ι) :
    (a ++ w :: b).countP f = (a ++ b).countP f + (if f w then 1 else 0) := by
  simp [List.countP_cons]; omega

theorem Nones_congr {jobs c c' : Nat} {m : MState ι} (h : c = c') (hm : m.Nones jobs c) : m.Nones jobs c' := h ▸ hm

theorem failInv_step {jobs : Nat} {items : List ι} {fails : ι → Prop} [DecidablePred fails] {ints : Prop} {s t : Pool ι}
    (hp : PoolInv jobs items fails s) (hi : FailInv jobs items fails ints s)
    (h : Pool.Step jobs fails ints False s t) : FailInv jobs items fails ints t := by
  obtain ⟨i1, i2, i3, i4, i5, i6, i7⟩ := hi
  have i1' : s.Bad → t.Bad := fun hb => by
    by_cases hm : s.main = .stopPut 0
    · refine bad_step (.inr ?_) hb h
      have hc := hp.counts
      rw [Pool.Counts, hm] at hc
      rcases hp.pending with ⟨x, h⟩ | h
      · rw [hm] at h; simp at h
      · exact List.length_eq_zero_iff.1 (by omega)
    · exact bad_step (.inl hm) hb h
  replace i1 : (ints ∨ t.Bad) ∨ (s.everything ++ s.main.todo).Perm items := by
    rcases i1 with h | h | h
    exacts [.inl (.inl h), .inl (.inr (i1' h)), .inr h]
  cases h with
  | feed hl =>
    refine ⟨or_assoc.1 (i1.imp_right fun i1 => ?_), i2, i3, i4, i5, by simpa [MState.Nones] using i6, ?_⟩
    · simpa [Pool.everything, MState.todo] using i1
    · refine le_trans (le_of_eq ?_) i7
      simp only [Pool.risk, MState.todo, List.filterMap_append, List.countP_append, List.filterMap_cons, id,
        List.filterMap_nil, List.countP_cons, List.countP_nil]
      omega
  | feedEnd =>
    refine ⟨or_assoc.1 i1, i2, i3, i4, i5, ?_, i7⟩
    simp only [MState.Nones] at i6 ⊢; omega
  | checkEmpty => exact ⟨or_assoc.1 i1, i2, i3, i4, i5, i6, i7⟩
  | checkFull ho =>
    refine ⟨.inr (.inl ?_), i2, i3, i4, i5, ?_, ?_⟩
    · have := hp.early ⟨_, .inr rfl⟩
      obtain ⟨r, hr⟩ := List.exists_mem_of_ne_nil _ ho
      exact .inr (.inl ⟨r, hr, this.2.1 r hr⟩)
    · simp only [MState.Nones] at i6 ⊢; omega
    · refine le_trans ?_ i7
      simp only [Pool.risk, MState.todo, List.countP_nil]
      omega
  | putNone hl =>
    refine ⟨or_assoc.1 (i1.imp_right fun i1 => ?_), i2, i3, i4, i5, ?_, ?_⟩
    · simpa [Pool.everything, MState.todo] using i1
    · simp only [MState.Nones, List.countP_append, List.countP_cons, List.countP_nil, Option.isNone_none,
        if_true] at i6 ⊢; omega
    · simpa [Pool.risk, MState.todo] using i7
  | getOk =>
    rename_i n inq l outq ws rs
    refine ⟨or_assoc.1 (i1.imp_right fun i1 => ?_), i2, i3, fun l' hl' => i4 l' (List.mem_cons_of_mem _ hl'), ?_, ?_, ?_⟩
    · simpa [Pool.everything, MState.todo, Res.items] using i1
    · intro l' hl'
      simp only [List.mem_append, List.mem_singleton] at hl'
      rcases hl' with hl' | rfl
      · exact i5 l' hl'
      · exact i4 l' (List.mem_cons_self ..)
    · have e : (!Res.bad (.ok l)) = true := rfl
      simp only [MState.Nones, List.length_append, List.length_cons, List.length_nil, List.countP_cons, e,
        if_true] at i6 ⊢; omega
    · have e : Res.bad (.ok l) = false := rfl
      simpa [Pool.risk, MState.todo, List.countP_cons, e] using i7
  | getExc =>
    rename_i n inq x outq ws rs
    refine ⟨.inr (.inl (.inr (.inr (.inl ⟨_, rfl⟩)))), i2, i3, fun l' hl' => i4 l' (List.mem_cons_of_mem _ hl'), i5, trivial, ?_⟩
    refine le_trans ?_ i7
    simp only [Pool.risk, MState.todo, List.countP_cons]
    omega
  | finish => exact ⟨or_assoc.1 i1, i2, i3, i4, i5, i6, i7⟩
  | assertFail ho => exact ⟨or_assoc.1 i1, i2, i3, i4, i5, trivial, i7⟩
  | take =>
    rename_i m x inq outq a b l rs
    refine ⟨or_assoc.1 (i1.imp_right fun i1 => ?_), forall_mid i2 (by simp), forall_mid i3 id, i4, i5, ?_, ?_⟩
    · refine List.Perm.trans (List.Perm.append_right _ ?_) i1
      simp only [Pool.everything, List.map_append, List.map_cons, WState.items, List.flatten_append,
        List.flatten_cons, List.append_assoc, List.filterMap_cons, id]
      refine List.Perm.append_left _ (List.Perm.append_left _ (List.Perm.append_left _ (List.Perm.append_left _ ?_)))
      rw [← List.append_assoc, List.singleton_append, List.cons_append]
      exact List.perm_middle.symm
    · refine Nones_congr ?_ i6
      have g1 : WState.good (.idle l) = false := rfl
      have g2 : WState.good (.busy l x) = false := rfl
      simp [countP_mid', g1, g2]
    · refine le_trans (le_of_eq ?_) i7
      simp only [Pool.risk, sum_mid, WState.risk, List.filterMap_cons, id, List.countP_cons, decide_eq_true_eq]
      omega
  | work hw =>
    rename_i m x inq outq a b l rs
    refine ⟨or_assoc.1 (i1.imp_right fun i1 => ?_), forall_mid i2 (by simp), forall_mid i3 ?_, i4, i5, ?_, ?_⟩
    · simpa [Pool.everything, WState.items] using i1
    · intro h y hy
      simp only [WState.fine, List.mem_append, List.mem_singleton] at hy h
      rcases hy with hy | rfl
      · exact h y hy
      · exact hw
    · refine Nones_congr ?_ i6
      have g1 : WState.good (.idle (l ++ [x])) = false := rfl
      have g2 : WState.good (.busy l x) = false := rfl
      simp [countP_mid', g1, g2]
    · refine le_trans ?_ i7
      simp only [Pool.risk, sum_mid, WState.risk]
      omega
  | fail hx =>
    rename_i m x inq outq a b l rs
    refine ⟨.inr (.inl (.inl ⟨.finishing (.exc x), by simp, rfl⟩)), forall_mid i2 (by simp),
      forall_mid i3 (by simp [WState.fine]), i4, i5, ?_, ?_⟩
    · refine Nones_congr ?_ i6
      have g1 : WState.good (.finishing (.exc x)) = false := rfl
      have g2 : WState.good (.busy l x) = false := rfl
      simp [countP_mid', g1, g2]
    · refine le_trans (le_of_eq ?_) i7
      simp only [Pool.risk, sum_mid, WState.risk, if_pos hx]
  | takeNone =>
    rename_i m inq outq a b l rs
    refine ⟨or_assoc.1 (i1.imp_right fun i1 => ?_), forall_mid i2 (by simp), forall_mid i3 (by simp [WState.fine]), i4, i5, ?_, ?_⟩
    · simpa [Pool.everything, WState.items] using i1
    · refine Nones_congr ?_ i6
      have g1 : WState.good (.idle l) = false := rfl
      have g2 : WState.good (.finishing (.ok l)) = true := rfl
      simp [countP_mid', g1, g2]; omega
    · refine le_trans (le_of_eq ?_) i7
      simp [Pool.risk, WState.risk]
  | putResult hl =>
    rename_i m inq outq a b r rs
    refine ⟨or_assoc.1 (i1.imp_right fun i1 => ?_), forall_mid i2 (by simp), forall_mid i3 (by simp [WState.fine]), ?_, i5, ?_, ?_⟩
    · refine List.Perm.trans (List.Perm.append_right _ ?_) i1
      have e : WState.items (.finishing r) = Res.items r := by cases r <;> rfl
      have e' : WState.items (.exited : WState ι) = [] := rfl
      simp only [Pool.everything, List.map_append, List.map_cons, e, e', List.flatten_append,
        List.flatten_cons, List.append_assoc, List.map_nil, List.flatten_nil, List.nil_append, List.append_nil]
      refine List.Perm.append_left _ (List.Perm.append_left _ ?_)
      rw [← List.append_assoc, ← List.append_assoc (List.map WState.items a).flatten]
      exact List.Perm.append_right _ List.perm_append_comm
    · intro l' hl'
      simp only [List.mem_append, List.mem_singleton] at hl'
      rcases hl' with hl' | rfl
      · exact i4 l' hl'
      · exact i3 (.finishing (.ok l')) (by simp)
    · refine Nones_congr ?_ i6
      have g1 : WState.good (.exited : WState ι) = false := rfl
      have g2 : WState.good (.finishing r) = !Res.bad r := by cases r <;> rfl
      simp [countP_mid', g1, g2, List.countP_cons]; omega
    · refine le_trans (le_of_eq ?_) i7
      have e : WState.risk fails (.finishing r) = if Res.bad r then 1 else 0 := by cases r <;> rfl
      have e' : WState.risk fails (.exited : WState ι) = 0 := rfl
      simp only [Pool.risk, sum_mid, e, e', List.countP_append, List.countP_cons, List.countP_nil]
      omega
  | interrupt h =>
    refine ⟨.inl h, i2, i3, i4, i5, ?_, ?_⟩
    · simp only [MState.Nones] at i6 ⊢; omega
    · refine le_trans ?_ i7
      simp only [Pool.risk, MState.todo, List.countP_nil]
      omega
  | kill h => exact absurd h id

theorem failInv_reachable {jobs : Nat} {items : List ι} {fails : ι → Prop} [DecidablePred fails] {ints : Prop} {s : Pool ι}
    (h : PoolReachable jobs items fails ints False s) : FailInv jobs items fails ints s := by
  obtain ⟨n, h⟩ := h
  generalize hs : Pool.init jobs items = s0 at h
  induction h with
  | refl => rw [← hs]; exact failInv_init jobs items fails ints
  | tail h1 h2 ih => subst hs; exact failInv_step (poolInv_reachable ⟨_, h1⟩) (ih rfl) h2

/-- A worker that is not gone can do something if there is something in the input queue, and a busy or
finishing worker always can. -/
theorem worker_step {jobs : Nat} {items : List ι} {fails : ι → Prop} {ints kills : Prop} {s : Pool ι}
    (hp : PoolInv jobs items fails s) {w : WState ι} (hw : w ∈ s.workers)
    (h : (∃ l x, w = .busy l x) ∨ (∃ r, w = .finishing r) ∨ (∃ l, w = .idle l) ∧ s.inq ≠ [])
    (hm : ∀ x, s.main ≠ .raised x) :
    ∃ t, Pool.Step jobs fails ints kills s t := by
  obtain ⟨m, inq, outq, ws, rs⟩ := s
  obtain ⟨a, b, rfl⟩ := List.append_of_mem hw
  rcases h with ⟨l, x, rfl⟩ | ⟨r, rfl⟩ | ⟨⟨l, rfl⟩, hne⟩
  · by_cases hx : fails x
    · exact ⟨_, .fail hx⟩
    · exact ⟨_, .work hx⟩
  · refine ⟨_, .putResult ?_⟩
    rcases hp.pending with ⟨x, h⟩ | h
    · exact absurd h (hm x)
    · simp only at h; omega
  · cases inq with
    | nil => exact absurd rfl hne
    | cons i inq =>
      cases i with
      | none => exact ⟨_, .takeNone⟩
      | some x => exact ⟨_, .take⟩

theorem exists_pending {jobs : Nat} {items : List ι} {fails : ι → Prop} {s : Pool ι} (hp : PoolInv jobs items fails s)
    (hm : ∀ x, s.main ≠ .raised x) (hb : ∀ w ∈ s.workers, w ≠ .killed)
    (h : s.outq.length + s.results.length < jobs) :
    ∃ w ∈ s.workers, (∃ l x, w = .busy l x) ∨ (∃ r, w = .finishing r) ∨ (∃ l, w = .idle l) := by
  have : 0 < s.workers.countP WState.pending := by
    rcases hp.pending with ⟨x, h⟩ | h
    · exact absurd h (hm x)
    · omega
  obtain ⟨w, hw, hpw⟩ := List.countP_pos_iff.1 this
  refine ⟨w, hw, ?_⟩
  cases w with
  | idle l => exact .inr (.inr ⟨l, rfl⟩)
  | busy l x => exact .inl ⟨l, x, rfl⟩
  | finishing r => exact .inr (.inl ⟨r, rfl⟩)
  | exited => simp [WState.pending] at hpw
  | killed => exact absurd rfl (hb _ hw)

/-- The assertion holds. -/
theorem no_assertion {jobs : Nat} {items : List ι} {fails : ι → Prop} {ints kills : Prop} {s : Pool ι}
    (h : PoolReachable jobs items fails ints kills s) : s.main ≠ .assertion := by
  obtain ⟨n, h⟩ := h
  generalize hs : Pool.init jobs items = s0 at h
  induction h with
  | refl => rw [← hs]; simp [Pool.init]
  | tail h1 h2 ih =>
    subst hs
    have hp := poolInv_reachable ⟨_, h1⟩
    have ih := ih rfl
    intro ha
    cases h2 with
    | assertFail ho =>
      have hc := hp.counts
      simp only [Pool.Counts] at hc
      rcases hp.pending with ⟨x, h⟩ | h
      · simp at h
      · simp only at h
        exact ho (List.length_eq_zero_iff.1 (by omega))
    | take => exact ih ha
    | work => exact ih ha
    | fail => exact ih ha
    | takeNone => exact ih ha
    | putResult => exact ih ha
    | kill => exact ih ha
    | _ => simp at ha

/-- With fewer failing items than workers something can always happen until the main process has ended. -/
theorem progress {jobs : Nat} {items : List ι} {fails : ι → Prop} [DecidablePred fails] {ints : Prop} {s : Pool ι}
    (hf : items.countP (fun x => decide (fails x)) < jobs)
    (hp : PoolInv jobs items fails s) (hc : FailInv jobs items fails ints s) (hd : ¬ Ended s) :
    ∃ t, Pool.Step jobs fails ints False s t := by
  have hm : ∀ x, s.main ≠ .raised x := fun x h => hd (.inr (.inl ⟨x, h⟩))
  have full : s.outq.length + s.results.length < jobs → s.inq ≠ [] → ∃ t, Pool.Step jobs fails ints False s t := by
    intro h1 h2
    obtain ⟨w, hw, h⟩ := exists_pending hp hm hc.alive h1
    exact worker_step hp hw (by rcases h with h | h | h; exacts [.inl h, .inr (.inl h), .inr (.inr ⟨h, h2⟩)]) hm
  have allBad : (∀ r ∈ s.outq, Res.bad r = true) → s.outq.length < jobs := by
    intro h
    rw [← List.countP_eq_length.2 h]
    have := hc.risk
    unfold Pool.risk at this
    omega
  have hn := hc.nones
  obtain ⟨m, inq, outq, ws, rs⟩ := s
  cases m with
  | feeding todo =>
    cases todo with
    | nil => exact ⟨_, .feedEnd⟩
    | cons x xs =>
      by_cases hl : inq.length < jobs * 2
      · exact ⟨_, .feed (.inr hl)⟩
      · have h1 := allBad (hp.early ⟨_, .inl rfl⟩).2.1
        have h2 := hp.counts
        simp only [Pool.Counts] at h2
        apply full
        · simp only [h2] at h1 ⊢; simpa using h1
        · simp only; intro h; subst h; simp at hl; omega
  | checking todo => exact ⟨_, .checkEmpty⟩
  | stopPut n =>
    cases n with
    | zero => exact ⟨_, .finish⟩
    | succ n =>
      by_cases hl : inq.length < jobs * 2
      · exact ⟨_, .putNone (.inr hl)⟩
      · obtain ⟨xs, k, h1, h2⟩ := hp.order
        simp only at h1
        by_cases hx : xs = []
        · exfalso
          subst hx
          simp only [MState.Nones, h1, List.map_nil, List.nil_append, List.countP_replicate, Option.isNone_none,
            if_true, List.length_replicate] at hn hl
          omega
        · obtain ⟨h3, _, h4⟩ := h2 hx
          have h5 := allBad h3
          apply full
          · simp only at h4 h5 ⊢; simpa [h4] using h5
          · simp only; intro h; subst h; simp at hl; omega
  | stopGet n =>
    have hcnt := hp.counts
    simp only [Pool.Counts] at hcnt
    simp only [MState.Nones] at hn
    cases n with
    | zero => exact absurd rfl hp.get0
    | succ n =>
      cases outq with
      | cons r outq =>
        cases r with
        | ok l => exact ⟨_, .getOk⟩
        | exc x => exact ⟨_, .getExc⟩
      | nil =>
        simp only [List.countP_nil] at hn
        by_cases hg : 0 < ws.countP WState.good
        · obtain ⟨w, hw, hgw⟩ := List.countP_pos_iff.1 hg
          refine worker_step hp hw (.inr (.inl ?_)) hm
          cases w <;> simp_all [WState.good]
        · apply full
          · simp only [List.length_nil]; omega
          · simp only
            intro h
            subst h
            simp at hn
            omega
  | done => exact absurd (.inl rfl) hd
  | raised x => exact absurd rfl (hm x)
  | assertion => exact absurd (.inr (.inr rfl)) hd

/-! ### A deadlock -/

theorem Pool.Steps.trans {jobs : Nat} {fails : ι → Prop} {ints kills : Prop} {m n : Nat} {s t u : Pool ι}
    (h1 : Pool.Steps jobs fails ints kills m s t) (h2 : Pool.Steps jobs fails ints kills n t u) :
    Pool.Steps jobs fails ints kills (m + n) s u := by
  induction h2 with
  | refl => exact h1
  | tail _ h ih => exact .tail (ih h1) h

/-- The first items are taken, one by each worker. -/
theorem taken {jobs : Nat} {fails : ι → Prop} {ints kills : Prop} (hj : 0 < jobs) (todo : List ι) (xs ys : List ι) :
    ∃ n, Pool.Steps jobs fails ints kills n
      ⟨.feeding (ys ++ todo), [], [], xs.map (.busy []) ++ List.replicate ys.length (.idle []), []⟩
      ⟨.feeding todo, [], [], (xs ++ ys).map (.busy []), []⟩ := by
  induction ys generalizing xs with
  | nil => exact ⟨0, by simpa using Pool.Steps.refl _⟩
  | cons y ys ih =>
    obtain ⟨n, h⟩ := ih (xs ++ [y])
    have h1 : Pool.Step jobs fails ints kills
        ⟨.feeding (y :: (ys ++ todo)), [], [], xs.map (.busy []) ++ List.replicate (y :: ys).length (.idle []), []⟩ _ :=
      .feed (.inr (by simpa using hj))
    have h2 : Pool.Step jobs fails ints kills _ _ := .checkEmpty
      (xs := ys ++ todo) (inq := [] ++ [some y]) (outq := [])
      (ws := xs.map (.busy []) ++ List.replicate (y :: ys).length (.idle [])) (rs := [])
    have h3 : Pool.Step jobs fails ints kills _ _ := .take (m := .feeding (ys ++ todo)) (x := y) (inq := []) (outq := [])
      (a := xs.map (.busy [])) (b := List.replicate ys.length (.idle [])) (l := []) (rs := [])
    refine ⟨_, ((Pool.Steps.refl _ |>.tail h1).tail h2 |>.tail h3).trans ?_ (n := n)⟩
    simpa using h

/-- Items are put into the queue while nothing else happens. -/
theorem filled {jobs : Nat} {fails : ι → Prop} {ints kills : Prop} (todo : List ι) (q : List (Option ι))
    (ws : List (WState ι)) (xs : List ι) (h : q.length + xs.length ≤ jobs * 2) :
    ∃ n, Pool.Steps jobs fails ints kills n ⟨.feeding (xs ++ todo), q, [], ws, []⟩
      ⟨.feeding todo, q ++ xs.map some, [], ws, []⟩ := by
  induction xs generalizing q with
  | nil => exact ⟨0, by simpa using Pool.Steps.refl _⟩
  | cons x xs ih =>
    obtain ⟨n, h'⟩ := ih (q ++ [some x]) (by simp at h ⊢; omega)
    have h1 : Pool.Step jobs fails ints kills ⟨.feeding (x :: (xs ++ todo)), q, [], ws, []⟩ _ :=
      .feed (.inr (by simp at h; omega))
    have h2 : Pool.Step jobs fails ints kills _ _ := .checkEmpty (xs := xs ++ todo) (inq := q ++ [some x]) (outq := [])
      (ws := ws) (rs := [])
    refine ⟨_, ((Pool.Steps.refl _ |>.tail h1).tail h2).trans ?_ (n := n)⟩
    simpa using h'

/-- All workers fail. -/
theorem failed {jobs : Nat} {fails : ι → Prop} {ints kills : Prop} (m : MState ι) (q : List (Option ι))
    (o : List (Res ι)) (k : Nat) (xs : List ι) (hf : ∀ x ∈ xs, fails x) (h : o.length + xs.length ≤ jobs) :
    ∃ n, Pool.Steps jobs fails ints kills n ⟨m, q, o, List.replicate k .exited ++ xs.map (.busy []), []⟩
      ⟨m, q, o ++ xs.map .exc, List.replicate (k + xs.length) .exited, []⟩ := by
  induction xs generalizing o k with
  | nil => exact ⟨0, by simpa using Pool.Steps.refl _⟩
  | cons x xs ih =>
    obtain ⟨n, h'⟩ := ih (o ++ [.exc x]) (k + 1) (fun y hy => hf y (List.mem_cons_of_mem _ hy)) (by simp at h ⊢; omega)
    have h1 : Pool.Step jobs fails ints kills _ _ := .fail (m := m) (x := x) (inq := q) (outq := o)
      (a := List.replicate k .exited) (b := xs.map (.busy [])) (l := []) (rs := []) (hf x (by simp))
    have h2 : Pool.Step jobs fails ints kills _ _ := .putResult (m := m) (inq := q) (outq := o)
      (a := List.replicate k .exited) (b := xs.map (.busy [])) (r := .exc x) (rs := []) (by simp at h; omega)
    refine ⟨_, ((Pool.Steps.refl _ |>.tail h1).tail h2).trans ?_ (n := n)⟩
    have e1 : List.replicate k (.exited : WState ι) ++ .exited :: xs.map (.busy []) =
        List.replicate (k + 1) .exited ++ xs.map (.busy []) := by
      rw [List.replicate_succ', List.append_assoc]; rfl
    have e2 : k + (x :: xs).length = k + 1 + xs.length := by simp; omega
    rw [e1, e2]
    simpa using h'

theorem deadlock {jobs : Nat} (hj : 0 < jobs) {fails : ι → Prop} (bad more : List ι) (x : ι) (rest : List ι)
    (h1 : bad.length = jobs) (h2 : ∀ y ∈ bad, fails y) (h3 : more.length = jobs * 2) :
    ∃ s, PoolReachable jobs (bad ++ more ++ x :: rest) fails False False s ∧ Stuck jobs fails False False s ∧ ¬ Ended s := by
  obtain ⟨n1, s1⟩ := taken (jobs := jobs) (fails := fails) (ints := False) (kills := False) hj (more ++ x :: rest) [] bad
  have e : (⟨.feeding (bad ++ (more ++ x :: rest)), [], [], [].map (.busy []) ++ List.replicate bad.length (.idle []), []⟩ : Pool ι) =
      Pool.init jobs (bad ++ more ++ x :: rest) := by simp [Pool.init, h1]
  rw [e] at s1
  obtain ⟨n2, s2⟩ := filled (jobs := jobs) (fails := fails) (ints := False) (kills := False) (x :: rest) [] (bad.map (.busy [])) more
    (by simp [h3])
  obtain ⟨n3, s3⟩ := failed (jobs := jobs) (fails := fails) (ints := False) (kills := False) (.feeding (x :: rest)) (more.map some) [] 0
    bad h2 (by simp [h1])
  refine ⟨_, ⟨_, (Pool.Steps.trans (Pool.Steps.trans s1 s2) (by simpa using s3) : Pool.Steps jobs fails False False
    (n1 + n2 + n3) (Pool.init jobs (bad ++ more ++ x :: rest)) ⟨.feeding (x :: rest), more.map some, [] ++ bad.map .exc,
      List.replicate (0 + bad.length) .exited, []⟩)⟩, ?_, ?_⟩
  · intro t ht
    have ex : ∀ (a b : List (WState ι)) (w : WState ι), List.replicate (0 + bad.length) .exited = a ++ w :: b → w = .exited :=
      fun a b w h => (List.mem_replicate.1 (h ▸ (by simp : w ∈ a ++ w :: b))).2
    generalize hs : (⟨.feeding (x :: rest), more.map some, [] ++ bad.map .exc,
      List.replicate (0 + bad.length) .exited, []⟩ : Pool ι) = s at ht
    cases ht with
    | feed hl => simp only [Pool.mk.injEq] at hs; rw [← hs.2.1] at hl; simp [h3] at hl; omega
    | interrupt h => exact h
    | kill h => exact h
    | take => simp only [Pool.mk.injEq] at hs; have := ex _ _ _ hs.2.2.2.1; simp at this
    | work => simp only [Pool.mk.injEq] at hs; have := ex _ _ _ hs.2.2.2.1; simp at this
    | fail => simp only [Pool.mk.injEq] at hs; have := ex _ _ _ hs.2.2.2.1; simp at this
    | takeNone => simp only [Pool.mk.injEq] at hs; have := ex _ _ _ hs.2.2.2.1; simp at this
    | putResult => simp only [Pool.mk.injEq] at hs; have := ex _ _ _ hs.2.2.2.1; simp at this
    | _ => simp at hs
  · simp [Ended]

end Lulua
