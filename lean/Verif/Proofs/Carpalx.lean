import Verif.Spec.Carpalx
import Verif.Py.DictLemmas
import Mathlib.Tactic.Ring
import Mathlib.Tactic.Linarith
import Mathlib.Tactic.Positivity
import Mathlib.Algebra.BigOperators.Group.List.Lemmas
import Mathlib.Data.List.Dedup
import Mathlib.Algebra.Order.BigOperators.Group.List

/-!
# Lemmas about the effort model
-/

namespace Lulua
open Spec

/-! ### `mapM` -/

theorem mapM_ok_iff {α β : Type} (f : α → Py β) (l : List α) (ys : List β) :
    l.mapM f = .ok ys ↔ List.Forall₂ (fun x y => f x = .ok y) l ys := by
  induction l generalizing ys with
  | nil => simp [pure, Except.pure, eq_comm]
  | cons x xs ih =>
    simp only [List.mapM_cons, bind, Except.bind, pure, Except.pure]
    cases hx : f x with
    | error e =>
      simp only [reduceCtorEq, false_iff]
      intro h
      cases h with
      | cons h1 _ => rw [hx] at h1; simp at h1
    | ok y =>
      cases hxs : xs.mapM f with
      | error e =>
        simp only [reduceCtorEq, false_iff]
        intro h
        cases h with
        | cons _ h2 => rw [← ih, hxs] at h2; simp at h2
      | ok zs =>
        simp only [Except.ok.injEq]
        constructor
        · rintro rfl
          exact .cons hx ((ih zs).1 hxs)
        · intro h
          cases h with
          | cons h1 h2 =>
            rw [hx] at h1
            rw [← ih, hxs] at h2
            simp only [Except.ok.injEq] at h1 h2
            rw [h1, h2]

theorem mapM_perm {α β : Type} {f : α → Py β} {l l' : List α} (hp : l.Perm l') {ys : List β}
    (h : l.mapM f = .ok ys) : ∃ ys', l'.mapM f = .ok ys' ∧ ys.Perm ys' := by
  rw [mapM_ok_iff] at h
  obtain ⟨ys', h1, h2⟩ := List.perm_comp_forall₂ hp.symm h
  exact ⟨ys', (mapM_ok_iff ..).2 h1, h2.symm⟩

theorem mapM_exists_iff {α β : Type} (f : α → Py β) (l : List α) :
    (∃ ys, l.mapM f = .ok ys) ↔ ∀ x ∈ l, ∃ y, f x = .ok y := by
  induction l with
  | nil => simp [pure, Except.pure]
  | cons x xs ih =>
    simp only [mapM_ok_iff] at ih ⊢
    constructor
    · rintro ⟨ys, h⟩
      cases h with
      | cons h1 h2 =>
        intro z hz
        rcases List.mem_cons.1 hz with rfl | hz
        · exact ⟨_, h1⟩
        · exact ih.1 ⟨_, h2⟩ z hz
    · intro h
      obtain ⟨y, hy⟩ := h x (by simp)
      obtain ⟨ys, hys⟩ := ih.2 fun z hz => h z (by simp [hz])
      exact ⟨_, .cons hy hys⟩

theorem bind_ok_iff {α β : Type} (x : Py α) (f : α → Py β) (y : β) :
    (x >>= f) = .ok y ↔ ∃ a, x = .ok a ∧ f a = .ok y := by
  cases x <;> simp [bind, Except.bind]

/-! ### Minimum -/

theorem foldl_min_spec (xs : List Rat) (x m : Rat) :
    xs.foldl min x = m ↔ m ∈ x :: xs ∧ ∀ y ∈ x :: xs, m ≤ y := by
  induction xs generalizing x with
  | nil =>
    constructor
    · rintro rfl; simp
    · rintro ⟨h, _⟩; exact (List.mem_singleton.1 h).symm
  | cons y ys ih =>
    rw [List.foldl_cons, ih]
    constructor
    · rintro ⟨h1, h2⟩
      refine ⟨?_, ?_⟩
      · rcases List.mem_cons.1 h1 with h1 | h1
        · rcases min_choice x y with h | h <;> rw [h] at h1 <;> simp [h1]
        · simp [h1]
      · intro z hz
        have := h2 (min x y) (by simp)
        rcases List.mem_cons.1 hz with rfl | hz
        · exact le_trans this (min_le_left ..)
        · rcases List.mem_cons.1 hz with rfl | hz
          · exact le_trans this (min_le_right ..)
          · exact h2 z (by simp [hz])
    · rintro ⟨h1, h2⟩
      have hx := h2 x (by simp)
      have hy := h2 y (by simp)
      refine ⟨?_, ?_⟩
      · rcases List.mem_cons.1 h1 with rfl | h1
        · rw [min_eq_left hy]; simp
        · rcases List.mem_cons.1 h1 with rfl | h1
          · rw [min_eq_right hx]; simp
          · simp [h1]
      · intro z hz
        rcases List.mem_cons.1 hz with rfl | hz
        · exact le_min hx hy
        · exact h2 z (by simp [hz])

theorem minimum_ok_iff (l : List Rat) (m : Rat) :
    CarpalxEnv.minimum l = .ok m ↔ m ∈ l ∧ ∀ y ∈ l, m ≤ y := by
  cases l with
  | nil => simp [CarpalxEnv.minimum]
  | cons x xs => rw [CarpalxEnv.minimum, Except.ok.injEq, foldl_min_spec]

theorem minimum_perm {l l' : List Rat} (h : l.Perm l') (m : Rat) :
    CarpalxEnv.minimum l = .ok m ↔ CarpalxEnv.minimum l' = .ok m := by
  simp [minimum_ok_iff, h.mem_iff]

/-! ### Order of iteration -/

theorem combEffort_perm {e : CarpalxEnv} {f : Button → Py Rat} {l l' : List Button} (hp : l.Perm l') {v : Rat}
    (h : e.combEffort f l = .ok v) : e.combEffort f l' = .ok v := by
  simp only [CarpalxEnv.combEffort, bind_ok_iff] at h ⊢
  obtain ⟨ys, h1, h2⟩ := h
  obtain ⟨ys', h3, h4⟩ := mapM_perm hp h1
  exact ⟨ys', h3, by rw [← h4.sum_eq, ← h4.length_eq]; exact h2⟩

theorem baseEffort_perm {e : CarpalxEnv} {f : Button → Py Rat} {it it' : Comb → List Button} {t : Triad}
    (h0 : (it t.1).Perm (it' t.1)) (h1 : (it t.2.1).Perm (it' t.2.1)) (h2 : (it t.2.2).Perm (it' t.2.2)) {v : Rat}
    (h : e.baseEffort it f t = .ok v) : e.baseEffort it' f t = .ok v := by
  simp only [CarpalxEnv.baseEffort, bind_ok_iff] at h ⊢
  obtain ⟨b0, a0, b1, a1, b2, a2, a3⟩ := h
  exact ⟨b0, combEffort_perm h0 a0, b1, combEffort_perm h1 a1, b2, combEffort_perm h2 a2, a3⟩

theorem singleTriads_perm {it it' : Comb → List Button} {t : Triad}
    (h0 : (it t.1).Perm (it' t.1)) (h1 : (it t.2.1).Perm (it' t.2.1)) (h2 : (it t.2.2).Perm (it' t.2.2)) :
    (CarpalxEnv.singleTriads it t).Perm (CarpalxEnv.singleTriads it' t) := by
  unfold CarpalxEnv.singleTriads
  refine (h0.flatMap_right _).trans (List.Perm.flatMap_left _ fun a _ => ?_)
  refine (h1.flatMap_right _).trans (List.Perm.flatMap_left _ fun b _ => ?_)
  exact h2.map _

theorem triadEffortBy_perm {e : CarpalxEnv} {it it' : Comb → List Button} {t : Triad}
    (h0 : (it t.1).Perm (it' t.1)) (h1 : (it t.2.1).Perm (it' t.2.1)) (h2 : (it t.2.2).Perm (it' t.2.2)) {v : Rat}
    (h : e.triadEffortBy it t = .ok v) : e.triadEffortBy it' t = .ok v := by
  simp only [CarpalxEnv.triadEffortBy, CarpalxEnv.strokeEffort, bind_ok_iff] at h ⊢
  obtain ⟨b, a1, p, a2, s, ⟨ss, a3, a4⟩, a5⟩ := h
  obtain ⟨ss', b3, b4⟩ := mapM_perm (singleTriads_perm h0 h1 h2) a3
  exact ⟨b, baseEffort_perm h0 h1 h2 a1, p, baseEffort_perm h0 h1 h2 a2, s, ⟨ss', b3, (minimum_perm b4 s).1 a4⟩, a5⟩

/-! ### Cache -/

theorem set_self {α : Type} {l : List α} {i : Nat} {x : α} (h : l[i]? = some x) : l.set i x = l := by
  apply List.ext_getElem?
  intro j
  by_cases hj : i = j
  · subst hj
    rw [List.getElem?_set_self (List.getElem?_eq_some_iff.1 h).1, h]
  · rw [List.getElem?_set_ne hj]


/-- Every cache entry is the effort for every object that uses the cache. -/
structure WorldInv (w : CarpalxWorld) : Prop where
  refs : ∀ o ∈ w.objs, ∃ c, w.caches[o.cache]? = some c
  entries : ∀ o ∈ w.objs, ∀ c, w.caches[o.cache]? = some c → ∀ t v, c.get? t = some v → o.env.triadEffort t = .ok v
  shared : ∀ o ∈ w.objs, ∀ o' ∈ w.objs, o.cache = o'.cache → o.env = o'.env

theorem cachedEffort_spec {e : CarpalxEnv} {c : Cache} (h : ∀ t v, c.get? t = some v → e.triadEffort t = .ok v)
    (t : Triad) : (e.cachedEffort c t).1 = e.triadEffort t ∧
      ∀ t' v, (e.cachedEffort c t).2.get? t' = some v → e.triadEffort t' = .ok v := by
  unfold CarpalxEnv.cachedEffort
  cases hc : c.get? t with
  | some v => exact ⟨(h t v hc).symm, h⟩
  | none =>
    cases ht : e.triadEffort t with
    | error err => exact ⟨rfl, h⟩
    | ok v =>
      refine ⟨rfl, fun t' v' h' => ?_⟩
      simp only at h'
      by_cases htt : t' = t
      · subst htt
        rw [Dict.get?_set_self] at h'
        simp only [Option.some.injEq] at h'
        rw [← h']; exact ht
      · rw [Dict.get?_set_ne _ _ (Ne.symm htt)] at h'
        exact h t' v' h'

/-- Replacing a cache by a good one and changing the numbers of an object keeps the invariant. -/
theorem worldInv_update {w : CarpalxWorld} (hi : WorldInv w) {i : Nat} {o o' : Carpalx} (ho : w.objs[i]? = some o)
    (he : o'.env = o.env) (hc : o'.cache = o.cache) (c' : Cache)
    (h' : ∀ t v, c'.get? t = some v → o.env.triadEffort t = .ok v) :
    WorldInv ⟨w.objs.set i o', w.caches.set o.cache c'⟩ := by
  have hmem : o ∈ w.objs := List.mem_of_getElem? ho
  have key : ∀ p ∈ w.objs.set i o', ∃ q ∈ w.objs, p.env = q.env ∧ p.cache = q.cache := by
    intro p hp
    rcases List.mem_or_eq_of_mem_set hp with hp | rfl
    · exact ⟨p, hp, rfl, rfl⟩
    · exact ⟨o, hmem, he, hc⟩
  refine ⟨?_, ?_, ?_⟩
  · intro p hp
    obtain ⟨q, hq, _, h2⟩ := key p hp
    obtain ⟨c, hcq⟩ := hi.refs q hq
    simp only [h2]
    by_cases hcc : o.cache = q.cache
    · refine ⟨c', ?_⟩
      rw [hcc, List.getElem?_set_self]
      exact (List.getElem?_eq_some_iff.1 hcq).1
    · exact ⟨c, by rw [List.getElem?_set_ne hcc]; exact hcq⟩
  · intro p hp c hpc t v htv
    obtain ⟨q, hq, h1, h2⟩ := key p hp
    simp only [h2] at hpc
    rw [h1]
    by_cases hcc : o.cache = q.cache
    · obtain ⟨c0, hc0⟩ := hi.refs q hq
      rw [hcc, List.getElem?_set_self (List.getElem?_eq_some_iff.1 hc0).1] at hpc
      simp only [Option.some.injEq] at hpc
      subst hpc
      rw [← hi.shared o hmem q hq hcc]
      exact h' t v htv
    · rw [List.getElem?_set_ne hcc] at hpc
      exact hi.entries q hq c hpc t v htv
  · intro p hp p' hp' hpp
    obtain ⟨q, hq, h1, h2⟩ := key p hp
    obtain ⟨q', hq', h1', h2'⟩ := key p' hp'
    rw [h1, h1']
    exact hi.shared q hq q' hq' (by rw [← h2, ← h2']; exact hpp)

/-- Adding with a cache is adding without. -/
theorem addTriad_plain {w : CarpalxWorld} (hi : WorldInv w) (i : Nat) (t : Triad) (n : Rat) :
    WorldInv (w.addTriad i t n).1 ∧
      ((w.addTriad i t n).1.objs.map plainOf, (w.addTriad i t n).2) =
        onObj (w.objs.map plainOf) i fun o => o.add t n := by
  unfold CarpalxWorld.addTriad onObj
  rw [List.getElem?_map]
  cases ho : w.objs[i]? with
  | none => exact ⟨hi, rfl⟩
  | some o =>
    have hmem : o ∈ w.objs := List.mem_of_getElem? ho
    obtain ⟨c, hc⟩ := hi.refs o hmem
    simp only [Option.map_some, hc, Plain.add, plainOf]
    obtain ⟨h1, h2⟩ := cachedEffort_spec (hi.entries o hmem c hc) t
    generalize o.env.cachedEffort c t = r at h1 h2
    obtain ⟨r, c'⟩ := r
    simp only at h1 h2
    subst h1
    cases hr : o.env.triadEffort t with
    | error err =>
      have := worldInv_update (o' := o) hi ho rfl rfl c' h2
      rw [set_self ho] at this
      refine ⟨this, ?_⟩
      have := congrArg (List.map plainOf) (set_self ho)
      rw [List.map_set] at this
      simp only [Prod.mk.injEq, and_true]
      exact this.symm
    | ok v =>
      refine ⟨worldInv_update (o' := { o with absEffort := o.absEffort + n * v, N := o.N + n }) hi ho rfl rfl c' h2, ?_⟩
      simp [List.map_set, plainOf]

theorem removeTriad_eq (w : CarpalxWorld) (i : Nat) (t : Triad) (n : Rat) :
    w.removeTriad i t n = w.addTriad i t (-n) := by
  unfold CarpalxWorld.removeTriad CarpalxWorld.addTriad
  simp only [sub_eq_add_neg, neg_mul]

theorem addTriads_plain (i : Nat) (ts : Dict Triad Rat) {w : CarpalxWorld} (hi : WorldInv w) :
    WorldInv (w.addTriads i ts).1 ∧
      ((w.addTriads i ts).1.objs.map plainOf, (w.addTriads i ts).2) =
        onObj (w.objs.map plainOf) i fun o => o.addAll ts := by
  induction ts generalizing w with
  | nil =>
    refine ⟨hi, ?_⟩
    unfold onObj
    cases h : (w.objs.map plainOf)[i]? with
    | none => rfl
    | some o => simp [Plain.addAll, CarpalxWorld.addTriads, set_self h]
  | cons p ts ih =>
    obtain ⟨t, n⟩ := p
    obtain ⟨h1, h2⟩ := addTriad_plain hi i t n
    rw [CarpalxWorld.addTriads]
    generalize w.addTriad i t n = r at h1 h2
    obtain ⟨w', err⟩ := r
    simp only at h1 h2
    unfold onObj at h2 ⊢
    cases ho : (w.objs.map plainOf)[i]? with
    | none =>
      simp only [ho, Prod.mk.injEq] at h2
      obtain ⟨h3, rfl⟩ := h2
      obtain ⟨h4, h5⟩ := ih h1
      refine ⟨h4, ?_⟩
      simp only
      rw [h5, h3, onObj, ho]
    | some o =>
      simp only [ho, Prod.mk.injEq] at h2
      obtain ⟨h3, h4⟩ := h2
      simp only [Plain.addAll]
      generalize o.add t n = r at h3 h4
      obtain ⟨o', e⟩ := r
      simp only at h3 h4
      subst h4
      cases err with
      | some e => exact ⟨h1, by simp [h3]⟩
      | none =>
        obtain ⟨h5, h6⟩ := ih h1
        refine ⟨h5, ?_⟩
        simp only
        rw [h6, h3, onObj, List.getElem?_set_self (List.getElem?_eq_some_iff.1 ho).1]
        simp

theorem step_plain {w : CarpalxWorld} (hi : WorldInv w) (op : CarpalxOp) :
    WorldInv (w.step op).1 ∧ ((w.step op).1.objs.map plainOf, (w.step op).2) = plainStep (w.objs.map plainOf) op := by
  cases op with
  | new env =>
    refine ⟨⟨?_, ?_, ?_⟩, by simp [CarpalxWorld.step, plainStep, plainOf]⟩
    · intro o ho
      simp only [CarpalxWorld.step, List.mem_append, List.mem_singleton] at ho ⊢
      rcases ho with ho | rfl
      · obtain ⟨c, hc⟩ := hi.refs o ho
        exact ⟨c, by rw [List.getElem?_append_left (List.getElem?_eq_some_iff.1 hc).1]; exact hc⟩
      · exact ⟨[], by simp⟩
    · intro o ho c hc t v htv
      simp only [CarpalxWorld.step, List.mem_append, List.mem_singleton] at ho hc
      rcases ho with ho | rfl
      · obtain ⟨c', hc'⟩ := hi.refs o ho
        rw [List.getElem?_append_left (List.getElem?_eq_some_iff.1 hc').1] at hc
        exact hi.entries o ho c hc t v htv
      · simp at hc
        subst hc
        simp [Dict.get?] at htv
    · intro o ho o' ho' hoo
      simp only [CarpalxWorld.step, List.mem_append, List.mem_singleton] at ho ho'
      have lt : ∀ p ∈ w.objs, p.cache < w.caches.length := fun p hp => by
        obtain ⟨c, hc⟩ := hi.refs p hp
        exact (List.getElem?_eq_some_iff.1 hc).1
      rcases ho with ho | rfl <;> rcases ho' with ho' | rfl
      · exact hi.shared o ho o' ho' hoo
      · exact absurd hoo (Nat.ne_of_lt (lt o ho))
      · exact absurd hoo.symm (Nat.ne_of_lt (lt o' ho'))
      · rfl
  | copy i =>
    simp only [CarpalxWorld.step, plainStep, List.getElem?_map]
    cases ho : w.objs[i]? with
    | none => exact ⟨hi, rfl⟩
    | some o =>
      have hmem : o ∈ w.objs := List.mem_of_getElem? ho
      have key : ∀ p ∈ w.objs ++ [o], p ∈ w.objs := by
        intro p hp
        simp only [List.mem_append, List.mem_singleton] at hp
        rcases hp with hp | rfl
        exacts [hp, hmem]
      exact ⟨⟨fun p hp => hi.refs p (key p hp), fun p hp => hi.entries p (key p hp),
        fun p hp q hq => hi.shared p (key p hp) q (key q hq)⟩, by simp⟩
  | add i t n => exact addTriad_plain hi i t n
  | remove i t n =>
    simp only [CarpalxWorld.step, removeTriad_eq]
    exact addTriad_plain hi i t (-n)
  | addAll i ts => exact addTriads_plain i ts hi
  | reset i =>
    simp only [CarpalxWorld.step, plainStep, onObj, List.getElem?_map]
    cases ho : w.objs[i]? with
    | none => exact ⟨hi, rfl⟩
    | some o =>
      have hmem : o ∈ w.objs := List.mem_of_getElem? ho
      obtain ⟨c, hc⟩ := hi.refs o hmem
      have := worldInv_update (o' := { o with absEffort := 0, N := 0 }) hi ho rfl rfl c (hi.entries o hmem c hc)
      rw [set_self hc] at this
      exact ⟨this, by simp [List.map_set, plainOf]⟩

theorem run_plain (ops : List CarpalxOp) {w : CarpalxWorld} (hi : WorldInv w) :
    ((w.run ops).1.objs.map plainOf, (w.run ops).2) = plainRun (w.objs.map plainOf) ops := by
  induction ops generalizing w with
  | nil => rfl
  | cons op ops ih =>
    obtain ⟨h1, h2⟩ := step_plain hi op
    simp only [Prod.ext_iff] at h2 ih
    simp only [CarpalxWorld.run, plainRun, Prod.ext_iff]
    obtain ⟨h3, h4⟩ := ih h1
    rw [h3, h4, ← h2.1, ← h2.2]
    exact ⟨rfl, rfl⟩

theorem worldInv_empty : WorldInv ⟨[], []⟩ := ⟨by simp, by simp, by simp⟩

/-! ### Weighted mean -/

/-- The effort of a triad that can be rated. -/
def effortOf (env : CarpalxEnv) (t : Triad) : Rat := (env.triadEffort t).toOption.getD 0

theorem effortOf_ok {env : CarpalxEnv} {t : Triad} {v : Rat} (h : env.triadEffort t = .ok v) : effortOf env t = v := by
  simp [effortOf, h, Except.toOption]

theorem plainRun_changes (env : CarpalxEnv) (cs : List Change) (hok : ∀ c ∈ cs, ∃ v, env.triadEffort c.triad = .ok v)
    (a n : Rat) :
    plainRun [⟨env, a, n⟩] (cs.map (Change.op 0)) =
      ([⟨env, a + (cs.map fun c => c.weight * effortOf env c.triad).sum, n + (cs.map Change.weight).sum⟩],
        cs.map fun _ => none) := by
  induction cs generalizing a n with
  | nil => simp [plainRun]
  | cons c cs ih =>
    obtain ⟨v, hv⟩ := hok c (by simp)
    have hs : plainStep [⟨env, a, n⟩] (c.op 0) =
        ([⟨env, a + c.weight * effortOf env c.triad, n + c.weight⟩], none) := by
      cases c <;> simp only [Change.triad] at hv <;>
        simp [plainStep, Change.op, onObj, Plain.add, hv, Change.weight, Change.triad, effortOf_ok hv]
    simp only [List.map_cons, plainRun, hs]
    rw [ih (fun c hc => hok c (by simp [hc]))]
    simp [add_assoc]

/-- A sum over changes is a sum over triads of net weights. -/
theorem sum_net (f : Triad → Rat) (cs : List Change) :
    (cs.map fun c => c.weight * f c.triad).sum = ((triadsOf cs).map fun t => net cs t * f t).sum := by
  have gen : ∀ (ts : List Triad), ts.Nodup → (∀ c ∈ cs, c.triad ∈ ts) →
      (cs.map fun c => c.weight * f c.triad).sum = (ts.map fun t => net cs t * f t).sum := by
    intro ts hn hm
    induction cs with
    | nil => simp [net]
    | cons c cs ih =>
      rw [List.map_cons, List.sum_cons, ih (fun c hc => hm c (by simp [hc]))]
      have e : ∀ t, net (c :: cs) t = (if t = c.triad then c.weight else 0) + net cs t := by
        intro t
        by_cases h : c.triad = t
        · simp [net, h]
        · simp [net, h, Ne.symm h]
      have e2 : (ts.map fun t => net (c :: cs) t * f t).sum =
          (ts.map fun t => (if t = c.triad then c.weight else 0) * f t).sum + (ts.map fun t => net cs t * f t).sum := by
        rw [← List.sum_map_add]
        congr 1
        apply List.map_congr_left
        intro t _
        rw [e]; ring
      rw [e2]
      congr 1
      have hc := hm c (by simp)
      clear ih e e2 hm
      induction ts with
      | nil => simp at hc
      | cons t ts ih =>
        rw [List.nodup_cons] at hn
        rw [List.map_cons, List.sum_cons]
        by_cases h : t = c.triad
        · have : (ts.map fun t => (if t = c.triad then c.weight else 0) * f t).sum = 0 := by
            apply List.sum_eq_zero
            intro x hx
            obtain ⟨u, hu, rfl⟩ := List.mem_map.1 hx
            rw [if_neg (fun h' => hn.1 (by rw [h, ← h']; exact hu))]
            ring
          rw [this, if_pos h, h]; ring
        · rw [if_neg h, ih hn.2 ((List.mem_cons.1 hc).resolve_left (Ne.symm h))]; ring
  exact gen _ (List.nodup_dedup _) (fun c hc => List.mem_dedup.2 (List.mem_map_of_mem hc))

/-! ### Bounds -/

theorem forall2_sum_nonneg {α : Type} {f : α → Py Rat} {l : List α} {ys : List Rat}
    (h : List.Forall₂ (fun x y => f x = .ok y) l ys) (hf : ∀ x v, f x = .ok v → 0 ≤ v) : ∀ y ∈ ys, 0 ≤ y := by
  induction h with
  | nil => simp
  | cons h1 _ ih =>
    intro y hy
    rcases List.mem_cons.1 hy with rfl | hy
    · exact hf _ _ h1
    · exact ih y hy

theorem combEffort_nonneg {e : CarpalxEnv} {f : Button → Py Rat} {l : List Button} {v : Rat} (hl : l ≠ [])
    (hk : 0 ≤ e.params.k123S.2.2.2) (hf : ∀ x v, f x = .ok v → 0 ≤ v) (h : e.combEffort f l = .ok v) : 0 ≤ v := by
  simp only [CarpalxEnv.combEffort, bind_ok_iff, Except.ok.injEq] at h
  obtain ⟨ys, h1, rfl⟩ := h
  rw [mapM_ok_iff] at h1
  have h2 := List.sum_nonneg (forall2_sum_nonneg h1 hf)
  have h3 : 1 ≤ ys.length := by rw [← h1.length_eq]; exact List.length_pos_iff.2 hl
  have h4 : (0 : Rat) ≤ (((ys.length : Int) - 1 : Int) : Rat) := by exact_mod_cast (by omega : (0 : Int) ≤ (ys.length : Int) - 1)
  have := mul_nonneg h4 hk
  linarith

theorem baseEffort_nonneg {e : CarpalxEnv} (hp : NonNeg e.params) {it : Comb → List Button} {f : Button → Py Rat}
    {t : Triad} {v : Rat} (hl : it t.1 ≠ [] ∧ it t.2.1 ≠ [] ∧ it t.2.2 ≠ []) (hf : ∀ x v, f x = .ok v → 0 ≤ v)
    (h : e.baseEffort it f t = .ok v) : 0 ≤ v := by
  simp only [CarpalxEnv.baseEffort, bind_ok_iff, Except.ok.injEq] at h
  obtain ⟨b0, a0, b1, a1, b2, a2, rfl⟩ := h
  obtain ⟨k1, k2, k3, k4⟩ := hp.k123S
  have c0 := combEffort_nonneg hl.1 k4 hf a0
  have c1 := combEffort_nonneg hl.2.1 k4 hf a1
  have c2 := combEffort_nonneg hl.2.2 k4 hf a2
  positivity

theorem baseline_nonneg {e : CarpalxEnv} (hp : NonNeg e.params) {b : Button} {v : Rat} (h : e.baseline b = .ok v) :
    0 ≤ v := by
  simp only [CarpalxEnv.baseline, bind_ok_iff] at h
  obtain ⟨n, _, h⟩ := h
  unfold Dict.getItem at h
  cases hg : e.params.baselineEffort.get? n with
  | none => rw [hg] at h; simp at h
  | some w =>
    rw [hg] at h
    simp only [Except.ok.injEq] at h
    rw [← h]
    exact hp.baselineEffort _ (Dict.mem_of_get? hg)

theorem getItem_ok {κ ν : Type} [DecidableEq κ] {d : Dict κ ν} {k : κ} {v : ν} (h : d.getItem k = .ok v) : (k, v) ∈ d := by
  unfold Dict.getItem at h
  cases hg : d.get? k with
  | none => rw [hg] at h; simp at h
  | some w =>
    rw [hg] at h
    simp only [Except.ok.injEq] at h
    rw [← h]
    exact Dict.mem_of_get? hg

theorem index_ok {l : List Rat} {i : Nat} {v : Rat} (h : CarpalxEnv.index l i = .ok v) : v ∈ l := by
  unfold CarpalxEnv.index at h
  cases hg : l[i]? with
  | none => rw [hg] at h; simp at h
  | some w =>
    rw [hg] at h
    simp only [Except.ok.injEq] at h
    rw [← h]
    exact List.mem_of_getElem? hg

theorem penalty_nonneg {e : CarpalxEnv} (hp : NonNeg e.params) {b : Button} {v : Rat} (h : e.penalty b = .ok v) :
    0 ≤ v := by
  simp only [CarpalxEnv.penalty, bind_ok_iff, Except.ok.injEq] at h
  obtain ⟨pos, _, row, _, pH, h1, pR, h2, pFs, h3, pF, h4, rfl⟩ := h
  obtain ⟨w0, w1, w2, w3⟩ := hp.w0HRF
  have a1 := hp.pHand _ (getItem_ok h1)
  have a2 := hp.pRow _ (index_ok h2)
  have a3 := hp.pFinger _ (getItem_ok h3) _ (getItem_ok h4)
  simp only at a1 a2 a3
  simp only [madd4]
  positivity

theorem strokePathRow_cases (r0 r1 r2 : Int) : ∃ n, strokePathRow r0 r1 r2 = .ok n := by
  unfold strokePathRow
  simp only
  split_ifs <;> first | exact ⟨_, rfl⟩ | skip
  rename_i h0 h1 h2 h3 h4 h5 h6 h7
  exfalso
  simp only [maxAbs, max_le_iff, abs_le] at h3
  simp only [not_lt, le_min_iff, max_le_iff] at h6 h7
  omega

theorem strokePath_nonneg {e : CarpalxEnv} {t : Button × Button × Button} {p : Rat × Rat × Rat}
    (h : e.strokePath t = .ok p) : 0 ≤ p.1 ∧ 0 ≤ p.2.1 ∧ 0 ≤ p.2.2 := by
  simp only [CarpalxEnv.strokePath, bind_ok_iff, Except.ok.injEq] at h
  obtain ⟨f0, _, f1, _, f2, _, r0, _, r1, _, r2, _, row, _, finger, _, rfl⟩ := h
  exact ⟨by positivity, by positivity, by positivity⟩

theorem singleTriads_ne_nil {it : Comb → List Button} {t : Triad} (h : CarpalxEnv.singleTriads it t ≠ []) :
    it t.1 ≠ [] ∧ it t.2.1 ≠ [] ∧ it t.2.2 ≠ [] := by
  refine ⟨?_, ?_, ?_⟩ <;> intro h' <;> apply h <;> simp [CarpalxEnv.singleTriads, h']

/-- What a computed effort is made of. -/
theorem triadEffortBy_ok {e : CarpalxEnv} {it : Comb → List Button} {t : Triad} {v : Rat}
    (h : e.triadEffortBy it t = .ok v) : ∃ b p s, e.baseEffort it e.baseline t = .ok b ∧
      e.baseEffort it e.penalty t = .ok p ∧ e.strokeEffort it t = .ok s ∧ v = madd3 e.params.kBPS (b, p, s) ∧
      (it t.1 ≠ [] ∧ it t.2.1 ≠ [] ∧ it t.2.2 ≠ []) := by
  simp only [CarpalxEnv.triadEffortBy, bind_ok_iff, Except.ok.injEq] at h
  obtain ⟨b, hb, p, hp, s, hs, rfl⟩ := h
  refine ⟨b, p, s, hb, hp, hs, rfl, singleTriads_ne_nil fun hn => ?_⟩
  simp [CarpalxEnv.strokeEffort, hn, CarpalxEnv.minimum, bind, Except.bind, pure, Except.pure] at hs

theorem strokeEffort_nonneg {e : CarpalxEnv} (hp : NonNeg e.params) {it : Comb → List Button} {t : Triad} {s : Rat}
    (h : e.strokeEffort it t = .ok s) : 0 ≤ s := by
  simp only [CarpalxEnv.strokeEffort, bind_ok_iff] at h
  obtain ⟨ss, h1, h2⟩ := h
  rw [mapM_ok_iff] at h1
  rw [minimum_ok_iff] at h2
  refine forall2_sum_nonneg h1 ?_ s h2.1
  intro u v hv
  simp only [bind_ok_iff, Except.ok.injEq] at hv
  obtain ⟨p, hp', rfl⟩ := hv
  obtain ⟨a, b, c⟩ := strokePath_nonneg hp'
  obtain ⟨f1, f2, f3⟩ := hp.fHRF
  simp only [madd3]
  positivity

theorem triadEffort_nonneg {e : CarpalxEnv} (hp : NonNeg e.params) {t : Triad} {v : Rat} (h : e.triadEffort t = .ok v) :
    0 ≤ v := by
  obtain ⟨b, p, s, h1, h2, h3, rfl, hl⟩ := triadEffortBy_ok h
  have a1 := baseEffort_nonneg hp hl (fun _ _ h => baseline_nonneg hp h) h1
  have a2 := baseEffort_nonneg hp hl (fun _ _ h => penalty_nonneg hp h) h2
  have a3 := strokeEffort_nonneg hp h3
  obtain ⟨k1, k2, k3⟩ := hp.kBPS
  simp only [madd3]
  positivity

end Lulua

namespace Lulua
open Spec

/-! ### Monotonicity -/

theorem combEffort_mono {e e' : CarpalxEnv} (hk : e.params.k123S = e'.params.k123S) {f f' : Button → Py Rat}
    (hf : ∀ x v, f x = .ok v → ∃ v', f' x = .ok v' ∧ v ≤ v') {l : List Button} {v : Rat}
    (h : e.combEffort f l = .ok v) : ∃ v', e'.combEffort f' l = .ok v' ∧ v ≤ v' := by
  simp only [CarpalxEnv.combEffort, bind_ok_iff, Except.ok.injEq] at h ⊢
  obtain ⟨ys, h1, rfl⟩ := h
  rw [mapM_ok_iff] at h1
  have : ∃ ys', List.Forall₂ (fun x y => f' x = .ok y) l ys' ∧ ys.length = ys'.length ∧ ys.sum ≤ ys'.sum := by
    clear hk
    induction h1 with
    | nil => exact ⟨[], .nil, rfl, le_refl _⟩
    | cons h _ ih =>
      obtain ⟨v', h1, h2⟩ := hf _ _ h
      obtain ⟨ys', h3, h4, h5⟩ := ih
      exact ⟨v' :: ys', .cons h1 h3, by simp [h4], by simp only [List.sum_cons]; linarith⟩
  obtain ⟨ys', h3, h4, h5⟩ := this
  refine ⟨_, ⟨ys', (mapM_ok_iff ..).2 h3, rfl⟩, ?_⟩
  rw [hk, h4]
  linarith

theorem baseEffort_mono {e e' : CarpalxEnv} (hk : e.params.k123S = e'.params.k123S) (hp : NonNeg e.params)
    {f f' : Button → Py Rat} (hf : ∀ x v, f x = .ok v → 0 ≤ v ∧ ∃ v', f' x = .ok v' ∧ v ≤ v')
    {it : Comb → List Button} {t : Triad} (hl : it t.1 ≠ [] ∧ it t.2.1 ≠ [] ∧ it t.2.2 ≠ []) {v : Rat}
    (h : e.baseEffort it f t = .ok v) : ∃ v', e'.baseEffort it f' t = .ok v' ∧ v ≤ v' := by
  simp only [CarpalxEnv.baseEffort, bind_ok_iff, Except.ok.injEq] at h ⊢
  obtain ⟨b0, a0, b1, a1, b2, a2, rfl⟩ := h
  obtain ⟨k1, k2, k3, k4⟩ := hp.k123S
  have c0 := combEffort_nonneg hl.1 k4 (fun x v h => (hf x v h).1) a0
  have c1 := combEffort_nonneg hl.2.1 k4 (fun x v h => (hf x v h).1) a1
  have c2 := combEffort_nonneg hl.2.2 k4 (fun x v h => (hf x v h).1) a2
  obtain ⟨d0, e0, g0⟩ := combEffort_mono hk (fun x v h => (hf x v h).2) a0
  obtain ⟨d1, e1, g1⟩ := combEffort_mono hk (fun x v h => (hf x v h).2) a1
  obtain ⟨d2, e2, g2⟩ := combEffort_mono hk (fun x v h => (hf x v h).2) a2
  refine ⟨_, ⟨d0, e0, d1, e1, d2, e2, rfl⟩, ?_⟩
  rw [hk] at k1 k2 k3 ⊢
  have f0 := le_trans c0 g0
  have f1 := le_trans c1 g1
  have f2 := le_trans c2 g2
  have : 0 ≤ e'.params.k123S.1 * d0 := mul_nonneg k1 f0
  gcongr

theorem triadEffort_mono {e : CarpalxEnv} (hp : NonNeg e.params) (d : Dict String Rat)
    (hd : ∀ n v, e.params.baselineEffort.get? n = some v → ∃ v', d.get? n = some v' ∧ v ≤ v') {t : Triad} {v : Rat}
    (h : e.triadEffort t = .ok v) :
    ∃ v', (CarpalxEnv.triadEffort { e with params := { e.params with baselineEffort := d } } t) = .ok v' ∧ v ≤ v' := by
  obtain ⟨b, p, s, h1, h2, h3, rfl, hl⟩ := triadEffortBy_ok h
  have hb := fun x v h => baseline_nonneg (b := x) (v := v) hp h
  obtain ⟨b', g1, g2⟩ := baseEffort_mono (e := e) (e' := { e with params := { e.params with baselineEffort := d } }) rfl hp
    (f' := CarpalxEnv.baseline { e with params := { e.params with baselineEffort := d } }) (fun x v hx => ⟨hb x v hx, by
      simp only [CarpalxEnv.baseline, bind_ok_iff] at hx ⊢
      obtain ⟨n, hn, hx⟩ := hx
      unfold Dict.getItem at hx ⊢
      cases hg : e.params.baselineEffort.get? n with
      | none => rw [hg] at hx; simp at hx
      | some w =>
        rw [hg] at hx
        simp only [Except.ok.injEq] at hx
        obtain ⟨v', h1, h2⟩ := hd n w hg
        exact ⟨v', ⟨n, hn, by rw [h1]⟩, by rw [← hx]; exact h2⟩⟩) hl h1
  refine ⟨madd3 e.params.kBPS (b', p, s), ?_, ?_⟩
  · unfold CarpalxEnv.triadEffort CarpalxEnv.triadEffortBy
    rw [bind_ok_iff]
    refine ⟨b', g1, ?_⟩
    rw [bind_ok_iff]
    refine ⟨p, h2, ?_⟩
    rw [bind_ok_iff]
    exact ⟨s, h3, rfl⟩
  · obtain ⟨k1, k2, k3⟩ := hp.kBPS
    simp only [madd3]
    have := mul_le_mul_of_nonneg_left g2 k1
    linarith

/-! ### What can be rated -/

theorem strokePathFinger_cases (p0 p1 p2 : Direction × Finger) (t0 t1 t2 : Button) :
    ∃ n, strokePathFinger p0 p1 p2 t0 t1 t2 = .ok n := by
  unfold strokePathFinger
  simp only
  split_ifs <;> first | exact ⟨_, rfl⟩ | (exfalso; tauto)

theorem penalty_parts {e : CarpalxEnv} {b : Button} {v : Rat} (h : e.penalty b = .ok v) :
    (∃ p, e.hf b = .ok p) ∧ ∃ r, e.getRow b = .ok r := by
  simp only [CarpalxEnv.penalty, bind_ok_iff] at h
  obtain ⟨pos, h1, row, h2, _⟩ := h
  exact ⟨⟨pos, h1⟩, ⟨row, h2⟩⟩

theorem combEffort_exists {e : CarpalxEnv} {f : Button → Py Rat} {l : List Button} (h : ∀ b ∈ l, ∃ v, f b = .ok v) :
    ∃ v, e.combEffort f l = .ok v := by
  obtain ⟨ys, hy⟩ := (mapM_exists_iff f l).2 h
  exact ⟨_, by simp only [CarpalxEnv.combEffort, bind_ok_iff]; exact ⟨ys, hy, rfl⟩⟩

theorem baseEffort_exists {e : CarpalxEnv} {f : Button → Py Rat} {t : Triad}
    (h : ∀ b, b ∈ t.1.iter ∨ b ∈ t.2.1.iter ∨ b ∈ t.2.2.iter → ∃ v, f b = .ok v) :
    ∃ v, e.baseEffort Comb.iter f t = .ok v := by
  obtain ⟨v0, h0⟩ := combEffort_exists (e := e) (l := t.1.iter) fun b hb => h b (.inl hb)
  obtain ⟨v1, h1⟩ := combEffort_exists (e := e) (l := t.2.1.iter) fun b hb => h b (.inr (.inl hb))
  obtain ⟨v2, h2⟩ := combEffort_exists (e := e) (l := t.2.2.iter) fun b hb => h b (.inr (.inr hb))
  exact ⟨_, by simp only [CarpalxEnv.baseEffort, bind_ok_iff]; exact ⟨v0, h0, v1, h1, v2, h2, rfl⟩⟩

theorem strokePath_exists {e : CarpalxEnv} {t : Button × Button × Button}
    (h : ∀ b, b = t.1 ∨ b = t.2.1 ∨ b = t.2.2 → Rateable e b) : ∃ p, e.strokePath t = .ok p := by
  obtain ⟨-, v0, p0⟩ := h t.1 (.inl rfl)
  obtain ⟨-, v1, p1⟩ := h t.2.1 (.inr (.inl rfl))
  obtain ⟨-, v2, p2⟩ := h t.2.2 (.inr (.inr rfl))
  obtain ⟨⟨f0, a0⟩, r0, b0⟩ := penalty_parts p0
  obtain ⟨⟨f1, a1⟩, r1, b1⟩ := penalty_parts p1
  obtain ⟨⟨f2, a2⟩, r2, b2⟩ := penalty_parts p2
  obtain ⟨row, hr⟩ := strokePathRow_cases r0 r1 r2
  obtain ⟨fin, hf⟩ := strokePathFinger_cases f0 f1 f2 t.1 t.2.1 t.2.2
  exact ⟨_, by
    simp only [CarpalxEnv.strokePath, bind_ok_iff]
    exact ⟨f0, a0, f1, a1, f2, a2, r0, b0, r1, b1, r2, b2, row, hr, fin, hf, rfl⟩⟩

theorem minimum_exists {l : List Rat} (h : l ≠ []) : ∃ m, CarpalxEnv.minimum l = .ok m := by
  cases l with
  | nil => exact absurd rfl h
  | cons x xs => exact ⟨_, rfl⟩

/-- A triad of non-empty combinations of buttons that can be rated can be rated, and no other. -/
theorem triadEffort_ok_iff {e : CarpalxEnv} {t : Triad} :
    (∃ v, e.triadEffort t = .ok v) ↔ (t.1.iter ≠ [] ∧ t.2.1.iter ≠ [] ∧ t.2.2.iter ≠ []) ∧
      ∀ b, b ∈ t.1.iter ∨ b ∈ t.2.1.iter ∨ b ∈ t.2.2.iter → Rateable e b := by
  constructor
  · rintro ⟨v, h⟩
    obtain ⟨x, p, s, h1, h2, h3, _, hl⟩ := triadEffortBy_ok h
    refine ⟨hl, fun b hb => ?_⟩
    have key : ∀ (f : Button → Py Rat) y, e.baseEffort Comb.iter f t = .ok y → ∃ v, f b = .ok v := by
      intro f y hy
      simp only [CarpalxEnv.baseEffort, CarpalxEnv.combEffort, bind_ok_iff, Except.ok.injEq] at hy
      obtain ⟨_, ⟨y0, m0, _⟩, _, ⟨y1, m1, _⟩, _, ⟨y2, m2, _⟩, _⟩ := hy
      rcases hb with hb | hb | hb
      · exact (mapM_exists_iff f _).1 ⟨_, m0⟩ b hb
      · exact (mapM_exists_iff f _).1 ⟨_, m1⟩ b hb
      · exact (mapM_exists_iff f _).1 ⟨_, m2⟩ b hb
    exact ⟨key _ _ h1, key _ _ h2⟩
  · rintro ⟨⟨n0, n1, n2⟩, h⟩
    obtain ⟨x, hx⟩ := baseEffort_exists (e := e) (f := e.baseline) fun b hb => (h b hb).1
    obtain ⟨p, hp⟩ := baseEffort_exists (e := e) (f := e.penalty) fun b hb => (h b hb).2
    obtain ⟨ss, hs⟩ := (mapM_exists_iff (fun u => do
        let p ← e.strokePath u
        .ok (madd3 e.params.fHRF p)) (CarpalxEnv.singleTriads Comb.iter t)).2 (by
      intro u hu
      simp only [CarpalxEnv.singleTriads, List.mem_flatMap, List.mem_map] at hu
      obtain ⟨a, ha, b, hb, c, hc, rfl⟩ := hu
      obtain ⟨q, hq⟩ := strokePath_exists (e := e) (t := (a, b, c)) (by
        rintro d (rfl | rfl | rfl)
        exacts [h _ (.inl ha), h _ (.inr (.inl hb)), h _ (.inr (.inr hc))])
      exact ⟨_, (bind_ok_iff ..).2 ⟨q, hq, rfl⟩⟩)
    have hne : ss ≠ [] := by
      rw [mapM_ok_iff] at hs
      intro h0
      subst h0
      have h1 : CarpalxEnv.singleTriads Comb.iter t = [] := List.length_eq_zero_iff.1 hs.length_eq
      obtain ⟨a, ha⟩ := List.exists_mem_of_ne_nil _ n0
      obtain ⟨b, hb⟩ := List.exists_mem_of_ne_nil _ n1
      obtain ⟨c, hc⟩ := List.exists_mem_of_ne_nil _ n2
      have : (a, b, c) ∈ CarpalxEnv.singleTriads Comb.iter t := by
        simp only [CarpalxEnv.singleTriads, List.mem_flatMap, List.mem_map]
        exact ⟨a, ha, b, hb, c, hc, rfl⟩
      rw [h1] at this
      simp at this
    obtain ⟨m, hm⟩ := minimum_exists hne
    exact ⟨_, by
      simp only [CarpalxEnv.triadEffort, CarpalxEnv.triadEffortBy, CarpalxEnv.strokeEffort, bind_ok_iff]
      exact ⟨x, hx, p, hp, m, ⟨ss, hs, hm⟩, rfl⟩⟩

/-! ### Bounds of the mean -/

theorem plain_addAll (env : CarpalxEnv) (ts : Dict Triad Rat) (hok : ∀ x ∈ ts, ∃ v, env.triadEffort x.1 = .ok v) (a n : Rat) :
    (Plain.mk env a n).addAll ts =
      (⟨env, a + (ts.map fun x => x.2 * effortOf env x.1).sum, n + (ts.map fun x => x.2).sum⟩, none) := by
  induction ts generalizing a n with
  | nil => simp [Plain.addAll]
  | cons x ts ih =>
    obtain ⟨t, w⟩ := x
    obtain ⟨v, hv⟩ := hok (t, w) (by simp)
    simp only at hv
    simp only [Plain.addAll, Plain.add, hv]
    rw [ih (fun x hx => hok x (by simp [hx]))]
    simp [effortOf_ok hv, add_assoc]

theorem mean_bounds {α : Type} (l : List α) (w f : α → Rat) (hw : ∀ x ∈ l, 0 < w x) (hl : l ≠ []) (lo hi : Rat)
    (hlo : ∀ x ∈ l, lo ≤ f x) (hhi : ∀ x ∈ l, f x ≤ hi) :
    0 < (l.map w).sum ∧ lo * (l.map w).sum ≤ (l.map fun x => w x * f x).sum ∧
      (l.map fun x => w x * f x).sum ≤ hi * (l.map w).sum := by
  have base : lo * (l.map w).sum ≤ (l.map fun x => w x * f x).sum ∧
      (l.map fun x => w x * f x).sum ≤ hi * (l.map w).sum ∧ 0 ≤ (l.map w).sum := by
    clear hl
    induction l with
    | nil => simp
    | cons x l ih =>
      obtain ⟨i1, i2, i3⟩ := ih (fun y hy => hw y (by simp [hy])) (fun y hy => hlo y (by simp [hy]))
        (fun y hy => hhi y (by simp [hy]))
      have h0 := hw x (by simp)
      have h1 := mul_le_mul_of_nonneg_left (hlo x (by simp)) h0.le
      have h2 := mul_le_mul_of_nonneg_left (hhi x (by simp)) h0.le
      simp only [List.map_cons, List.sum_cons]
      refine ⟨by linarith, by linarith, by linarith⟩
  refine ⟨?_, base.1, base.2.1⟩
  cases l with
  | nil => exact absurd rfl hl
  | cons x l =>
    have h0 := hw x (by simp)
    have : 0 ≤ (l.map w).sum := List.sum_nonneg (by
      intro y hy
      obtain ⟨z, hz, rfl⟩ := List.mem_map.1 hy
      exact (hw z (by simp [hz])).le)
    simp only [List.map_cons, List.sum_cons]
    linarith

end Lulua
