import Verif.Proofs.Carpalx

/-!
# C29–C35: the effort model
-/

namespace Lulua.Props
open Lulua Spec

/-! ### C29 -/

theorem rowClass_of_ok {r0 r1 r2 : Int} {n : Nat} (h : strokePathRow r0 r1 r2 = .ok n) : RowClass n r0 r1 r2 := by
  have hm : maxAbs (r0 - r1) (r1 - r2) (r0 - r2) ≤ 1 ↔
      ((-1 ≤ r0 - r1 ∧ r0 - r1 ≤ 1) ∧ (-1 ≤ r1 - r2 ∧ r1 - r2 ≤ 1)) ∧ (-1 ≤ r0 - r2 ∧ r0 - r2 ≤ 1) := by
    simp only [maxAbs, max_le_iff, abs_le]
  unfold strokePathRow at h
  simp only [hm, lt_max_iff, min_lt_iff, gt_iff_lt] at h
  split_ifs at h <;> simp only [Except.ok.injEq] at h <;> subst h <;> simp only [RowClass, ZigZag] <;> omega

theorem rowClass_unique {r0 r1 r2 : Int} {n m : Nat} (hn : RowClass n r0 r1 r2) (hm : RowClass m r0 r1 r2) : n = m := by
  rcases n with _ | _ | _ | _ | _ | _ | _ | _ | n <;> rcases m with _ | _ | _ | _ | _ | _ | _ | _ | m <;>
    first | rfl | (exact hn.elim) | (exact hm.elim) | (simp only [RowClass, ZigZag] at hn hm; omega)

/-- **C29**: the class returned is the one that applies, -/
theorem C29_correct (r0 r1 r2 : Int) (n : Nat) : strokePathRow r0 r1 r2 = .ok n ↔ RowClass n r0 r1 r2 := by
  refine ⟨rowClass_of_ok, fun h => ?_⟩
  obtain ⟨m, hm⟩ := strokePathRow_cases r0 r1 r2
  rw [hm, rowClass_unique (rowClass_of_ok hm) h]

/-- exactly one does, so that the assertion never fails. -/
theorem C29_total (r0 r1 r2 : Int) : (∃ n, strokePathRow r0 r1 r2 = .ok n) ∧ ∃! n, RowClass n r0 r1 r2 := by
  obtain ⟨n, hn⟩ := strokePathRow_cases r0 r1 r2
  refine ⟨⟨n, hn⟩, n, (C29_correct ..).1 hn, fun m hm => ?_⟩
  have := (C29_correct ..).2 hm
  rw [hn] at this
  simpa using this.symm

/-- **C29** (relative): only the distances between rows matter. -/
theorem C29_translation (r0 r1 r2 k : Int) :
    strokePathRow (r0 + k) (r1 + k) (r2 + k) = strokePathRow r0 r1 r2 := by
  obtain ⟨n, hn⟩ := strokePathRow_cases r0 r1 r2
  rw [hn, C29_correct]
  rw [C29_correct] at hn
  revert hn
  rcases n with _ | _ | _ | _ | _ | _ | _ | _ | n <;> simp only [RowClass, ZigZag] <;> first | omega | exact id

/-- Every class occurs on a keyboard with five rows. -/
example : [(2, 2, 2), (1, 1, 2), (2, 1, 1), (2, 1, 2), (0, 1, 4), (1, 3, 2), (4, 2, 1), (1, 0, 4), (3, 1, 2)].map
    (fun r => strokePathRow r.1 r.2.1 r.2.2) = [.ok 0, .ok 1, .ok 2, .ok 3, .ok 4, .ok 5, .ok 6, .ok 5, .ok 7] := by
  decide +kernel

/-! ### C30 -/

/-- The number used is the position from left to right. -/
theorem C30_position (f : Direction × Finger) : fingerNumber f = position f + 1 := by
  obtain ⟨d, f⟩ := f
  cases d <;> cases f <;> decide +kernel

theorem keyRepeat_iff (t0 t1 t2 : Button) : KeyRepeat t0 t1 t2 ↔ (t0 = t1 ∨ t1 = t2 ∨ t0 = t2) := by
  simp only [KeyRepeat, List.nodup_cons, List.mem_cons, List.not_mem_nil, or_false, not_false_eq_true,
    List.nodup_nil, and_true]
  tauto

theorem fingerClass_of_ok {p0 p1 p2 : Direction × Finger} {t0 t1 t2 : Button} {n : Nat}
    (h : strokePathFinger p0 p1 p2 t0 t1 t2 = .ok n) :
    FingerClass n (position p0) (position p1) (position p2) (KeyRepeat t0 t1 t2) := by
  unfold strokePathFinger at h
  rw [propext (keyRepeat_iff t0 t1 t2)]
  simp only [C30_position, gt_iff_lt, ge_iff_le] at h
  generalize position p0 = a at h ⊢
  generalize position p1 = b at h ⊢
  generalize position p2 = c at h ⊢
  split_ifs at h <;> simp only [Except.ok.injEq] at h <;> subst h <;>
    simp only [FingerClass] <;> first | omega | (refine ⟨?_, ‹_›⟩; omega) | (refine ⟨?_, ?_, ‹_›⟩ <;> omega)

theorem fingerClass_unique {a b c : Nat} {rep : Prop} {n m : Nat} (hn : FingerClass n a b c rep)
    (hm : FingerClass m a b c rep) : n = m := by
  rcases Classical.propComplete rep with rfl | rfl <;>
  rcases n with _ | _ | _ | _ | _ | _ | _ | _ | n <;> rcases m with _ | _ | _ | _ | _ | _ | _ | _ | m <;>
    first
    | rfl
    | (exact hn.elim)
    | (exact hm.elim)
    | (exact absurd trivial hn.2)
    | (exact absurd trivial hm.2)
    | (exact absurd trivial hn.2.2)
    | (exact absurd trivial hm.2.2)
    | (exact hn.2.elim)
    | (exact hm.2.elim)
    | (exact hn.2.2.elim)
    | (exact hm.2.2.elim)
    | (simp only [FingerClass, not_false_eq_true, and_true] at hn hm; omega)

/-- **C30**: the class returned is the one that applies to the positions of the fingers, -/
theorem C30_correct (p0 p1 p2 : Direction × Finger) (t0 t1 t2 : Button) (n : Nat) :
    strokePathFinger p0 p1 p2 t0 t1 t2 = .ok n ↔
      FingerClass n (position p0) (position p1) (position p2) (KeyRepeat t0 t1 t2) := by
  refine ⟨fingerClass_of_ok, fun h => ?_⟩
  obtain ⟨m, hm⟩ := strokePathFinger_cases p0 p1 p2 t0 t1 t2
  rw [hm, fingerClass_unique (fingerClass_of_ok hm) h]

/-- exactly one does, so that the assertion never fails; -/
theorem C30_total (p0 p1 p2 : Direction × Finger) (t0 t1 t2 : Button) :
    (∃ n, strokePathFinger p0 p1 p2 t0 t1 t2 = .ok n) ∧
      ∃! n, FingerClass n (position p0) (position p1) (position p2) (KeyRepeat t0 t1 t2) := by
  obtain ⟨n, hn⟩ := strokePathFinger_cases p0 p1 p2 t0 t1 t2
  refine ⟨⟨n, hn⟩, n, (C30_correct ..).1 hn, fun m hm => ?_⟩
  have := (C30_correct ..).2 hm
  rw [hn] at this
  simpa using this.symm

/-- swapping the hands changes nothing, whatever the buttons are called. -/
theorem C30_mirror (p0 p1 p2 : Direction × Finger) (t0 t1 t2 : Button) (m : Button → Button) (hm : Function.Injective m) :
    strokePathFinger (mirror p0) (mirror p1) (mirror p2) (m t0) (m t1) (m t2) = strokePathFinger p0 p1 p2 t0 t1 t2 := by
  have hp : ∀ p, position (mirror p) = 9 - position p ∧ position p ≤ 9 := by
    rintro ⟨d, f⟩
    cases d <;> cases f <;> decide +kernel
  have hk : KeyRepeat (m t0) (m t1) (m t2) = KeyRepeat t0 t1 t2 := by
    unfold KeyRepeat
    rw [show [m t0, m t1, m t2] = [t0, t1, t2].map m from rfl, List.nodup_map_iff hm]
  obtain ⟨n, hn⟩ := strokePathFinger_cases p0 p1 p2 t0 t1 t2
  rw [hn, C30_correct]
  rw [C30_correct] at hn
  rw [hk]
  obtain ⟨a0, b0⟩ := hp p0
  obtain ⟨a1, b1⟩ := hp p1
  obtain ⟨a2, b2⟩ := hp p2
  rw [a0, a1, a2]
  revert hn
  generalize KeyRepeat t0 t1 t2 = rep
  by_cases hr : rep <;> rcases n with _ | _ | _ | _ | _ | _ | _ | _ | n <;> simp only [FingerClass, hr, not_true_eq_false, not_false_eq_true, and_true, and_false] <;>
    first | omega | exact id

/-- Every class occurs. -/
example : [strokePathFinger (.left, .little) (.left, .ring) (.left, .index) 1 2 3,
    strokePathFinger (.left, .little) (.left, .little) (.left, .index) 1 1 3,
    strokePathFinger (.left, .little) (.left, .index) (.left, .ring) 1 2 3,
    strokePathFinger (.left, .ring) (.left, .little) (.right, .ring) 1 2 3,
    strokePathFinger (.right, .ring) (.left, .little) (.right, .ring) 1 2 1,
    strokePathFinger (.right, .ring) (.right, .ring) (.right, .ring) 1 2 1,
    strokePathFinger (.right, .ring) (.right, .ring) (.right, .little) 1 2 3,
    strokePathFinger (.right, .ring) (.right, .ring) (.right, .ring) 1 2 3] =
    [.ok 0, .ok 1, .ok 2, .ok 3, .ok 4, .ok 5, .ok 6, .ok 7] := by decide +kernel

/-! ### C31 -/

/-- **C31**: 1 for alternating hands, 2 for the same hand, 0 otherwise, -/
theorem C31_correct (h0 h1 h2 : Direction) :
    (strokePathHand h0 h1 h2 = 1 ↔ h0 = h2 ∧ h1 = otherHand h0) ∧
    (strokePathHand h0 h1 h2 = 2 ↔ h0 = h1 ∧ h1 = h2) ∧
    (strokePathHand h0 h1 h2 = 0 ↔ h2 = otherHand h0) := by
  cases h0 <;> cases h1 <;> cases h2 <;> decide +kernel

/-- also for swapped hands and the other direction. -/
theorem C31_symmetric (h0 h1 h2 : Direction) :
    strokePathHand (otherHand h0) (otherHand h1) (otherHand h2) = strokePathHand h0 h1 h2 ∧
    strokePathHand h2 h1 h0 = strokePathHand h0 h1 h2 := by
  cases h0 <;> cases h1 <;> cases h2 <;> decide +kernel

/-! ### C32 -/

/-- **C32**: after any operations on any number of objects, created independently or as copies of each other, all
objects have the values they would have without a cache, and the same operations have raised the same
exceptions. -/
theorem C32_cache (ops : List CarpalxOp) :
    (((CarpalxWorld.mk [] []).run ops).1.objs.map plainOf, ((CarpalxWorld.mk [] []).run ops).2) = plainRun [] ops :=
  run_plain ops worldInv_empty

/-- Objects for demonstration: three buttons in two rows, button 3 cannot be rated. -/
def demoParams : ModelParams where
  kBPS := (1/3, 2/3, 1/2)
  k123S := (1, 1/3, 1/4, 1)
  w0HRF := (0, 1, 13/10, 5/2)
  pHand := [(.left, 0), (.right, 1)]
  pRow := [3/2, 1/2]
  pFinger := [(.left, [(.index, 0), (.little, 1)]), (.right, [(.index, 0)])]
  fHRF := (1, 3/10, 3/10)
  baselineEffort := [("a", 2), ("b", 0), ("c", 7/2)]

def demoEnv : CarpalxEnv where
  params := demoParams
  hf b := if b = 0 then .ok (.left, .index) else if b = 1 then .ok (.right, .index)
    else if b = 2 then .ok (.left, .little) else .error .keyError
  nameOf b := if b = 0 then .ok "a" else if b = 1 then .ok "b" else if b = 2 then .ok "c" else .error .keyError
  getRow b := if b = 0 ∨ b = 1 then .ok 0 else if b = 2 then .ok 1 else .error .keyError

def demoTriad : Triad := (⟨[], [0]⟩, ⟨[2], [1]⟩, ⟨[], [2]⟩)
def demoTriad' : Triad := (⟨[], [0]⟩, ⟨[], [1]⟩, ⟨[], [1]⟩)
def demoBad : Triad := (⟨[], [0]⟩, ⟨[2], [3]⟩, ⟨[], [2]⟩)

/-- The cache is used by a copy after a reset of the original, and a triad that cannot be rated changes nothing. -/
example : let r := (CarpalxWorld.mk [] []).run [.new demoEnv, .add 0 demoTriad 2, .copy 0, .reset 0, .add 1 demoTriad 3,
    .add 1 demoBad 1, .remove 1 demoTriad 1]
    r.1.objs.map (fun o => (o.cache, o.N)) = [(0, 0), (0, 4)] ∧ r.1.caches.map List.length = [1] ∧
      r.2 = [none, none, none, none, none, some .keyError, none] ∧
      (r.1.objs.map fun o => Except.ok (ε := PyErr) o.effort)[1]? = some (demoEnv.triadEffort demoTriad) := by decide +kernel

/-! ### C33 -/

/-- **C33** (mean): after any additions and removals the effort is the mean of the efforts of the triads, weighted with
what has been added and not removed, and 0 if that is nothing in total. -/
theorem C33_mean (env : CarpalxEnv) (cs : List Change) (e : Triad → Rat)
    (hok : ∀ c ∈ cs, env.triadEffort c.triad = .ok (e c.triad)) :
    ∃ o, ((CarpalxWorld.mk [] []).run (.new env :: cs.map (Change.op 0))).1.objs = [o] ∧
      o.N = (cs.map Change.weight).sum ∧
      o.effort = if (cs.map Change.weight).sum = 0 then 0
        else ((triadsOf cs).map fun t => net cs t * e t).sum / (cs.map Change.weight).sum := by
  have h := C32_cache (.new env :: cs.map (Change.op 0))
  simp only [plainRun, plainStep, List.nil_append, Prod.mk.injEq] at h
  rw [plainRun_changes env cs (fun c hc => ⟨_, hok c hc⟩)] at h
  obtain ⟨h, _⟩ := h
  generalize ((CarpalxWorld.mk [] []).run (.new env :: cs.map (Change.op 0))).1.objs = os at h ⊢
  obtain ⟨o, rfl⟩ := List.length_eq_one_iff.1 (by simpa using congrArg List.length h)
  ·
    simp only [List.map_cons, List.map_nil, List.cons.injEq, and_true] at h
    have hN : o.N = (cs.map Change.weight).sum := by
      have := congrArg Plain.N h
      simpa [plainOf] using this
    have hA : o.absEffort = ((triadsOf cs).map fun t => net cs t * e t).sum := by
      have := congrArg Plain.absEffort h
      simp only [plainOf, zero_add] at this
      rw [this, ← sum_net]
      congr 1
      apply List.map_congr_left
      intro c hc
      rw [effortOf_ok (hok c hc)]
    exact ⟨o, rfl, hN, by rw [Carpalx.effort, hN, hA]⟩

/-- **C33** (order): it does not depend on the order of operations. -/
theorem C33_order (env : CarpalxEnv) (cs cs' : List Change) (hp : cs.Perm cs')
    (hok : ∀ c ∈ cs, ∃ v, env.triadEffort c.triad = .ok v) :
    ((CarpalxWorld.mk [] []).run (.new env :: cs.map (Change.op 0))).1.objs.map plainOf =
      ((CarpalxWorld.mk [] []).run (.new env :: cs'.map (Change.op 0))).1.objs.map plainOf := by
  have h1 := congrArg Prod.fst (C32_cache (.new env :: cs.map (Change.op 0)))
  have h2 := congrArg Prod.fst (C32_cache (.new env :: cs'.map (Change.op 0)))
  simp only [plainRun, plainStep, List.nil_append] at h1 h2
  rw [h1, h2, plainRun_changes env cs hok, plainRun_changes env cs' (fun c hc => hok c (hp.mem_iff.2 hc)),
    (hp.map _).sum_eq, (hp.map Change.weight).sum_eq]

/-- **C33** (undo): removing what was added restores the object, at any time and in any environment of other
objects. -/
theorem C33_undo (ops : List CarpalxOp) (i : Nat) (t : Triad) (n : Rat) :
    ((CarpalxWorld.mk [] []).run (ops ++ [.add i t n, .remove i t n])).1.objs.map plainOf =
      ((CarpalxWorld.mk [] []).run ops).1.objs.map plainOf := by
  have h1 := congrArg Prod.fst (C32_cache (ops ++ [.add i t n, .remove i t n]))
  have h2 := congrArg Prod.fst (C32_cache ops)
  simp only at h1 h2
  rw [h1, h2]
  have app : ∀ (os : List Plain) (a b : List CarpalxOp), (plainRun os (a ++ b)).1 = (plainRun (plainRun os a).1 b).1 := by
    intro os a b
    induction a generalizing os with
    | nil => rfl
    | cons x a ih => simp only [List.cons_append, plainRun]; rw [ih]
  rw [app]
  generalize (plainRun [] ops).1 = os
  simp only [plainRun, plainStep, onObj]
  cases ho : os[i]? with
  | none => simp [ho]
  | some o =>
    have hlt := (List.getElem?_eq_some_iff.1 ho).1
    simp only [Plain.add]
    cases ht : o.env.triadEffort t with
    | error err => simp only [set_self ho, ho, ht]
    | ok v =>
      simp only [List.getElem?_set_self hlt, ht, List.set_set]
      have : (⟨o.env, o.absEffort + n * v + -n * v, o.N + n + -n⟩ : Plain) = o := by
        cases o; simp
      rw [this, set_self ho]

example : ((∃ v, demoEnv.triadEffort demoTriad = .ok v) ∧ ∃ v, demoEnv.triadEffort demoTriad' = .ok v) ∧
    triadsOf [.add demoTriad 3, .add demoTriad' 2, .remove demoTriad 1] = [demoTriad', demoTriad] ∧
    net [.add demoTriad 3, .add demoTriad' 2, .remove demoTriad 1] demoTriad = 2 := by
  refine ⟨⟨⟨_, rfl⟩, ⟨_, rfl⟩⟩, ?_, ?_⟩ <;> decide +kernel

/-! ### C34 -/

/-- **C34** (sign): with non-negative parameters all efforts are non-negative. -/
theorem C34_nonneg (env : CarpalxEnv) (hp : NonNeg env.params) (t : Triad) (v : Rat) (h : env.triadEffort t = .ok v) :
    0 ≤ v := triadEffort_nonneg hp h

/-- **C34** (range): the effort of triads with positive weights lies between the smallest and the largest. -/
theorem C34_range (env : CarpalxEnv) (ts : Dict Triad Rat) (hne : ts ≠ []) (e : Triad → Rat)
    (hok : ∀ x ∈ ts, env.triadEffort x.1 = .ok (e x.1)) (hw : ∀ x ∈ ts, 0 < x.2) (lo hi : Rat)
    (hlo : ∀ x ∈ ts, lo ≤ e x.1) (hhi : ∀ x ∈ ts, e x.1 ≤ hi) :
    ∃ o, ((CarpalxWorld.mk [] []).run [.new env, .addAll 0 ts]).1.objs = [o] ∧ lo ≤ o.effort ∧ o.effort ≤ hi := by
  have h := congrArg Prod.fst (C32_cache [.new env, .addAll 0 ts])
  simp only [plainRun, plainStep, List.nil_append, onObj, List.getElem?_cons_zero,
    plain_addAll env ts (fun x hx => ⟨_, hok x hx⟩), List.set_cons_zero] at h
  generalize ((CarpalxWorld.mk [] []).run [.new env, .addAll 0 ts]).1.objs = os at h ⊢
  obtain ⟨o, rfl⟩ := List.length_eq_one_iff.1 (by simpa using congrArg List.length h)
  ·
    simp only [List.map_cons, List.map_nil, List.cons.injEq, and_true] at h
    have hN := congrArg Plain.N h
    have hA := congrArg Plain.absEffort h
    simp only [plainOf, zero_add] at hN hA
    have hA' : o.absEffort = (ts.map fun x => x.2 * e x.1).sum := by
      rw [hA]
      congr 1
      apply List.map_congr_left
      intro x hx
      rw [effortOf_ok (hok x hx)]
    obtain ⟨b1, b2, b3⟩ := mean_bounds ts (fun x => x.2) (fun x => e x.1) hw hne lo hi hlo hhi
    refine ⟨o, rfl, ?_⟩
    rw [← hN, ← hA'] at b2 b3
    rw [← hN] at b1
    rw [Carpalx.effort, if_neg (ne_of_gt b1)]
    exact ⟨(le_div_iff₀ b1).2 b2, (div_le_iff₀ b1).2 b3⟩

/-- **C34** (monotone): with larger base efforts no triad gets easier. -/
theorem C34_monotone (env : CarpalxEnv) (hp : NonNeg env.params) (base : Dict String Rat)
    (hb : ∀ n v, env.params.baselineEffort.get? n = some v → ∃ v', base.get? n = some v' ∧ v ≤ v') (t : Triad) (v : Rat)
    (h : env.triadEffort t = .ok v) :
    ∃ v', CarpalxEnv.triadEffort { env with params := { env.params with baselineEffort := base } } t = .ok v' ∧ v ≤ v' :=
  triadEffort_mono hp base hb h

example : NonNeg demoEnv.params ∧ (∃ v, demoEnv.triadEffort demoTriad = .ok v) := by
  refine ⟨⟨?_, ?_, ?_, ?_, ?_, ?_, ?_, ?_⟩, ⟨_, rfl⟩⟩ <;> decide +kernel

/-! ### C35 -/

/-- **C35**: the effort is the same for every order in which the buttons of the combinations are iterated. -/
theorem C35_order (env : CarpalxEnv) (iter : Comb → List Button) (hi : ∀ c, (iter c).Perm c.iter) (t : Triad) (v : Rat) :
    env.triadEffortBy iter t = .ok v ↔ env.triadEffort t = .ok v :=
  ⟨triadEffortBy_perm (hi _) (hi _) (hi _), triadEffortBy_perm (hi _).symm (hi _).symm (hi _).symm⟩

/-- Reversed order. -/
example : (∀ c : Comb, (c.iter.reverse).Perm c.iter) ∧ demoTriad.2.1.iter.reverse ≠ demoTriad.2.1.iter :=
  ⟨fun _ => List.reverse_perm _, by decide⟩

end Lulua.Props
