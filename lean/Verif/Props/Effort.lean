import Verif.Props.Carpalx
import Verif.Proofs.Keyboard
import Verif.Spec.Effort

/-!
# C97: the effort of a triad is the documented formula
-/

namespace Lulua.Props
open Lulua Spec

theorem handClass_iff (h0 h1 h2 : Direction) (n : Nat) : HandClass n h0 h1 h2 ↔ n = strokePathHand h0 h1 h2 := by
  rcases n with _ | _ | _ | n <;> cases h0 <;> cases h1 <;> cases h2 <;> simp [HandClass, strokePathHand]

theorem baseline_cost (e : CarpalxEnv) (b : Button) (v : Rat) : e.baseline b = .ok v ↔ ReachCost e b v := by
  simp only [CarpalxEnv.baseline, bind_ok_iff, Dict.getItem_eq_ok, ReachCost]

theorem index_eq_ok {α : Type} {l : List α} {i : Nat} {v : α} : CarpalxEnv.index l i = .ok v ↔ l[i]? = some v := by
  unfold CarpalxEnv.index
  cases l[i]? <;> simp

theorem penalty_cost (e : CarpalxEnv) (b : Button) (v : Rat) : e.penalty b = .ok v ↔ PenaltyCost e b v := by
  simp only [CarpalxEnv.penalty, bind_ok_iff, Dict.getItem_eq_ok, index_eq_ok, PenaltyCost, madd4, Except.ok.injEq]
  constructor
  · rintro ⟨⟨hand, finger⟩, h1, row, h2, pH, h3, pR, h4, fs, h5, pF, h6, rfl⟩
    exact ⟨hand, finger, row, pH, pR, fs, pF, h1, h2, h3, h4, h5, h6, by ring⟩
  · rintro ⟨hand, finger, row, pH, pR, fs, pF, h1, h2, h3, h4, h5, h6, rfl⟩
    exact ⟨(hand, finger), h1, row, h2, pH, h3, pR, h4, fs, h5, pF, h6, by ring⟩

theorem combEffort_cost (e : CarpalxEnv) {f : Button → Py Rat} {cost : Button → Rat → Prop}
    (hf : ∀ b v, f b = .ok v ↔ cost b v) (c : Comb) (v : Rat) :
    e.combEffort f c.iter = .ok v ↔ TogetherCost e cost c v := by
  simp only [CarpalxEnv.combEffort, bind_ok_iff, mapM_ok_iff, hf, TogetherCost, Except.ok.injEq, Comb.iter]
  refine exists_congr fun vs => and_congr_right fun h => ?_
  have hl : vs.length = c.modifier.length + c.buttons.length := by rw [← h.length_eq, List.length_append]
  rw [hl, eq_comm]
  push_cast
  rw [mul_comm e.params.k123S.2.2.2]

theorem baseEffort_cost (e : CarpalxEnv) {f : Button → Py Rat} {cost : Button → Rat → Prop}
    (hf : ∀ b v, f b = .ok v ↔ cost b v) (t : Triad) (v : Rat) :
    e.baseEffort Comb.iter f t = .ok v ↔ SequenceCost e cost t v := by
  simp only [CarpalxEnv.baseEffort, bind_ok_iff, combEffort_cost e hf, SequenceCost, Except.ok.injEq]
  constructor
  · rintro ⟨x1, h1, x2, h2, x3, h3, rfl⟩; exact ⟨x1, x2, x3, h1, h2, h3, rfl⟩
  · rintro ⟨x1, x2, x3, h1, h2, h3, rfl⟩; exact ⟨x1, h1, x2, h2, x3, h3, rfl⟩

theorem path_cost (e : CarpalxEnv) (b0 b1 b2 : Button) (v : Rat) :
    (∃ p, e.strokePath (b0, b1, b2) = .ok p ∧ madd3 e.params.fHRF p = v) ↔ PathCost e b0 b1 b2 v := by
  simp only [CarpalxEnv.strokePath, bind_ok_iff, C29_correct, C30_correct, PathCost, Except.ok.injEq, handClass_iff]
  constructor
  · rintro ⟨p, ⟨f0, h0, f1, h1, f2, h2, r0, g0, r1, g1, r2, g2, row, hr, finger, hf, rfl⟩, rfl⟩
    exact ⟨f0, f1, f2, r0, r1, r2, _, row, finger, h0, h1, h2, g0, g1, g2, rfl, hr, hf, by simp only [madd3]; ring⟩
  · rintro ⟨f0, f1, f2, r0, r1, r2, _, row, finger, h0, h1, h2, g0, g1, g2, rfl, hr, hf, rfl⟩
    exact ⟨_, ⟨f0, h0, f1, h1, f2, h2, r0, g0, r1, g1, r2, g2, row, hr, finger, hf, rfl⟩, by simp only [madd3]; ring⟩

theorem mem_singleTriads (t : Triad) (u : Button × Button × Button) : u ∈ CarpalxEnv.singleTriads Comb.iter t ↔
    KeyOf t.1 u.1 ∧ KeyOf t.2.1 u.2.1 ∧ KeyOf t.2.2 u.2.2 := by
  obtain ⟨a, b, c⟩ := u
  simp only [CarpalxEnv.singleTriads, List.mem_flatMap, List.mem_map, Prod.mk.injEq, Comb.iter, List.mem_append, KeyOf]
  constructor
  · rintro ⟨a', h1, b', h2, c', h3, rfl, rfl, rfl⟩; exact ⟨h1, h2, h3⟩
  · rintro ⟨h1, h2, h3⟩; exact ⟨a, h1, b, h2, c, h3, rfl, rfl, rfl⟩

theorem pathCost_unique {e : CarpalxEnv} {b0 b1 b2 : Button} {v w : Rat} (h : PathCost e b0 b1 b2 v)
    (h' : PathCost e b0 b1 b2 w) : v = w := by
  obtain ⟨p, h1, rfl⟩ := (path_cost ..).2 h
  obtain ⟨q, h2, rfl⟩ := (path_cost ..).2 h'
  rw [h1] at h2
  simp only [Except.ok.injEq] at h2
  rw [h2]

theorem strokeEffort_cost (e : CarpalxEnv) (t : Triad) (v : Rat) :
    e.strokeEffort Comb.iter t = .ok v ↔ CheapestPath e t v := by
  simp only [CarpalxEnv.strokeEffort, bind_ok_iff, mapM_ok_iff, minimum_ok_iff, Except.ok.injEq]
  constructor
  · rintro ⟨ss, hf, hm, hle⟩
    obtain ⟨⟨b0, b1, b2⟩, hu, hs⟩ := forall2_mem_right hf hm
    rw [mem_singleTriads] at hu
    refine ⟨⟨b0, b1, b2, hu.1, hu.2.1, hu.2.2, (path_cost ..).1 hs⟩, fun b0 b1 b2 h0 h1 h2 => ?_⟩
    obtain ⟨w, hw, hs⟩ := forall2_mem_left hf ((mem_singleTriads t (b0, b1, b2)).2 ⟨h0, h1, h2⟩)
    exact ⟨w, (path_cost ..).1 hs, hle w hw⟩
  · rintro ⟨⟨b0, b1, b2, h0, h1, h2, hp⟩, hle⟩
    obtain ⟨ss, hss⟩ := (mapM_exists_iff (fun u => do
        let p ← e.strokePath u
        .ok (madd3 e.params.fHRF p)) (CarpalxEnv.singleTriads Comb.iter t)).2 (by
      rintro ⟨c0, c1, c2⟩ hu
      rw [mem_singleTriads] at hu
      obtain ⟨w, hw, _⟩ := hle c0 c1 c2 hu.1 hu.2.1 hu.2.2
      obtain ⟨p, hp, rfl⟩ := (path_cost ..).2 hw
      exact ⟨_, by simp only [hp]; rfl⟩)
    rw [mapM_ok_iff] at hss
    simp only [bind_ok_iff, Except.ok.injEq] at hss
    refine ⟨ss, hss, ?_, fun y hy => ?_⟩
    · obtain ⟨w, hw, hs⟩ := forall2_mem_left hss ((mem_singleTriads t (b0, b1, b2)).2 ⟨h0, h1, h2⟩)
      rw [pathCost_unique hp ((path_cost ..).1 hs)]
      exact hw
    · obtain ⟨⟨c0, c1, c2⟩, hu, hs⟩ := forall2_mem_right hss hy
      rw [mem_singleTriads] at hu
      obtain ⟨w, hw, hvw⟩ := hle c0 c1 c2 hu.1 hu.2.1 hu.2.2
      rw [pathCost_unique ((path_cost ..).1 hs) hw]
      exact hvw

/-- **C97**: the effort computed for a triad is `k_b b + k_p p + k_s s`, where `b` and `p` combine the efforts and the
penalties of the three combinations, and `s` belongs to the cheapest path; it is computed if and only if everything in
the formula is there. -/
theorem C97_formula (e : CarpalxEnv) (t : Triad) (v : Rat) : e.triadEffort t = .ok v ↔ TriadCost e t v := by
  simp only [CarpalxEnv.triadEffort, CarpalxEnv.triadEffortBy, bind_ok_iff, baseEffort_cost e (baseline_cost e),
    baseEffort_cost e (penalty_cost e), strokeEffort_cost, TriadCost, Except.ok.injEq]
  constructor
  · rintro ⟨b, h1, p, h2, s, h3, rfl⟩; exact ⟨b, p, s, h1, h2, h3, by simp only [madd3]; ring⟩
  · rintro ⟨b, p, s, h1, h2, h3, rfl⟩; exact ⟨b, h1, p, h2, s, h3, by simp only [madd3]; ring⟩

/-- **C97** (unique): the formula has one value at most. -/
theorem C97_unique (e : CarpalxEnv) (t : Triad) (v w : Rat) (h : TriadCost e t v) (h' : TriadCost e t w) : v = w := by
  rw [← C97_formula] at h h'
  rw [h] at h'
  simpa using h'

/-- A triad with two keys pressed together. -/
example : TriadCost demoEnv demoTriad (250589/24000) := by
  rw [← C97_formula]; decide +kernel

end Lulua.Props
