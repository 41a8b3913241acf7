import Verif.Py.Core
import Mathlib.Data.List.Nodup
import Mathlib.Algebra.BigOperators.Group.List.Basic

set_option linter.unusedSectionVars false

namespace Lulua.Dict
variable {κ ν : Type} [DecidableEq κ]

@[simp] theorem get?_nil (k : κ) : get? ([] : Dict κ ν) k = none := rfl

theorem get?_cons (p : κ × ν) (d : Dict κ ν) (k : κ) :
    get? (p :: d) k = if p.1 = k then some p.2 else get? d k := rfl

theorem get?_set (d : Dict κ ν) (k k' : κ) (v : ν) :
    (d.set k v).get? k' = if k = k' then some v else d.get? k' := by
  induction d with
  | nil => simp [set, get?]
  | cons p d ih =>
    obtain ⟨a, b⟩ := p
    by_cases h : a = k
    · subst h
      simp only [set, if_true, get?]
      split <;> rfl
    · simp only [set, if_neg h, get?, ih]
      by_cases h2 : a = k'
      · subst h2
        simp [Ne.symm h]
      · simp [h2]

@[simp] theorem get?_set_self (d : Dict κ ν) (k : κ) (v : ν) : (d.set k v).get? k = some v := by
  simp [get?_set]

theorem get?_set_ne (d : Dict κ ν) {k k' : κ} (v : ν) (h : k ≠ k') :
    (d.set k v).get? k' = d.get? k' := by
  simp [get?_set, h]

theorem get?_eq_none_iff {d : Dict κ ν} {k : κ} : d.get? k = none ↔ k ∉ d.map Prod.fst := by
  induction d with
  | nil => simp
  | cons p d ih =>
    simp only [get?_cons, List.map_cons, List.mem_cons, not_or]
    by_cases h : p.1 = k
    · simp [h]
    · simp only [h, if_false, ih]
      constructor
      · intro h2; exact ⟨fun h3 => h h3.symm, h2⟩
      · exact fun h2 => h2.2

theorem get?_isSome_iff {d : Dict κ ν} {k : κ} : (d.get? k).isSome ↔ k ∈ d.map Prod.fst := by
  rw [← not_iff_not, ← get?_eq_none_iff]
  simp

theorem mem_of_get? {d : Dict κ ν} {k : κ} {v : ν} (h : d.get? k = some v) : (k, v) ∈ d := by
  induction d with
  | nil => simp at h
  | cons p d ih =>
    rw [get?_cons] at h
    by_cases hp : p.1 = k
    · simp only [hp, if_true, Option.some.injEq] at h
      simp [← h, ← hp]
    · simp only [hp, if_false] at h
      exact List.mem_cons_of_mem _ (ih h)

theorem get?_of_mem {d : Dict κ ν} (wf : WF d) {k : κ} {v : ν} (h : (k, v) ∈ d) :
    d.get? k = some v := by
  induction d with
  | nil => simp at h
  | cons p d ih =>
    have wf' : p.1 ∉ d.map Prod.fst ∧ WF d := by simpa [WF] using wf
    rw [get?_cons]
    rcases List.mem_cons.1 h with h | h
    · simp [← h]
    · have : p.1 ≠ k := by
        intro hk
        apply wf'.1
        rw [hk]
        exact List.mem_map.2 ⟨_, h, rfl⟩
      simp [this, ih wf'.2 h]

theorem get?_eq_some_iff {d : Dict κ ν} (wf : WF d) {k : κ} {v : ν} :
    d.get? k = some v ↔ (k, v) ∈ d :=
  ⟨mem_of_get?, get?_of_mem wf⟩

theorem keys_set (d : Dict κ ν) (k : κ) (v : ν) :
    (d.set k v).map Prod.fst =
      if k ∈ d.map Prod.fst then d.map Prod.fst else d.map Prod.fst ++ [k] := by
  induction d with
  | nil => simp [set]
  | cons p d ih =>
    obtain ⟨a, b⟩ := p
    by_cases h : a = k
    · simp [set, h]
    · have h' : ¬ k = a := fun e => h e.symm
      simp only [set, if_neg h, List.map_cons, ih, List.mem_cons, h', false_or]
      split <;> simp

theorem mem_keys_set {d : Dict κ ν} {k k' : κ} {v : ν} :
    k' ∈ (d.set k v).map Prod.fst ↔ k' = k ∨ k' ∈ d.map Prod.fst := by
  rw [keys_set]
  split
  · constructor
    · exact Or.inr
    · rintro (rfl | h) <;> assumption
  · simp [or_comm]

theorem wf_set {d : Dict κ ν} (wf : WF d) (k : κ) (v : ν) : WF (d.set k v) := by
  unfold WF
  rw [keys_set]
  split
  · exact wf
  · rename_i h
    rw [List.nodup_append]
    exact ⟨wf, by simp, by rintro a ha b hb rfl; simp at hb; exact h (hb ▸ ha)⟩

theorem wf_nil : WF ([] : Dict κ ν) := List.nodup_nil

theorem wf_cons {p : κ × ν} {d : Dict κ ν} : WF (p :: d) ↔ p.1 ∉ d.map Prod.fst ∧ WF d := by
  simp [WF]

theorem mem_set {d : Dict κ ν} {k : κ} {v : ν} {q : κ × ν} (h : q ∈ d.set k v) :
    q = (k, v) ∨ q ∈ d := by
  induction d with
  | nil => simpa [set] using h
  | cons p d ih =>
    obtain ⟨a, b⟩ := p
    by_cases e : a = k
    · simp only [set, if_pos e, List.mem_cons] at h
      rcases h with h | h
      · left; rw [h, e]
      · right; exact List.mem_cons_of_mem _ h
    · simp only [set, if_neg e, List.mem_cons] at h
      rcases h with h | h
      · right; simp [h]
      · rcases ih h with h | h
        · exact Or.inl h
        · exact Or.inr (List.mem_cons_of_mem _ h)

theorem set_of_not_mem {d : Dict κ ν} {k : κ} (h : k ∉ d.map Prod.fst) (v : ν) :
    d.set k v = d ++ [(k, v)] := by
  induction d with
  | nil => rfl
  | cons p d ih =>
    obtain ⟨a, b⟩ := p
    simp only [List.map_cons, List.mem_cons, not_or] at h
    have : ¬ a = k := fun e => h.1 e.symm
    simp [set, this, ih h.2]

theorem get?_append (d e : Dict κ ν) (k : κ) :
    get? (d ++ e) k = (get? d k).or (get? e k) := by
  induction d with
  | nil => simp
  | cons p d ih =>
    rw [List.cons_append, get?_cons, get?_cons, ih]
    split <;> simp

theorem wf_foldl_set (l : List (κ × ν)) (d : Dict κ ν) (wf : WF d) :
    WF (l.foldl (fun d p => d.set p.1 p.2) d) := by
  induction l generalizing d with
  | nil => exact wf
  | cons p l ih => exact ih _ (wf_set wf _ _)

theorem wf_ofPairs (l : List (κ × ν)) : WF (ofPairs l) := wf_foldl_set l [] wf_nil

theorem foldl_set_of_nodup (l : List (κ × ν)) (d : Dict κ ν) (wf : WF (d ++ l)) :
    l.foldl (fun d p => d.set p.1 p.2) d = d ++ l := by
  induction l generalizing d with
  | nil => simp
  | cons p l ih =>
    have h1 : p.1 ∉ d.map Prod.fst := by
      intro hm
      have wf2 := wf
      unfold WF at wf2
      rw [List.map_append, List.nodup_append] at wf2
      exact wf2.2.2 _ hm _ (by simp) rfl
    rw [List.foldl_cons, set_of_not_mem h1, ih]
    · simp
    · simpa using wf

theorem ofPairs_of_wf {l : List (κ × ν)} (wf : WF l) : ofPairs l = l := by
  have := foldl_set_of_nodup l [] (by simpa using wf)
  simpa [ofPairs] using this

/-- Last pair wins. -/
theorem get?_foldl_set (l : List (κ × ν)) (d : Dict κ ν) (k : κ) :
    (l.foldl (fun d p => d.set p.1 p.2) d).get? k = (get? l.reverse k).or (d.get? k) := by
  induction l generalizing d with
  | nil => simp
  | cons p l ih =>
    rw [List.foldl_cons, ih, List.reverse_cons, get?_append, get?_set]
    cases h : get? l.reverse k with
    | some v => simp
    | none =>
      simp only [Option.none_or]
      rw [get?_cons]
      split <;> simp

theorem get?_ofPairs (l : List (κ × ν)) (k : κ) : (ofPairs l).get? k = get? l.reverse k := by
  rw [ofPairs, get?_foldl_set]; simp

theorem getItem_eq_ok {d : Dict κ ν} {k : κ} {v : ν} :
    d.getItem k = .ok v ↔ d.get? k = some v := by
  unfold getItem; cases d.get? k <;> simp

theorem getItem_eq_error {d : Dict κ ν} {k : κ} {e : PyErr} :
    d.getItem k = .error e ↔ e = .keyError ∧ d.get? k = none := by
  unfold getItem; cases d.get? k <;> simp [eq_comm]

/-! ### Counters -/

@[simp] theorem count_nil (k : κ) : count ([] : Dict κ Nat) k = 0 := rfl

theorem count_bump (d : Dict κ Nat) (k k' : κ) (n : Nat) :
    (d.bump k n).count k' = d.count k' + if k = k' then n else 0 := by
  unfold bump count
  rw [get?_set]
  split
  · rename_i h; subst h; simp
  · simp

theorem wf_bump {d : Dict κ Nat} (wf : WF d) (k : κ) (n : Nat) : WF (d.bump k n) := wf_set wf _ _

theorem sum_set_values (d : Dict κ Nat) (f : κ → Nat → Nat) (wf : WF d) (k : κ) (v : Nat) :
    ((d.set k v).map (fun p => f p.1 p.2)).sum + (match d.get? k with | some w => f k w | none => 0)
      = (d.map (fun p => f p.1 p.2)).sum + f k v := by
  induction d with
  | nil => simp [set]
  | cons p d ih =>
    obtain ⟨a, b⟩ := p
    rw [wf_cons] at wf
    by_cases h : a = k
    · subst h
      simp [set, get?_cons]; omega
    · have := ih wf.2
      simp only [set, if_neg h, get?_cons, List.map_cons, List.sum_cons] at this ⊢
      omega

theorem sum_values_bump (d : Dict κ Nat) (wf : WF d) (k : κ) (n : Nat) :
    ((d.bump k n).map Prod.snd).sum = (d.map Prod.snd).sum + n := by
  have h : ((d.set k (d.count k + n)).map Prod.snd).sum + (match d.get? k with | some w => w | none => 0)
      = (d.map Prod.snd).sum + (d.count k + n) := sum_set_values d (fun _ v => v) wf k (d.count k + n)
  unfold bump
  cases hk : d.get? k with
  | none => simp [hk, count] at h ⊢; omega
  | some w => simp [hk, count] at h ⊢; omega

end Lulua.Dict
