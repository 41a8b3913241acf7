import Verif.Spec.Stats
import Mathlib.Data.List.SplitBy
import Mathlib.Tactic.Common

set_option linter.unusedSectionVars false

/-!
# Lemmas on splitting lists, appending at the end
-/

namespace Lulua
open Spec

variable {α : Type}

/-- `splitOnP` is never empty; how it grows when an element is appended. -/
theorem splitOnP_snoc (P : α → Bool) (l : List α) :
    ∃ init last, l.splitOnP P = init ++ [last] ∧
      ∀ a, (l ++ [a]).splitOnP P = if P a then init ++ [last, []] else init ++ [last ++ [a]] := by
  induction l with
  | nil =>
    refine ⟨[], [], by simp, fun a => ?_⟩
    rw [List.nil_append, List.splitOnP_cons_eq_if_modifyHead]
    by_cases h : P a <;> simp [h]
  | cons x l ih =>
    obtain ⟨init, last, h1, h2⟩ := ih
    by_cases hx : P x
    · refine ⟨[] :: init, last, ?_, fun a => ?_⟩
      · rw [List.splitOnP_cons_eq_if_modifyHead, if_pos hx, h1]; rfl
      · rw [List.cons_append, List.splitOnP_cons_eq_if_modifyHead, if_pos hx, h2]
        by_cases h : P a <;> simp [h]
    · cases init with
      | nil =>
        refine ⟨[], x :: last, ?_, fun a => ?_⟩
        · rw [List.splitOnP_cons_eq_if_modifyHead, if_neg hx, h1]; rfl
        · rw [List.cons_append, List.splitOnP_cons_eq_if_modifyHead, if_neg hx, h2]
          by_cases h : P a <;> simp [h]
      | cons i init =>
        refine ⟨(x :: i) :: init, last, ?_, fun a => ?_⟩
        · rw [List.splitOnP_cons_eq_if_modifyHead, if_neg hx, h1]; rfl
        · rw [List.cons_append, List.splitOnP_cons_eq_if_modifyHead, if_neg hx, h2]
          by_cases h : P a <;> simp [h]

theorem splitBy_loop_snoc (R : α → α → Bool) (l : List α) (a : α) (g : List α) (gs : List (List α)) :
    ∃ init last x, List.splitBy.loop R l a g gs = init ++ [last ++ [x]] ∧
      (a :: l).getLast? = some x ∧
      ∀ b, List.splitBy.loop R (l ++ [b]) a g gs =
        if R x b then init ++ [last ++ [x, b]] else init ++ [last ++ [x], [b]] := by
  induction l generalizing a g gs with
  | nil =>
    refine ⟨gs.reverse, g.reverse, a, by simp [List.splitBy.loop], by simp, fun b => ?_⟩
    by_cases h : R a b <;> simp [List.splitBy.loop, h]
  | cons c l ih =>
    by_cases h : R a c
    · obtain ⟨init, last, x, h1, h2, h3⟩ := ih c (a :: g) gs
      refine ⟨init, last, x, by simp only [List.splitBy.loop, h]; exact h1,
        by rw [List.getLast?_cons_cons]; exact h2, fun b => ?_⟩
      rw [← h3]; simp only [List.cons_append, List.splitBy.loop, h]
    · obtain ⟨init, last, x, h1, h2, h3⟩ := ih c [] ((a :: g).reverse :: gs)
      have h' : R a c = false := by simpa using h
      refine ⟨init, last, x, by simp only [List.splitBy.loop, h']; exact h1,
        by rw [List.getLast?_cons_cons]; exact h2, fun b => ?_⟩
      rw [← h3]; simp only [List.cons_append, List.splitBy.loop, h']

variable [DecidableEq α]

theorem runs_singleton (a : α) : runs [a] = [[a]] := by simp [runs, List.splitBy, List.splitBy.loop]

/-- How the runs change when an element is appended. -/
theorem runs_snoc {l : List α} {x : α} (hx : l.getLast? = some x) :
    ∃ init last, runs l = init ++ [last ++ [x]] ∧
      ∀ b, runs (l ++ [b]) = if x = b then init ++ [last ++ [x, b]] else init ++ [last ++ [x], [b]] := by
  cases l with
  | nil => simp at hx
  | cons a l =>
    obtain ⟨init, last, y, h1, h2, h3⟩ := splitBy_loop_snoc (fun a b : α => decide (a = b)) l a [] []
    rw [hx] at h2
    simp only [Option.some.injEq] at h2
    subst h2
    refine ⟨init, last, h1, fun b => ?_⟩
    have := h3 b
    simpa [runs, List.splitBy] using this

theorem runs_replicate {l : List α} {r : List α} (h : r ∈ runs l) : ∃ x n, r = List.replicate (n + 1) x := by
  have hne : r ≠ [] := List.ne_nil_of_mem_splitBy h
  have hc := List.isChain_of_mem_splitBy h
  cases r with
  | nil => exact absurd rfl hne
  | cons x r =>
    refine ⟨x, r.length, ?_⟩
    clear h hne
    induction r generalizing x with
    | nil => rfl
    | cons y r ih =>
      rw [List.isChain_cons_cons] at hc
      have e : x = y := by simpa using hc.1
      subst e
      have := ih x hc.2
      rw [this]; simp [List.replicate_succ]

theorem prefix_snoc_iff {w l : List α} {x : α} : w <+: l ++ [x] ↔ w <+: l ∨ w = l ++ [x] := by
  constructor
  · rintro ⟨t, ht⟩
    rcases List.eq_nil_or_concat t with rfl | ⟨t', y, rfl⟩
    · right; simpa using ht
    · left
      rw [List.concat_eq_append, ← List.append_assoc] at ht
      exact ⟨t', (List.append_inj' ht (by simp)).1⟩
  · rintro (h | rfl)
    · exact h.trans (List.prefix_append _ _)
    · exact List.prefix_refl _

theorem occurrences_nil {w : List α} (hw : w ≠ []) : occurrences w ([] : List α) = 0 := by
  simp [occurrences, hw]

theorem occurrences_cons (w : List α) (x : α) (l : List α) :
    occurrences w (x :: l) = (if w <+: x :: l then 1 else 0) + occurrences w l := by
  have e : (x :: l).tails = (x :: l) :: l.tails := rfl
  simp only [occurrences, e, List.countP_cons, decide_eq_true_eq]
  omega

theorem occurrences_snoc {w : List α} (hw : w ≠ []) (l : List α) (x : α) :
    occurrences w (l ++ [x]) = occurrences w l + if w <:+ l ++ [x] then 1 else 0 := by
  induction l with
  | nil =>
    rw [List.nil_append, occurrences_cons, occurrences_nil hw]
    have : (w <+: [x]) ↔ w <:+ [x] := by
      constructor
      · intro h
        have := (prefix_snoc_iff (l := ([] : List α)) (x := x)).1 (by simpa using h)
        rcases this with h | h
        · exact absurd (List.prefix_nil.1 h) hw
        · rw [h]; exact List.suffix_refl _
      · intro h
        have := List.suffix_cons_iff.1 h
        rcases this with h | h
        · rw [h]; exact List.prefix_refl _
        · exact absurd (List.suffix_nil.1 h) hw
    simp only [this]; omega
  | cons y l ih =>
    rw [List.cons_append, occurrences_cons, ih, occurrences_cons]
    have e1 : (w <+: y :: (l ++ [x])) ↔ (w <+: y :: l) ∨ w = y :: (l ++ [x]) := by
      have := prefix_snoc_iff (w := w) (l := y :: l) (x := x)
      simpa using this
    have e2 : (w <:+ y :: (l ++ [x])) ↔ w = y :: (l ++ [x]) ∨ w <:+ l ++ [x] := List.suffix_cons_iff
    by_cases h : w = y :: (l ++ [x])
    · have n1 : ¬ w <+: y :: l := by
        intro hp; have := hp.length_le; rw [h] at this; simp at this
      have n2 : ¬ w <:+ l ++ [x] := by
        intro hp; have := hp.length_le; rw [h] at this; simp at this
      rw [if_pos (e1.2 (Or.inr h)), if_neg n1, if_neg n2, if_pos (e2.2 (Or.inl h))]; omega
    · simp only [e1, e2, h, or_false, false_or]; omega

end Lulua
