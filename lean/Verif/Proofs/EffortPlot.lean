import Verif.Spec.EffortPlot
import Verif.Py.DictLemmas

/-!
# Lemmas for C121
-/

namespace Lulua
open Spec

theorem addLines_ok (lines : Dict String PlotLine) (l : List (Curve × String)) :
    (∃ r, addLines lines l = .ok r) ↔ (l.map (·.1.layout)).Nodup ∧ ∀ x ∈ l, x.1.layout ∉ lines.keys := by
  induction l generalizing lines with
  | nil => simp [addLines]
  | cons x l ih =>
    obtain ⟨o, c⟩ := x
    rw [addLines]
    have hk : lines.contains o.layout = true ↔ o.layout ∈ lines.keys := by
      unfold Dict.contains Dict.keys; exact Dict.get?_isSome_iff
    by_cases h : lines.contains o.layout = true
    · rw [if_pos h]
      constructor
      · rintro ⟨r, hr⟩; cases hr
      · rintro ⟨_, h2⟩; exact absurd (hk.1 h) (h2 (o, c) (by simp))
    · rw [if_neg h, ih]
      have hs : ∀ n, n ∈ (lines.set o.layout ⟨o.x, o.y, c, o.layout⟩).keys ↔ n ∈ lines.keys ∨ n = o.layout := by
        intro n
        unfold Dict.keys
        rw [← Dict.get?_isSome_iff, Dict.get?_set, ← Dict.get?_isSome_iff]
        by_cases hn : o.layout = n
        · simp [hn]
        · simp [hn, Ne.symm hn]
      simp only [List.map_cons, List.nodup_cons, List.mem_map, not_exists, not_and, List.forall_mem_cons, hs, not_or]
      constructor
      · rintro ⟨h1, h2⟩
        exact ⟨⟨fun x hx => (h2 x hx).2, h1⟩, fun h' => h (hk.2 h'), fun x hx => (h2 x hx).1⟩
      · rintro ⟨⟨h1, h2⟩, _, h3⟩
        exact ⟨h2, fun x hx => ⟨h3 x hx, h1 x hx⟩⟩

theorem addLines_error {lines : Dict String PlotLine} {l : List (Curve × String)} {e : PyErr}
    (h : addLines lines l = .error e) : e = .assertionError := by
  induction l generalizing lines with
  | nil => cases h
  | cons x l ih =>
    obtain ⟨o, c⟩ := x
    rw [addLines] at h
    split at h
    · cases h; rfl
    · exact ih h

theorem set_new {κ ν : Type} [DecidableEq κ] (d : Dict κ ν) (k : κ) (v : ν) (h : d.contains k ≠ true) :
    d.set k v = d ++ [(k, v)] := by
  induction d with
  | nil => rfl
  | cons p d ih =>
    obtain ⟨k', v'⟩ := p
    unfold Dict.contains at h ih
    by_cases hk : k' = k
    · simp [Dict.get?, hk] at h
    · have : Dict.get? d k = Dict.get? ((k', v') :: d) k := by simp [Dict.get?, hk]
      rw [Dict.set]
      simp only [hk, if_false]
      rw [ih (by rw [this]; exact h)]
      rfl

theorem addLines_eq {lines r : Dict String PlotLine} {l : List (Curve × String)} (h : addLines lines l = .ok r) :
    r = lines ++ l.map fun x => (x.1.layout, ⟨x.1.x, x.1.y, x.2, x.1.layout⟩) := by
  induction l generalizing lines with
  | nil => simp only [addLines, Except.ok.injEq] at h; simp [h]
  | cons x l ih =>
    obtain ⟨o, c⟩ := x
    rw [addLines] at h
    split at h
    · cases h
    · rename_i hc
      rw [ih h, set_new _ _ _ hc]
      simp

theorem triadEffortPlot_ok {set3 : Nat → Option (List String)} (hp : PaletteOk set3) {data : List Curve} {p : EffortPlot}
    (h : triadEffortPlot set3 data = .ok p) : ∃ colors, set3 data.length = some colors ∧ colors.length = data.length ∧
      p = { lines := (data.zip colors).map fun x => (x.1.layout, ⟨x.1.x, x.1.y, x.2, x.1.layout⟩), range := ((0, 1), (0, 1)),
            labels := ["All", "Standard", "Usable"],
            visible := plotVisible ((data.zip colors).map fun x => (x.1.layout, ⟨x.1.x, x.1.y, x.2, x.1.layout⟩)),
            ranges := plotRanges, active := 0 } := by
  unfold triadEffortPlot at h
  split at h
  · cases h
  · rename_i colors hc
    cases hl : addLines [] (data.zip colors) with
    | error e => simp [hl, bind, Except.bind] at h
    | ok r =>
      simp only [hl, bind, Except.bind, Except.ok.injEq] at h
      have := addLines_eq hl
      rw [List.nil_append] at this
      subst this
      exact ⟨colors, hc, (hp.colors _ _ hc).1, h.symm⟩

end Lulua
