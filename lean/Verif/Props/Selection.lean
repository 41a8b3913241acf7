import Verif.Spec.Selection
import Verif.Props.Formats

/-!
# C52: selection in any document
-/

namespace Lulua.Props
open Lulua Spec

mutual
theorem noElement_iff (f : Text → Attrs → Bool) (n : HNode) :
    NoElement (fun n a => f n a = true) n ↔ hasSelected f n = false := by
  match n with
  | .text d => simp [NoElement, hasSelected]
  | .space d => simp [NoElement, hasSelected]
  | .comment d => simp [NoElement, hasSelected]
  | .void n a => simp [NoElement, hasSelected]
  | .element n a cs => simp [NoElement, hasSelected, noElementAll_iff f cs]
theorem noElementAll_iff (f : Text → Attrs → Bool) (ns : List HNode) :
    NoElementAll (fun n a => f n a = true) ns ↔ hasSelectedAny f ns = false := by
  match ns with
  | [] => simp [NoElementAll, hasSelectedAny]
  | n :: ns => simp [NoElementAll, hasSelectedAny, noElement_iff f n, noElementAll_iff f ns]
end

/-- The states between nodes. -/
def onState (on : Bool) (k : Int) : SelState := ⟨if on then some k else none, none⟩

mutual
theorem kept_node (f : Text → Attrs → Bool) (on : Bool) (k : Int) (hk : 0 < k) (n : HNode) (hs : ScriptsOk f n) :
    SelRun f (onState on k) n.walk (keptTokens f on n) (onState (on && !hasSelected f n) k) := by
  match n with
  | .text d =>
    rw [HNode.walk, keptTokens, hasSelected]
    cases on
    · exact leaf_outside f (by simp)
    · exact leaf_inside f k hk (by simp) (by simp)
  | .space d =>
    rw [HNode.walk, keptTokens, hasSelected]
    cases on
    · exact leaf_outside f (by simp)
    · exact leaf_inside f k hk (by simp) (by simp)
  | .comment d =>
    rw [HNode.walk, keptTokens, hasSelected]
    cases on
    · exact leaf_outside f (by simp)
    · exact leaf_inside f k hk (by simp) (by simp)
  | .void n a =>
    rw [HNode.walk, keptTokens, hasSelected]
    cases on
    · exact leaf_outside f (by simp)
    · exact leaf_inside f k hk (by simp) (by simp)
  | .element n a cs =>
    rw [ScriptsOk] at hs
    rw [keptTokens, hasSelected]
    by_cases hsc : IsScript n
    · rw [if_pos hsc]
      have hn := (noElementAll_iff f cs).1 (noElementAll_mono (fun _ _ _ => trivial) cs (hs.1 hsc).2)
      simp only [(hs.1 hsc).1, hn, Bool.or_self, Bool.not_false, Bool.and_true]
      exact script_element hsc (hs.1 hsc).1 (hs.1 hsc).2
    · rw [if_neg hsc, HNode.walk]
      by_cases hf : f n a = true
      · have h1 : SelRun f (onState on k) [.startTag n a] [.startTag n a] (onState true 1) :=
          SelRun.one (b := true) (by simp [onState, selStep, selOpen, hf, isScriptName_false hsc, selInside])
        have h2 := kept_all f true 1 (by omega) cs hs.2
        have h3 : SelRun f (onState (true && !hasSelectedAny f cs) 1) [.endTag n]
            (if !hasSelectedAny f cs then [.endTag n] else []) (onState false k) := by
          cases hasSelectedAny f cs
          · exact SelRun.one (b := true) (by simp [onState, selStep, selOpen, selInside])
          · exact leaf_outside f (by simp)
        simpa [hf] using h1.append (h2.append h3)
      · have hf' : f n a = false := by simpa using hf
        simp only [hf', Bool.or_false, Bool.false_or]
        cases on
        · have h1 : SelRun f (onState false k) [.startTag n a] [] (onState false k) :=
            SelRun.one (b := false) (by simp [onState, selStep, selOpen, hf', isScriptName_false hsc])
          have h2 := kept_all f false k hk cs hs.2
          have h3 : SelRun f (onState false k) [.endTag n] [] (onState false k) := leaf_outside f (by simp)
          simpa using h1.append (h2.append h3)
        · have h1 : SelRun f (onState true k) [.startTag n a] [.startTag n a] (onState true (k + 1)) :=
            SelRun.one (b := true) (by
              simp only [onState, selStep, selOpen, hf', isScriptName_false hsc, selInside]
              simp [show ¬ k + 1 ≤ 0 by omega])
          have h2 := kept_all f true (k + 1) (by omega) cs hs.2
          have h3 : SelRun f (onState (true && !hasSelectedAny f cs) (k + 1)) [.endTag n]
              (if !hasSelectedAny f cs then [.endTag n] else []) (onState (!hasSelectedAny f cs) k) := by
            cases hasSelectedAny f cs
            · exact SelRun.one (b := true) (by
                simp only [onState, selStep, selOpen, selInside]
                simp [show ¬ k ≤ 0 by omega])
            · exact leaf_outside f (by simp)
          simpa using h1.append (h2.append h3)
theorem kept_all (f : Text → Attrs → Bool) (on : Bool) (k : Int) (hk : 0 < k) (ns : List HNode) (hs : ScriptsOkAll f ns) :
    SelRun f (onState on k) (walkAll ns) (keptTokensAll f on ns) (onState (on && !hasSelectedAny f ns) k) := by
  match ns with
  | [] => simpa [walkAll, keptTokensAll, hasSelectedAny] using SelRun.nil
  | n :: ns =>
    rw [ScriptsOkAll] at hs
    rw [walkAll, keptTokensAll, hasSelectedAny, Bool.not_or, ← Bool.and_assoc]
    exact (kept_node f on k hk n hs.1).append (kept_all f _ k hk ns hs.2)
end

/-- **C52** (any document): of selected elements inside selected elements, the outer ones are cut off at the end of the
inner ones. Nothing is assumed of how they are nested. -/
theorem C52_any (f : Text → Attrs → Bool) (document : List HNode) (hs : ScriptsOkAll f document) :
    select f (walkAll document) = keptTokensAll f false document :=
  (kept_all f false 1 (by omega) document hs).1

mutual
theorem kept_length (f : Text → Attrs → Bool) (n : HNode) (on : Bool) :
    (keptTokens f on n).length ≤ (cleanTokens n).length := by
  match n with
  | .text d => rw [keptTokens, cleanTokens]; cases on <;> simp
  | .space d => rw [keptTokens, cleanTokens]; cases on <;> simp
  | .comment d => rw [keptTokens, cleanTokens]; cases on <;> simp
  | .void n a => rw [keptTokens, cleanTokens]; cases on <;> simp
  | .element n a cs =>
    rw [keptTokens, cleanTokens]
    split
    · exact le_refl _
    · have := kept_length_all f cs (on || f n a)
      simp only [List.length_append, List.length_singleton]
      split <;> split <;> simp only [List.length_singleton, List.length_nil] <;> omega
theorem kept_length_all (f : Text → Attrs → Bool) (ns : List HNode) (on : Bool) :
    (keptTokensAll f on ns).length ≤ (cleanTokensAll ns).length := by
  match ns with
  | [] => exact le_refl _
  | n :: ns =>
    rw [keptTokensAll, cleanTokensAll, List.length_append, List.length_append]
    exact Nat.add_le_add (kept_length f n _) (kept_length_all f ns _)
end

mutual
theorem kept_outside (f : Text → Attrs → Bool) (n : HNode) (hs : ScriptsOk f n) :
    (keptTokens f false n).length ≤ (cleanTokensAll (selectedElements f n)).length ∧
    (¬ NotNested f n → (keptTokens f false n).length < (cleanTokensAll (selectedElements f n)).length) := by
  match n with
  | .text d => simp [keptTokens, NotNested]
  | .space d => simp [keptTokens, NotNested]
  | .comment d => simp [keptTokens, NotNested]
  | .void n a => simp [keptTokens, NotNested]
  | .element n a cs =>
    rw [ScriptsOk] at hs
    rw [keptTokens, selectedElements, NotNested]
    by_cases hf : f n a = true
    · have hsc : ¬ IsScript n := fun h => by simp [(hs.1 h).1] at hf
      have := kept_length_all f cs true
      have hd := kept_outside_all f cs hs.2
      rw [if_neg hsc, if_pos hf]
      simp only [hf, Bool.or_true, if_true, cleanTokensAll, cleanTokens, if_neg hsc, List.length_append, List.length_singleton,
        List.length_nil, Bool.true_and, true_implies, noElementAll_iff, List.append_nil]
      cases hsel : hasSelectedAny f cs
      · simp only [Bool.not_false, if_true, List.length_singleton]
        refine ⟨by omega, fun h => absurd ?_ h⟩
        exact ⟨trivial, notNestedAll_of_none cs ((noElementAll_iff f cs).2 hsel)⟩
      · simp only [Bool.not_true, Bool.false_eq_true, if_false, List.length_nil]
        exact ⟨by omega, fun _ => by omega⟩
    · have hf' : f n a = false := by simpa using hf
      have hd := kept_outside_all f cs hs.2
      rw [if_neg hf]
      split
      · rename_i hsc
        have h0 := noElementAll_mono (q := fun n a => f n a = true) (fun _ _ _ => trivial) cs (hs.1 hsc).2
        refine ⟨Nat.zero_le _, fun h => absurd ?_ h⟩
        exact ⟨fun h => absurd h hf, notNestedAll_of_none cs h0⟩
      · simp only [hf', Bool.or_self, Bool.false_and, Bool.false_eq_true, if_false, List.nil_append, List.append_nil,
          false_implies, true_and]
        exact hd
theorem kept_outside_all (f : Text → Attrs → Bool) (ns : List HNode) (hs : ScriptsOkAll f ns) :
    (keptTokensAll f false ns).length ≤ (cleanTokensAll (selectedElementsAll f ns)).length ∧
    (¬ NotNestedAll f ns → (keptTokensAll f false ns).length < (cleanTokensAll (selectedElementsAll f ns)).length) := by
  match ns with
  | [] => simp [keptTokensAll, NotNestedAll]
  | n :: ns =>
    rw [ScriptsOkAll] at hs
    have h1 := kept_outside f n hs.1
    have h2 := kept_outside_all f ns hs.2
    rw [keptTokensAll, selectedElementsAll, cleanTokensAll_append, NotNestedAll, Bool.false_and, List.length_append,
      List.length_append]
    refine ⟨Nat.add_le_add h1.1 h2.1, fun h => ?_⟩
    by_cases hn : NotNested f n
    · have := h2.2 fun hns => h ⟨hn, hns⟩
      omega
    · have := h1.2 hn
      omega
end

/-- **C52** (when nothing is lost): the selected elements are complete exactly if none contains another; otherwise tokens
are missing. -/
theorem C52_complete_iff (f : Text → Attrs → Bool) (document : List HNode) (hs : ScriptsOkAll f document) :
    (select f (walkAll document) = cleanTokensAll (selectedElementsAll f document) ↔ NotNestedAll f document) ∧
    (¬ NotNestedAll f document →
      (select f (walkAll document)).length < (cleanTokensAll (selectedElementsAll f document)).length) := by
  have h := (kept_outside_all f document hs).2
  rw [← C52_any f document hs] at h
  refine ⟨⟨fun he => ?_, C52_selection f document hs⟩, h⟩
  by_contra hn
  have := h hn
  rw [he] at this
  exact lt_irrefl _ this

/-- Two articles inside an article. -/
def demoArticles : List HNode :=
  [ .element "div".toList [((none, "property".toList), "articleBody".toList)]
    [ .text "one".toList,
      .element "p".toList [] [.element "div".toList [((none, "property".toList), "articleBody".toList)] [.text "two".toList],
        .text "lost".toList],
      .element "div".toList [((none, "property".toList), "articleBody".toList)] [.text "three".toList],
      .text "lost, too".toList ] ]

example : ScriptsOkAll selBbcarabic demoArticles ∧ ¬ NotNestedAll selBbcarabic demoArticles ∧
    (select selBbcarabic (walkAll demoArticles)).filterMap (fun t => match t with | .characters d => some (String.ofList d) | _ => none) =
      ["one", "two", "three"] := by
  refine ⟨?_, ?_, by rfl⟩
  · simp [demoArticles, ScriptsOkAll, ScriptsOk, IsScript]
  · simp [demoArticles, NotNestedAll, NotNested, NoElementAll, NoElement, selBbcarabic, Dict.get?]

end Lulua.Props
