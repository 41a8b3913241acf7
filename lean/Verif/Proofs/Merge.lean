import Verif.Spec.Merge
import Verif.Proofs.Stats

namespace Lulua
open Spec

set_option linter.unusedSectionVars false

/-! ### Nested dictionaries -/

section Nested
variable {κ α : Type} [DecidableEq κ]

theorem mergedAt_none_left {op : α → α → α} {y z : Option (NVal κ α)} : MergedAt op none y z ↔ z = y := by
  cases y <;> simp [MergedAt]

theorem mergedAt_none_right {op : α → α → α} {x z : Option (NVal κ α)} : MergedAt op x none z ↔ z = x := by
  cases x with
  | none => simp [MergedAt]
  | some v => cases v <;> simp [MergedAt]

theorem deepWF_child {d : List (κ × NVal κ α)} (h : DeepWF (.dict d)) {k : κ} {v : NVal κ α}
    (hk : Dict.get? d k = some v) : DeepWF v := by
  intro p e hp
  exact h (k :: p) e (by simp [valueAt, hk, hp])

theorem deepWF_top {d : List (κ × NVal κ α)} (h : DeepWF (.dict d)) : Dict.WF d := h [] d rfl

/-- Items: no repeated key, and every value well-formed inside. -/
def ItemsWF (d : List (κ × NVal κ α)) : Prop := Dict.WF d ∧ ∀ q ∈ d, DeepWF q.2

theorem itemsWF_of_deep {d : List (κ × NVal κ α)} (h : DeepWF (.dict d)) : ItemsWF d :=
  ⟨deepWF_top h, fun q hq => deepWF_child h (Dict.get?_of_mem (deepWF_top h) (k := q.1) (v := q.2) hq)⟩

mutual
theorem combineVal_ok (op : α → α → α) (v : NVal κ α) (hv : DeepWF v) (old : Option (NVal κ α))
    (r : NVal κ α) (h : combineVal op old v = .ok r) (p : List κ) :
    MergedAt op (old.bind (fun x => valueAt x p)) (valueAt v p) (valueAt r p) := by
  cases v with
  | leaf y =>
    cases old with
    | none =>
      simp only [combineVal, Except.ok.injEq] at h; subst h
      exact mergedAt_none_left.2 rfl
    | some x =>
      cases x with
      | leaf x =>
        simp only [combineVal, Except.ok.injEq] at h; subst h
        cases p with
        | nil => simp [valueAt, MergedAt]
        | cons k p => simp [valueAt, MergedAt]
      | list l => simp [combineVal] at h
      | dict d => simp [combineVal] at h
  | list l =>
    cases old with
    | none =>
      simp only [combineVal, Except.ok.injEq] at h; subst h
      exact mergedAt_none_left.2 rfl
    | some x => simp [combineVal] at h
  | dict b =>
    cases old with
    | none =>
      simp only [combineVal, Except.ok.injEq] at h; subst h
      exact mergedAt_none_left.2 rfl
    | some x =>
      cases x with
      | leaf x => simp [combineVal] at h
      | list l => simp [combineVal] at h
      | dict a =>
        cases hu : updateItems op a b with
        | error e => simp [combineVal, hu, Except.map] at h
        | ok r' =>
          simp only [combineVal, hu, Except.map, Except.ok.injEq] at h
          subst h
          cases p with
          | nil => simp [valueAt, MergedAt]
          | cons k p =>
            have := updateItems_ok op b (itemsWF_of_deep hv) a r' hu k p
            simpa [valueAt] using this

theorem updateItems_ok (op : α → α → α) (b : List (κ × NVal κ α)) (hb : ItemsWF b)
    (a r : List (κ × NVal κ α)) (h : updateItems op a b = .ok r) (k : κ) (p : List κ) :
    MergedAt op ((Dict.get? a k).bind (fun x => valueAt x p)) ((Dict.get? b k).bind (fun x => valueAt x p))
      ((Dict.get? r k).bind (fun x => valueAt x p)) := by
  match b, hb, h with
  | [], _, h =>
    simp only [updateItems, Except.ok.injEq] at h; subst h
    exact mergedAt_none_right.2 rfl
  | (k', v) :: b, hb, h =>
    rw [updateItems] at h
    cases hc : combineVal op (Dict.get? a k') v with
    | error e => simp [hc, bind, Except.bind] at h
    | ok w =>
      simp only [hc, bind, Except.bind] at h
      have wf := Dict.wf_cons.1 hb.1
      have hb' : ItemsWF b := ⟨wf.2, fun q hq => hb.2 q (List.mem_cons_of_mem _ hq)⟩
      have ih := updateItems_ok op b hb' (Dict.set a k' w) r h k p
      rw [Dict.get?_set] at ih
      rw [Dict.get?_cons]
      by_cases hk : k' = k
      · subst hk
        have hnone : Dict.get? b k' = none := Dict.get?_eq_none_iff.2 wf.1
        simp only [hnone, if_true, Option.bind_none, Option.bind_some, mergedAt_none_right] at ih ⊢
        rw [ih]
        exact combineVal_ok op v (hb.2 (k', v) (by simp)) (Dict.get? a k') w hc p
      · simp only [hk, if_false] at ih ⊢
        exact ih
end

/-- Shapes agree below an optional value. -/
def ShapeOpt (old : Option (NVal κ α)) (v : NVal κ α) : Prop := ∀ x, old = some x → SameShape x v

mutual
theorem combineVal_total (op : α → α → α) (v : NVal κ α) (hv : DeepWF v) (old : Option (NVal κ α))
    (hs : ShapeOpt old v) : ∃ r, combineVal op old v = .ok r := by
  cases old with
  | none => cases v <;> exact ⟨_, by simp [combineVal]; rfl⟩
  | some x =>
    have hx := hs x rfl
    cases v with
    | leaf y =>
      rcases hx [] x (.leaf y) rfl rfl with ⟨d, e, _, h⟩ | ⟨u, w, h, _⟩
      · simp at h
      · subst h; exact ⟨_, by simp [combineVal]; rfl⟩
    | list l =>
      rcases hx [] x (.list l) rfl rfl with ⟨d, e, _, h⟩ | ⟨u, w, _, h⟩ <;> simp at h
    | dict b =>
      rcases hx [] x (.dict b) rfl rfl with ⟨a, e, h, _⟩ | ⟨u, w, _, h⟩
      · subst h
        obtain ⟨r, hr⟩ := updateItems_total op b (itemsWF_of_deep hv) a (by
          intro k x' v' hx' hv' p u w hu hw
          exact hx (k :: p) u w (by simp [valueAt, hx', hu]) (by simp [valueAt, hv', hw]))
        exact ⟨.dict r, by simp [combineVal, hr, Except.map]⟩
      · simp at h

theorem updateItems_total (op : α → α → α) (b : List (κ × NVal κ α)) (hb : ItemsWF b)
    (a : List (κ × NVal κ α))
    (hs : ∀ k x v, Dict.get? a k = some x → Dict.get? b k = some v → SameShape x v) :
    ∃ r, updateItems op a b = .ok r := by
  match b, hb, hs with
  | [], _, _ => exact ⟨a, by simp [updateItems]⟩
  | (k', v) :: b, hb, hs =>
    have wf := Dict.wf_cons.1 hb.1
    have hb' : ItemsWF b := ⟨wf.2, fun q hq => hb.2 q (List.mem_cons_of_mem _ hq)⟩
    obtain ⟨w, hw⟩ := combineVal_total op v (hb.2 (k', v) (by simp)) (Dict.get? a k')
      (fun x hx => hs k' x v hx (by simp [Dict.get?_cons]))
    obtain ⟨r, hr⟩ := updateItems_total op b hb' (Dict.set a k' w) (by
      intro k x u hx hu
      have hne : k' ≠ k := by
        rintro rfl
        exact wf.1 (Dict.get?_isSome_iff.1 (by rw [hu]; rfl))
      rw [Dict.get?_set_ne _ _ hne] at hx
      exact hs k x u hx (by rw [Dict.get?_cons]; simp [hne, hu]))
    exact ⟨r, by simp [updateItems, hw, hr, bind, Except.bind]⟩
end

mutual
theorem combineVal_err (op : α → α → α) (v : NVal κ α) (old : Option (NVal κ α)) (e : PyErr)
    (h : combineVal op old v = .error e) : e = .assertionError ∨ e = .typeError := by
  cases v with
  | leaf y =>
    cases old with
    | none => simp [combineVal] at h
    | some x => cases x <;> simp [combineVal] at h <;> simp [← h]
  | list l => cases old <;> simp [combineVal] at h; simp [← h]
  | dict b =>
    cases old with
    | none => simp [combineVal] at h
    | some x =>
      cases x with
      | leaf x => simp [combineVal] at h; simp [← h]
      | list l => simp [combineVal] at h; simp [← h]
      | dict a =>
        cases hu : updateItems op a b with
        | ok r => simp [combineVal, hu, Except.map] at h
        | error e' =>
          simp only [combineVal, hu, Except.map, Except.error.injEq] at h
          subst h
          exact updateItems_err op b a e' hu

theorem updateItems_err (op : α → α → α) (b a : List (κ × NVal κ α)) (e : PyErr)
    (h : updateItems op a b = .error e) : e = .assertionError ∨ e = .typeError := by
  match b, h with
  | [], h => simp [updateItems] at h
  | (k', v) :: b, h =>
    rw [updateItems] at h
    cases hc : combineVal op (Dict.get? a k') v with
    | error e' =>
      simp only [hc, bind, Except.bind, Except.error.injEq] at h
      subst h
      exact combineVal_err op v _ e' hc
    | ok w =>
      simp only [hc, bind, Except.bind] at h
      exact updateItems_err op b _ e h
end

/-- A place that both have is impossible unless shapes agree there. -/
theorem mergedAt_shape {op : α → α → α} {x y : NVal κ α} {z : Option (NVal κ α)}
    (h : MergedAt op (some x) (some y) z) :
    (∃ d e, x = .dict d ∧ y = .dict e) ∨ (∃ u v, x = .leaf u ∧ y = .leaf v) := by
  cases x <;> cases y <;> simp_all [MergedAt]

end Nested

/-! ### Flat and two-level counters -/

section Counts
variable {κ μ : Type} [DecidableEq κ] [DecidableEq μ]

theorem addOpt_none_right (x : Option Nat) : addOpt x none = x := by cases x <;> rfl
theorem addOpt_none_left (x : Option Nat) : addOpt none x = x := by cases x <;> rfl
theorem addOpt_comm (x y : Option Nat) : addOpt x y = addOpt y x := by
  cases x <;> cases y <;> simp [addOpt, Nat.add_comm]
theorem addOpt_assoc (x y z : Option Nat) : addOpt (addOpt x y) z = addOpt x (addOpt y z) := by
  cases x <;> cases y <;> cases z <;> simp [addOpt, Nat.add_assoc]

theorem sumOpt_cons (x : Option Nat) (l : List (Option Nat)) : sumOpt (x :: l) = addOpt x (sumOpt l) := rfl

theorem sumOpt_append (l m : List (Option Nat)) : sumOpt (l ++ m) = addOpt (sumOpt l) (sumOpt m) := by
  induction l with
  | nil => simp [sumOpt, addOpt_none_left]
  | cons x l ih => rw [List.cons_append, sumOpt_cons, ih, sumOpt_cons, addOpt_assoc]

theorem sumOpt_perm {l m : List (Option Nat)} (h : l.Perm m) : sumOpt l = sumOpt m := by
  induction h with
  | nil => rfl
  | cons x _ ih => rw [sumOpt_cons, sumOpt_cons, ih]
  | swap x y l => rw [sumOpt_cons, sumOpt_cons, sumOpt_cons, sumOpt_cons, ← addOpt_assoc, addOpt_comm y x,
      addOpt_assoc]
  | trans _ _ ih1 ih2 => exact ih1.trans ih2

theorem addOpt_getD (x y : Option Nat) : (addOpt x y).getD 0 = x.getD 0 + y.getD 0 := by
  cases x <;> cases y <;> simp [addOpt]

theorem updateCounts_get? (a b : Dict κ Nat) (wf : b.WF) (k : κ) :
    (updateCounts a b).get? k = addOpt (a.get? k) (b.get? k) := by
  unfold updateCounts
  induction b generalizing a with
  | nil => simp [addOpt_none_right]
  | cons q b ih =>
    obtain ⟨k', n⟩ := q
    rw [Dict.wf_cons] at wf
    rw [List.foldl_cons, ih _ wf.2, Dict.get?_cons]
    by_cases hk : k' = k
    · subst hk
      have hnone : Dict.get? b k' = none := Dict.get?_eq_none_iff.2 wf.1
      rw [hnone, addOpt_none_right, if_pos rfl]
      cases h : Dict.get? a k' <;> simp [addOpt]
    · rw [if_neg hk]
      congr 1
      cases h : Dict.get? a k' <;> simp [Dict.get?_set, hk]

theorem wf_updateCounts (a b : Dict κ Nat) (wf : a.WF) : (updateCounts a b).WF := by
  unfold updateCounts
  induction b generalizing a with
  | nil => exact wf
  | cons q b ih =>
    rw [List.foldl_cons]
    apply ih
    split <;> exact Dict.wf_set wf _ _

theorem updateNested_get? (a b : Dict κ (Dict μ Nat)) (wf : b.WF) (k : κ) :
    (updateNested a b).get? k =
      match a.get? k, b.get? k with
      | none, y => y
      | some x, none => some x
      | some x, some y => some (updateCounts x y) := by
  unfold updateNested
  induction b generalizing a with
  | nil => cases h : Dict.get? a k <;> simp [h]
  | cons q b ih =>
    obtain ⟨k', n⟩ := q
    rw [Dict.wf_cons] at wf
    rw [List.foldl_cons, ih _ wf.2, Dict.get?_cons]
    by_cases hk : k' = k
    · subst hk
      have hnone : Dict.get? b k' = none := Dict.get?_eq_none_iff.2 wf.1
      rw [hnone]
      cases h : Dict.get? a k' <;> simp
    · simp only [hk, if_false]
      cases h : Dict.get? a k' <;> simp [Dict.get?_set, hk]

theorem wf_updateNested (a b : Dict κ (Dict μ Nat)) (wf : a.WF) : (updateNested a b).WF := by
  unfold updateNested
  induction b generalizing a with
  | nil => exact wf
  | cons q b ih =>
    rw [List.foldl_cons]
    apply ih
    split <;> exact Dict.wf_set wf _ _

end Counts

/-! ### Meaning of statistics -/

/-- Everything the statistics count. -/
inductive StatKey where
  | button (b : Button) | comb (c : Comb) | unknown (c : Char) | run (h : Direction) (n : Nat)
  | triad (k : Triad) | word (w : Text)

/-- The count, if there is one. -/
def sem (s : AllStats) : StatKey → Option Nat
  | .button b => s.simple.buttons.get? b
  | .comb c => s.simple.combinations.get? c
  | .unknown c => s.simple.unknown.get? c
  | .run h n => (s.runlen.perHand.get? h).bind (fun d => d.get? n)
  | .triad k => s.triads.triads.get? k
  | .word w => s.words.words.get? w

theorem statsEq_iff {a b : AllStats} (ha : StatsOk a) (hb : StatsOk b) :
    StatsEq a b ↔ ∀ k, sem a k = sem b k := by
  constructor
  · intro h k
    cases k with
    | button x => exact h.buttons x
    | comb x => exact h.combinations x
    | unknown x => exact h.unknown x
    | run d n =>
      obtain ⟨x, hx⟩ := Option.isSome_iff_exists.1 (ha.hands d)
      obtain ⟨y, hy⟩ := Option.isSome_iff_exists.1 (hb.hands d)
      simp only [sem, hx, hy, Option.bind_some]
      exact h.runlen.2 d x y hx hy n
    | triad x => exact h.triads x
    | word x => exact h.words x
  · intro h
    refine ⟨fun k => h (.button k), fun k => h (.comb k), fun k => h (.unknown k), ⟨?_, ?_⟩,
      fun k => h (.triad k), fun k => h (.word k)⟩
    · intro k; simp [ha.hands k, hb.hands k]
    · intro k x y hx hy n
      have := h (.run k n)
      simpa [sem, hx, hy] using this

theorem statsOk_update {a b : AllStats} (ha : StatsOk a) (hb : StatsOk b) : StatsOk (a.update b) := by
  refine ⟨wf_updateCounts _ _ ha.buttons, wf_updateCounts _ _ ha.combinations, wf_updateCounts _ _ ha.unknown,
    ?_, wf_updateNested _ _ ha.perHand, ?_, wf_updateCounts _ _ ha.triads, wf_updateCounts _ _ ha.words⟩
  · intro h
    change ((updateNested a.runlen.perHand b.runlen.perHand).get? h).isSome
    rw [updateNested_get? _ _ hb.perHand]
    obtain ⟨x, hx⟩ := Option.isSome_iff_exists.1 (ha.hands h)
    rw [hx]
    cases b.runlen.perHand.get? h <;> rfl
  · intro h d hd
    change (updateNested a.runlen.perHand b.runlen.perHand).get? h = some d at hd
    rw [updateNested_get? _ _ hb.perHand] at hd
    obtain ⟨x, hx⟩ := Option.isSome_iff_exists.1 (ha.hands h)
    obtain ⟨y, hy⟩ := Option.isSome_iff_exists.1 (hb.hands h)
    simp only [hx, hy, Option.some.injEq] at hd
    rw [← hd]
    exact wf_updateCounts _ _ (ha.lengths h x hx)

theorem sem_update {a b : AllStats} (ha : StatsOk a) (hb : StatsOk b) (k : StatKey) :
    sem (a.update b) k = addOpt (sem a k) (sem b k) := by
  cases k with
  | button x => exact updateCounts_get? _ _ hb.buttons x
  | comb x => exact updateCounts_get? _ _ hb.combinations x
  | unknown x => exact updateCounts_get? _ _ hb.unknown x
  | run h n =>
    change ((updateNested a.runlen.perHand b.runlen.perHand).get? h).bind (fun d => d.get? n) = _
    rw [updateNested_get? _ _ hb.perHand]
    obtain ⟨x, hx⟩ := Option.isSome_iff_exists.1 (ha.hands h)
    obtain ⟨y, hy⟩ := Option.isSome_iff_exists.1 (hb.hands h)
    simp only [sem, hx, hy, Option.bind_some]
    exact updateCounts_get? _ _ (hb.lengths h y hy) n
  | triad x => exact updateCounts_get? _ _ hb.triads x
  | word x => exact updateCounts_get? _ _ hb.words x

theorem statsOk_fresh {s : AllStats} (h : Fresh s) : StatsOk s := by
  refine ⟨?_, ?_, ?_, ?_, ?_, ?_, ?_, ?_⟩
  · rw [h.simple]; exact Dict.wf_nil
  · rw [h.simple]; exact Dict.wf_nil
  · rw [h.simple]; exact Dict.wf_nil
  · rw [h.runlen]; intro d; cases d <;> rfl
  · rw [h.runlen]; decide
  · rw [h.runlen]; intro d x hx; cases d <;> simp [RunlenStats.init, Direction.all, Dict.get?] at hx <;>
      subst hx <;> exact Dict.wf_nil
  · rw [h.triads]; exact Dict.wf_nil
  · rw [h.words]; exact Dict.wf_nil

theorem sem_fresh {s : AllStats} (h : Fresh s) (k : StatKey) : sem s k = none := by
  cases k with
  | run d n => simp only [sem, h.runlen]; cases d <;> rfl
  | _ => simp [sem, h.simple, h.words, h.triads, SimpleStats.init, WordStats.init]

theorem foldl_update {s : AllStats} (hs : StatsOk s) {files : List AllStats} (hf : ∀ f ∈ files, StatsOk f) :
    StatsOk (files.foldl AllStats.update s) ∧
      ∀ k, sem (files.foldl AllStats.update s) k = addOpt (sem s k) (sumOpt (files.map (sem · k))) := by
  induction files generalizing s with
  | nil => exact ⟨hs, fun k => by simp [sumOpt, addOpt_none_right]⟩
  | cons f files ih =>
    have hf1 := hf f (by simp)
    obtain ⟨h1, h2⟩ := ih (statsOk_update hs hf1) (fun g hg => hf g (by simp [hg]))
    refine ⟨h1, fun k => ?_⟩
    rw [List.foldl_cons, h2, sem_update hs hf1, List.map_cons, sumOpt_cons, addOpt_assoc]

theorem combine_sem {fresh : AllStats} (hfr : Fresh fresh) {files : List AllStats}
    (hf : ∀ f ∈ files, StatsOk f) :
    StatsOk (AllStats.combine fresh files) ∧
      ∀ k, sem (AllStats.combine fresh files) k = sumOpt (files.map (sem · k)) := by
  obtain ⟨h1, h2⟩ := foldl_update (statsOk_fresh hfr) hf
  exact ⟨h1, fun k => by rw [AllStats.combine, h2, sem_fresh hfr, addOpt_none_left]⟩

mutual
theorem grouping_sem {fresh : AllStats} (hfr : Fresh fresh) (g : Grouping)
    (hf : ∀ f ∈ g.files, StatsOk f) :
    StatsOk (g.result fresh) ∧ ∀ k, sem (g.result fresh) k = sumOpt (g.files.map (sem · k)) := by
  cases g with
  | file f =>
    refine ⟨hf f (by simp [Grouping.files]), fun k => ?_⟩
    simp [Grouping.files, Grouping.result, sumOpt, addOpt_none_right]
  | group gs =>
    obtain ⟨h1, h2⟩ := groupings_sem hfr gs (by simpa [Grouping.files] using hf)
    obtain ⟨h3, h4⟩ := combine_sem hfr h1
    refine ⟨by simpa [Grouping.result] using h3, fun k => ?_⟩
    simp only [Grouping.result, Grouping.files, h4, h2]

theorem groupings_sem {fresh : AllStats} (hfr : Fresh fresh) (gs : List Grouping)
    (hf : ∀ f ∈ filesOf gs, StatsOk f) :
    (∀ f ∈ resultsOf fresh gs, StatsOk f) ∧
      ∀ k, sumOpt ((resultsOf fresh gs).map (sem · k)) = sumOpt ((filesOf gs).map (sem · k)) := by
  match gs, hf with
  | [], _ => exact ⟨by simp [resultsOf], fun k => by simp [resultsOf, filesOf]⟩
  | g :: gs, hf =>
    obtain ⟨h1, h2⟩ := grouping_sem hfr g (fun f hm => hf f (by simp [filesOf, hm]))
    obtain ⟨h3, h4⟩ := groupings_sem hfr gs (fun f hm => hf f (by simp [filesOf, hm]))
    refine ⟨?_, fun k => ?_⟩
    · intro f hm
      rw [resultsOf] at hm
      rcases List.mem_cons.1 hm with rfl | hm
      · exact h1
      · exact h3 f hm
    · rw [resultsOf, filesOf, List.map_cons, sumOpt_cons, h2, h4, List.map_append, sumOpt_append]
end

/-! ### Dict objects -/

section HeapSec
variable {κ : Type} [DecidableEq κ]

theorem heapLoop_flat (rec : Heap κ → Nat → Nat → Py (Heap κ)) (a : Nat) (items : List (κ × HVal))
    (h : Heap κ) (ha : FlatObj h a) (hi : ∀ q ∈ items, ∃ n, q.2 = .leaf n) :
    ∃ h', heapLoop rec a items h = .ok h' ∧ FlatObj h' a ∧ ∀ x, x ≠ a → h' x = h x := by
  induction items generalizing h with
  | nil => exact ⟨h, rfl, ha, fun _ _ => rfl⟩
  | cons q items ih =>
    obtain ⟨k, v⟩ := q
    obtain ⟨n, hn⟩ := hi (k, v) (by simp)
    simp only at hn
    subst hn
    have step : ∀ m, ∃ h', heapLoop rec a items (h.write a k (.leaf m)) = .ok h' ∧ FlatObj h' a ∧
        ∀ x, x ≠ a → h' x = h x := by
      intro m
      obtain ⟨h', e1, e2, e3⟩ := ih (h.write a k (.leaf m)) (by
        intro k' v' hv
        simp only [Heap.write, if_true, Dict.get?_set] at hv
        split at hv
        · exact ⟨m, by simpa using hv.symm⟩
        · exact ha k' v' hv) (fun q hq => hi q (by simp [hq]))
      refine ⟨h', e1, e2, fun x hx => ?_⟩
      rw [e3 x hx]; simp [Heap.write, hx]
    unfold heapLoop
    cases hg : (h a).get? k with
    | none => exact step n
    | some w =>
      obtain ⟨m, rfl⟩ := ha k w hg
      exact step (m + n)

theorem heapMerge_flat (n : Nat) (a : Nat) (bs : List Nat) (h : Heap κ) (ha : FlatObj h a)
    (hne : a ∉ bs) (hwf : ∀ b ∈ bs, (h b).WF) (hb : ∀ b ∈ bs, FlatObj h b) :
    ∃ h', heapMerge (n + 1) a bs h = .ok h' ∧ FlatObj h' a ∧ ∀ x, x ≠ a → h' x = h x := by
  induction bs generalizing h with
  | nil => exact ⟨h, rfl, ha, fun _ _ => rfl⟩
  | cons b bs ih =>
    have hba : b ≠ a := by rintro rfl; simp at hne
    obtain ⟨h1, e1, e2, e3⟩ := heapLoop_flat (heapUpdate n) a (h b) h ha (by
      intro q hq
      exact hb b (by simp) q.1 q.2 (Dict.get?_of_mem (hwf b (by simp)) hq))
    obtain ⟨h2, f1, f2, f3⟩ := ih h1 e2 (fun hm => hne (by simp [hm]))
      (fun c hc => by rw [e3 c (by rintro rfl; exact hne (by simp [hc]))]; exact hwf c (by simp [hc]))
      (fun c hc => by
        unfold FlatObj
        rw [e3 c (by rintro rfl; exact hne (by simp [hc]))]
        exact hb c (by simp [hc]))
    refine ⟨h2, ?_, f2, fun x hx => by rw [f3 x hx, e3 x hx]⟩
    rw [heapMerge]
    simp only [heapUpdate, e1, bind, Except.bind]
    exact f1

theorem heapLoop_two (n : Nat) (a : Nat) (ca : κ → Nat) (items : List (κ × HVal)) (cb : κ → Nat)
    (h : Heap κ) (hall : ∀ k, (h a).get? k = some (.ref (ca k))) (hflat : ∀ k, FlatObj h (ca k))
    (hna : ∀ k, ca k ≠ a) (hi : ∀ q ∈ items, q.2 = .ref (cb q.1))
    (hbflat : ∀ k, FlatObj h (cb k)) (hbwf : ∀ k, (h (cb k)).WF) (hdis : ∀ k k', ca k ≠ cb k') :
    ∃ h', heapLoop (heapUpdate (n + 1)) a items h = .ok h' ∧ (∀ k, FlatObj h' (ca k)) ∧
      ∀ x, (∀ k, x ≠ ca k) → h' x = h x := by
  induction items generalizing h with
  | nil => exact ⟨h, rfl, hflat, fun _ _ => rfl⟩
  | cons q items ih =>
    obtain ⟨k, v⟩ := q
    have hv := hi (k, v) (by simp)
    simp only at hv
    subst hv
    obtain ⟨h1, e1, e2, e3⟩ := heapLoop_flat (heapUpdate n) (ca k) (h (cb k)) h (hflat k) (by
      intro q hq
      exact hbflat k q.1 q.2 (Dict.get?_of_mem (hbwf k) hq))
    have keep : ∀ x, (∀ k, x ≠ ca k) → h1 x = h x := fun x hx => e3 x (hx k)
    have cbne : ∀ k', h1 (cb k') = h (cb k') := fun k' => e3 _ (fun e => hdis k k' e.symm)
    obtain ⟨h2, f1, f2, f3⟩ := ih h1
      (fun k' => by rw [keep a (fun k'' e => hna k'' e.symm)]; exact hall k')
      (fun k' => by
        by_cases e : ca k' = ca k
        · rw [e]; exact e2
        · intro k'' v' hv'
          rw [e3 _ e] at hv'
          exact hflat k' k'' v' hv')
      (fun q hq => hi q (by simp [hq]))
      (fun k' => by unfold FlatObj; rw [cbne]; exact hbflat k')
      (fun k' => by rw [cbne]; exact hbwf k')
    refine ⟨h2, ?_, f2, fun x hx => by rw [f3 x hx, keep x hx]⟩
    unfold heapLoop
    simp only [hall k, heapUpdate, e1, bind, Except.bind]
    exact f1

theorem heapMerge_two (n : Nat) (a : Nat) (ca : κ → Nat) (bs : List (Nat × (κ → Nat))) (h : Heap κ)
    (hall : ∀ k, (h a).get? k = some (.ref (ca k))) (hflat : ∀ k, FlatObj h (ca k))
    (hna : ∀ k, ca k ≠ a)
    (hb : ∀ b ∈ bs, TwoLevel h b.1 b.2) (hbne : ∀ b ∈ bs, ∀ k, b.1 ≠ ca k)
    (hdis : ∀ b ∈ bs, ∀ k k', ca k ≠ b.2 k') :
    ∃ h', heapMerge (n + 2) a (bs.map Prod.fst) h = .ok h' ∧
      ∀ x, (∀ k, x ≠ ca k) → h' x = h x := by
  induction bs generalizing h with
  | nil => exact ⟨h, rfl, fun _ _ => rfl⟩
  | cons b bs ih =>
    have tb := hb b (by simp)
    obtain ⟨h1, e1, e2, e3⟩ := heapLoop_two n a ca (h b.1) b.2 h hall hflat hna (by
      intro q hq
      have := Dict.get?_of_mem tb.wf (k := q.1) (v := q.2) hq
      rw [tb.all] at this
      simpa using this.symm) tb.flat tb.wfChild (hdis b (by simp))
    obtain ⟨h2, f1, f2⟩ := ih h1
      (fun k => by rw [e3 a (fun k' e => hna k' e.symm)]; exact hall k)
      e2
      (fun c hc => by
        have tc := hb c (by simp [hc])
        have ec : h1 c.1 = h c.1 := e3 _ (fun k => hbne c (by simp [hc]) k)
        have ecc : ∀ k, h1 (c.2 k) = h (c.2 k) := fun k => e3 _ (fun k' e => hdis c (by simp [hc]) k' k e.symm)
        exact ⟨by rw [ec]; exact tc.wf, fun k => by rw [ec]; exact tc.all k,
          fun k => by unfold FlatObj; rw [ecc]; exact tc.flat k, fun k => by rw [ecc]; exact tc.wfChild k⟩)
      (fun c hc => hbne c (by simp [hc])) (fun c hc => hdis c (by simp [hc]))
    refine ⟨h2, ?_, fun x hx => by rw [f2 x hx, e3 x hx]⟩
    rw [List.map_cons, heapMerge, heapUpdate, e1]
    exact f1

end HeapSec

end Lulua
