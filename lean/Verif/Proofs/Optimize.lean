import Verif.Spec.Optimize
import Verif.Proofs.Anneal
import Verif.Proofs.Carpalx
import Verif.Proofs.Layout
import Mathlib.Algebra.BigOperators.Fin
import Mathlib.Algebra.BigOperators.Group.Finset.Basic

/-!
# Proofs about the optimizer
-/

namespace Lulua
open Spec Optimizer

/-! ### Swapping -/

theorem swap_ok {bm : ButtonMap} {a b : Pos} {bm' : ButtonMap} :
    swap bm a b = .ok bm' ↔ ∃ va vb, bm.get? a = some va ∧ bm.get? b = some vb ∧ bm' = (bm.set b va).set a vb := by
  simp only [swap, bind_ok_iff, Dict.getItem_eq_ok, Except.ok.injEq]
  constructor
  · rintro ⟨va, h1, vb, h2, rfl⟩; exact ⟨va, vb, h1, h2, rfl⟩
  · rintro ⟨va, vb, h1, h2, rfl⟩; exact ⟨va, h1, vb, h2, rfl⟩

theorem swap_get? {bm bm' : ButtonMap} {a b : Pos} (h : swap bm a b = .ok bm') (p : Pos) :
    bm'.get? p = if p = a then bm.get? b else if p = b then bm.get? a else bm.get? p := by
  obtain ⟨va, vb, h1, h2, rfl⟩ := swap_ok.1 h
  rw [Dict.get?_set, Dict.get?_set]
  by_cases hpa : p = a
  · subst hpa; simp [h2]
  · by_cases hpb : p = b
    · subst hpb; simp [hpa, Ne.symm hpa, h1]
    · simp [hpa, hpb, Ne.symm hpa, Ne.symm hpb]

theorem keys_set_of_mem {κ ν : Type} [DecidableEq κ] {d : Dict κ ν} {k : κ} (h : k ∈ d.map Prod.fst) (v : ν) :
    (d.set k v).map Prod.fst = d.map Prod.fst := by
  induction d with
  | nil => simp at h
  | cons e d ih =>
    obtain ⟨k', v'⟩ := e
    rw [Dict.set]
    by_cases hk : k' = k
    · simp [hk]
    · simp only [hk, if_false, List.map_cons, List.cons.injEq, true_and]
      apply ih
      simp only [List.map_cons, List.mem_cons] at h
      exact h.resolve_left (fun h => hk h.symm)

theorem swap_keys {bm bm' : ButtonMap} {a b : Pos} (h : swap bm a b = .ok bm') :
    bm'.map Prod.fst = bm.map Prod.fst := by
  obtain ⟨va, vb, h1, h2, rfl⟩ := swap_ok.1 h
  have ha : a ∈ bm.map Prod.fst := Dict.get?_isSome_iff.1 (by simp [h1])
  have hb : b ∈ bm.map Prod.fst := Dict.get?_isSome_iff.1 (by simp [h2])
  rw [keys_set_of_mem, keys_set_of_mem hb]
  rw [keys_set_of_mem hb]; exact ha

/-- The values of a dict are what its keys are mapped to. -/
theorem values_eq {κ ν : Type} [DecidableEq κ] {d : Dict κ ν} (wf : d.WF) :
    (d.map Prod.snd).map some = (d.map Prod.fst).map d.get? := by
  rw [List.map_map, List.map_map]
  apply List.map_congr_left
  intro e he
  simp only [Function.comp]
  exact (Dict.get?_of_mem wf (by simpa using he)).symm

theorem perm_of_map_some {α : Type} {l l' : List α} (h : (l.map some).Perm (l'.map some)) : l.Perm l' := by
  have := h.filterMap id
  simpa using this

theorem swap_values {bm bm' : ButtonMap} {a b : Pos} (wf : bm.WF) (h : swap bm a b = .ok bm') :
    (bm'.map Prod.snd).Perm (bm.map Prod.snd) := by
  have hk := swap_keys h
  have wf' : bm'.WF := by unfold Dict.WF; rw [hk]; exact wf
  apply perm_of_map_some
  rw [values_eq wf, values_eq wf', hk]
  obtain ⟨va, vb, h1, h2, _⟩ := swap_ok.1 h
  have ha : a ∈ bm.map Prod.fst := Dict.get?_isSome_iff.1 (by simp [h1])
  have hb : b ∈ bm.map Prod.fst := Dict.get?_isSome_iff.1 (by simp [h2])
  have hfun : bm'.get? = bm.get? ∘ Equiv.swap a b := by
    funext p
    rw [swap_get? h, Function.comp, Equiv.swap_apply_def]
    split_ifs <;> rfl
  rw [hfun, ← List.map_map]
  apply List.Perm.map
  rw [List.perm_ext_iff_of_nodup (wf.map (Equiv.swap a b).injective) wf]
  intro p
  simp only [List.mem_map]
  constructor
  · rintro ⟨q, hq, rfl⟩
    rw [Equiv.swap_apply_def]
    split_ifs
    · simpa using hb
    · simpa using ha
    · simpa using hq
  · intro hp
    refine ⟨Equiv.swap a b p, ?_, by simp⟩
    rw [Equiv.swap_apply_def]
    split_ifs
    · simpa using hb
    · simpa using ha
    · simpa using hp

theorem swap_permutes {bm bm' : ButtonMap} {a b : Pos} (hp : Permutes bm) (h : swap bm a b = .ok bm') :
    Permutes bm' := by
  have hk := swap_keys h
  refine ⟨?_, ?_⟩
  · unfold Dict.WF; rw [hk]; exact hp.1
  · rw [hk]; exact (swap_values hp.1 h).trans hp.2

/-! ### Admissible swaps -/

theorem acceptMutation_true {O : Optimizer} {bm : ButtonMap} {a b : Pos} :
    O.acceptMutation bm a b = .ok true ↔ a ≠ b ∧ ∃ va vb, bm.get? a = some va ∧ bm.get? b = some vb ∧
      (a.1, some a.2) ∉ O.pins ∧ (b.1, some b.2) ∉ O.pins ∧ ((a.1, none) ∈ O.pins → vb.1 = a.1) ∧
      ((b.1, none) ∈ O.pins → va.1 = b.1) := by
  unfold acceptMutation
  split_ifs with h
  · simp [h]
  · simp only [bind_ok_iff, Dict.getItem_eq_ok, Except.ok.injEq, Bool.not_eq_true', Bool.or_eq_false_iff,
      Bool.and_eq_false_iff, decide_eq_false_iff_not, ne_eq, not_not]
    constructor
    · rintro ⟨vb, h1, va, h2, ⟨⟨⟨h3, h4⟩, h5⟩, h6⟩⟩
      exact ⟨h, va, vb, h2, h1, h3, h4, fun hh => h5.resolve_left (fun h => h hh), fun hh => h6.resolve_left (fun h => h hh)⟩
    · rintro ⟨_, va, vb, h2, h1, h3, h4, h5, h6⟩
      refine ⟨vb, h1, va, h2, ⟨⟨⟨h3, h4⟩, ?_⟩, ?_⟩⟩
      · by_cases hh : (a.1, none) ∈ O.pins
        · exact .inr (h5 hh)
        · exact .inl hh
      · by_cases hh : (b.1, none) ∈ O.pins
        · exact .inr (h6 hh)
        · exact .inl hh

theorem acceptMutation_total {O : Optimizer} {bm : ButtonMap} {a b : Pos} (ha : a ∈ bm.map Prod.fst)
    (hb : b ∈ bm.map Prod.fst) : ∃ r, O.acceptMutation bm a b = .ok r := by
  unfold acceptMutation
  split_ifs with h
  · exact ⟨_, rfl⟩
  · obtain ⟨va, hva⟩ := Option.isSome_iff_exists.1 (Dict.get?_isSome_iff.2 ha)
    obtain ⟨vb, hvb⟩ := Option.isSome_iff_exists.1 (Dict.get?_isSome_iff.2 hb)
    simp only [Dict.getItem, hva, hvb, bind, Except.bind]
    exact ⟨_, rfl⟩

theorem drawPair_ok {O : Optimizer} {bm : ButtonMap} {ds ds' : List (Pos × Pos)} {ab : Pos × Pos}
    (h : O.drawPair bm ds = .ok (ab, ds')) :
    O.allButtons ≠ [] ∧ ∃ pre, ds = pre ++ ab :: ds' ∧ (∀ x ∈ pre, O.acceptMutation bm x.1 x.2 = .ok false) ∧
      O.acceptMutation bm ab.1 ab.2 = .ok true := by
  induction ds with
  | nil => unfold drawPair at h; split_ifs at h
  | cons x ds ih =>
    obtain ⟨a, b⟩ := x
    unfold drawPair at h
    split_ifs at h with hne
    refine ⟨hne, ?_⟩
    cases hacc : O.acceptMutation bm a b with
    | error e => simp [hacc] at h
    | ok r =>
      cases r with
      | true =>
        simp only [hacc, Except.ok.injEq, Prod.mk.injEq] at h
        obtain ⟨rfl, rfl⟩ := h
        exact ⟨[], rfl, by simp, hacc⟩
      | false =>
        simp only [hacc] at h
        obtain ⟨_, pre, h1, h2, h3⟩ := ih h
        refine ⟨(a, b) :: pre, by rw [h1]; rfl, ?_, h3⟩
        intro x hx
        rcases List.mem_cons.1 hx with rfl | hx
        · exact hacc
        · exact h2 x hx

theorem drawPair_mem {O : Optimizer} {bm : ButtonMap} {ds ds' : List (Pos × Pos)} {ab : Pos × Pos}
    (h : O.drawPair bm ds = .ok (ab, ds')) : ∀ x ∈ ds', x ∈ ds := by
  obtain ⟨_, pre, rfl, _⟩ := drawPair_ok h
  intro x hx
  simp [hx]

/-- With draws from the keys of the map the loop ends with the first admissible pair, and waits if there is none. -/
theorem drawPair_cases {O : Optimizer} {bm : ButtonMap} {ds : List (Pos × Pos)} (hne : O.allButtons ≠ [])
    (hd : ∀ x ∈ ds, x.1 ∈ bm.map Prod.fst ∧ x.2 ∈ bm.map Prod.fst) :
    (∃ ab ds', O.drawPair bm ds = .ok (ab, ds')) ∨
      O.drawPair bm ds = .error .drawing ∧ ∀ x ∈ ds, O.acceptMutation bm x.1 x.2 = .ok false := by
  induction ds with
  | nil => right; unfold drawPair; simp [hne]
  | cons x ds ih =>
    obtain ⟨a, b⟩ := x
    obtain ⟨h1, h2⟩ := hd (a, b) (by simp)
    obtain ⟨r, hr⟩ := acceptMutation_total (O := O) h1 h2
    unfold drawPair
    simp only [hne, if_false]
    cases r with
    | true => left; simp only [hr]; exact ⟨_, _, rfl⟩
    | false =>
      simp only [hr]
      rcases ih (fun x hx => hd x (by simp [hx])) with h | ⟨h3, h4⟩
      · exact .inl h
      · refine .inr ⟨h3, ?_⟩
        intro x hx
        rcases List.mem_cons.1 hx with rfl | hx
        · exact hr
        · exact h4 x hx

/-! ### Steps of the optimizer as swaps -/

theorem mutate_ok {O : Optimizer} {s : OptState} {ds : List (Pos × Pos)} {d : Rat} {s' : OptState}
    {ds' : List (Pos × Pos)} (h : O.mutate s ds = .ok (d, s', ds')) :
    ∃ a b, O.drawPair s.buttonMap ds = .ok ((a, b), ds') ∧ O.exchange s a b = .ok (d, s') := by
  unfold mutate at h
  cases h1 : O.drawPair s.buttonMap ds with
  | error e => simp [h1] at h
  | ok x =>
    obtain ⟨⟨a, b⟩, ds1⟩ := x
    simp only [h1] at h
    cases h2 : O.exchange s a b with
    | error e => simp [h2] at h
    | ok y =>
      obtain ⟨d1, s1⟩ := y
      simp only [h2, Except.ok.injEq, Prod.mk.injEq] at h
      obtain ⟨rfl, rfl, rfl⟩ := h
      exact ⟨a, b, rfl, h2⟩

theorem exchange_ok {O : Optimizer} {s s' : OptState} {a b : Pos} {d : Rat} :
    O.exchange s a b = .ok (d, s') ↔ ∃ r, O.removeAll s.buttonMap (O.affected a b) s.carpalx = .ok r ∧
      swap s.buttonMap a b = .ok s'.buttonMap ∧ O.addAll s'.buttonMap (O.affected a b) r = .ok s'.carpalx ∧
      d = s'.carpalx.effort - s.carpalx.effort := by
  simp only [exchange, bind_ok_iff, Except.ok.injEq, Prod.mk.injEq]
  constructor
  · rintro ⟨r, h1, bm, h2, r', h3, rfl, rfl⟩; exact ⟨r, h1, h2, h3, rfl⟩
  · rintro ⟨r, h1, h2, h3, rfl⟩; exact ⟨r, h1, _, h2, _, h3, rfl, rfl⟩

theorem mutateOnly_ok {O : Optimizer} {s s' : OptState} {ds ds' : List (Pos × Pos)}
    (h : O.mutateOnly s ds = .ok (s', ds')) :
    ∃ a b, O.drawPair s.buttonMap ds = .ok ((a, b), ds') ∧ swap s.buttonMap a b = .ok s'.buttonMap ∧
      s'.carpalx = s.carpalx := by
  unfold mutateOnly at h
  cases h1 : O.drawPair s.buttonMap ds with
  | error e => simp [h1] at h
  | ok x =>
    obtain ⟨⟨a, b⟩, ds1⟩ := x
    simp only [h1] at h
    cases h2 : swap s.buttonMap a b with
    | error e => simp [h2] at h
    | ok y =>
      simp only [h2, Except.ok.injEq, Prod.mk.injEq] at h
      obtain ⟨rfl, rfl⟩ := h
      exact ⟨a, b, rfl, h2, rfl⟩

/-- Whatever admissible swaps keep, both kinds of mutation keep. -/
structure KeptBySwaps (O : Optimizer) (I : ButtonMap → Prop) : Prop where
  kept : ∀ bm a b bm', I bm → O.acceptMutation bm a b = .ok true → swap bm a b = .ok bm' → I bm'

theorem KeptBySwaps.mutate {O : Optimizer} {I : ButtonMap → Prop} (hI : KeptBySwaps O I) {s s' : OptState}
    {ds ds' : List (Pos × Pos)} {d : Rat} (hs : I s.buttonMap) (h : O.mutate s ds = .ok (d, s', ds')) :
    I s'.buttonMap := by
  obtain ⟨a, b, h1, h2⟩ := mutate_ok h
  obtain ⟨r, _, h3, _⟩ := exchange_ok.1 h2
  obtain ⟨_, _, _, _, h4⟩ := drawPair_ok h1
  exact hI.kept _ _ _ _ hs h4 h3

theorem KeptBySwaps.randomize {O : Optimizer} {I : ButtonMap → Prop} (hI : KeptBySwaps O I) (n : Nat) {s s' : OptState}
    {ds ds' : List (Pos × Pos)} (hs : I s.buttonMap) (h : O.randomize n (s, ds) = .ok (s', ds')) : I s'.buttonMap := by
  induction n generalizing s ds with
  | zero =>
    simp only [Optimizer.randomize, Except.ok.injEq, Prod.mk.injEq] at h
    rw [← h.1]; exact hs
  | succ n ih =>
    unfold Optimizer.randomize at h
    cases h1 : O.mutateOnly s ds with
    | error e => simp [h1] at h
    | ok x =>
      obtain ⟨s1, ds1⟩ := x
      simp only [h1] at h
      obtain ⟨a, b, h2, h3, _⟩ := mutateOnly_ok h1
      obtain ⟨_, _, _, _, h4⟩ := drawPair_ok h2
      exact ih (hI.kept _ _ _ _ hs h4 h3) h

theorem KeptBySwaps.loop {O : Optimizer} {I : ButtonMap → Prop} (hI : KeptBySwaps O I) {accept : Nat → Rat → Bool}
    {n : Nat} {s : OptState} {ds ds' : List (Pos × Pos)} {x : Anneal OptState} (hs : I s.buttonMap)
    (h : Anneal.loop accept O.mutate (Anneal.start s, ds) n = .ok (x, ds')) :
    I x.state.buttonMap ∧ I x.best.1.buttonMap := by
  induction n generalizing x ds' with
  | zero =>
    simp only [Anneal.loop, Except.ok.injEq, Prod.mk.injEq] at h
    rw [← h.1]; exact ⟨hs, hs⟩
  | succ n ih =>
    obtain ⟨⟨y, ry⟩, h1, h2⟩ := loop_succ_ok.1 h
    obtain ⟨d, s1, r', h3, h4⟩ := step_ok.1 h2
    obtain ⟨i1, i2⟩ := ih h1
    simp only [Prod.mk.injEq] at h4
    rw [h4.1]
    have i3 := hI.mutate i1 h3
    unfold Anneal.judge
    simp only
    split_ifs
    · exact ⟨i3, i3⟩
    · exact ⟨i3, i2⟩
    · exact ⟨i1, i2⟩

theorem kept_permutes (O : Optimizer) : KeptBySwaps O Permutes := ⟨fun _ _ _ _ h _ hs => swap_permutes h hs⟩

theorem kept_keys (O : Optimizer) (ks : List Pos) : KeptBySwaps O (fun bm => bm.map Prod.fst = ks) :=
  ⟨fun _ _ _ _ h _ hs => by rw [swap_keys hs, h]⟩

theorem kept_pin (O : Optimizer) (p : Pos) (hp : (p.1, some p.2) ∈ O.pins) (v : Option Pos) :
    KeptBySwaps O (fun bm => bm.get? p = v) := by
  refine ⟨fun bm a b bm' h hacc hs => ?_⟩
  obtain ⟨_, va, vb, _, _, h1, h2, _⟩ := acceptMutation_true.1 hacc
  rw [swap_get? hs, if_neg, if_neg, h]
  · rintro rfl; exact h2 hp
  · rintro rfl; exact h1 hp

theorem kept_layers (O : Optimizer) : KeptBySwaps O (fun bm => bm.WF ∧ LayersKept O.pins bm) := by
  refine ⟨fun bm a b bm' ⟨wf, h⟩ hacc hs => ?_⟩
  have wf' : bm'.WF := by unfold Dict.WF; rw [swap_keys hs]; exact wf
  refine ⟨wf', fun e he hpin => ?_⟩
  obtain ⟨_, va, vb, hva, hvb, _, _, h3, h4⟩ := acceptMutation_true.1 hacc
  have hg : bm'.get? e.1 = some e.2 := Dict.get?_of_mem wf' (by simpa using he)
  rw [swap_get? hs] at hg
  split_ifs at hg with h5 h6
  · rw [hvb] at hg
    simp only [Option.some.injEq] at hg
    rw [← hg, h5]; exact h3 (h5 ▸ hpin)
  · rw [hva] at hg
    simp only [Option.some.injEq] at hg
    rw [← hg, h6]; exact h4 (h6 ▸ hpin)
  · exact h (e.1, e.2) (Dict.mem_of_get? hg) hpin

/-- If every text of a layer stays on it, nothing else gets there. -/
theorem layer_closed {bm : ButtonMap} (hp : Permutes bm) (l : Nat) (h : ∀ e ∈ bm, e.1.1 = l → e.2.1 = l) :
    ∀ e ∈ bm, e.2.1 = l → e.1.1 = l := by
  have hc : (bm.countP fun e => decide (e.1.1 = l)) = bm.countP fun e => decide (e.2.1 = l) := by
    have := hp.2.countP_eq (fun p => decide (p.1 = l))
    rw [List.countP_map, List.countP_map] at this
    exact this.symm
  have hle : ∀ (m : ButtonMap), (∀ e ∈ m, e.1.1 = l → e.2.1 = l) →
      (m.countP fun e => decide (e.1.1 = l)) = m.countP (fun e => decide (e.2.1 = l)) → ∀ e ∈ m, e.2.1 = l → e.1.1 = l := by
    intro m
    induction m with
    | nil => simp
    | cons e m ih =>
      intro h1 h2
      have hmono : (m.countP fun e => decide (e.1.1 = l)) ≤ m.countP (fun e => decide (e.2.1 = l)) := by
        apply List.countP_mono_left
        intro x hx hxl
        simp only [decide_eq_true_eq] at hxl ⊢
        exact h1 x (by simp [hx]) hxl
      rw [List.countP_cons, List.countP_cons] at h2
      have h3 := h1 e (by simp)
      intro x hx hxl
      by_cases he : e.1.1 = l
      · have he2 := h3 he
        simp only [he, he2, decide_true, if_true, Nat.add_right_cancel_iff] at h2
        rcases List.mem_cons.1 hx with rfl | hx
        · exact he
        · exact ih (fun y hy => h1 y (by simp [hy])) h2 x hx hxl
      · by_cases he2 : e.2.1 = l
        · simp only [he, he2, decide_true, decide_false, if_true] at h2
          simp at h2
          omega
        · simp only [he, he2, decide_false] at h2
          rcases List.mem_cons.1 hx with rfl | hx
          · exact absurd hxl he2
          · exact ih (fun y hy => h1 y (by simp [hy])) (by simpa using h2) x hx hxl
  exact hle bm h hc

end Lulua
