import Verif.Proofs.OptimizeEmit
import Mathlib.Data.Fintype.BigOperators
import Mathlib.Analysis.SpecificLimits.Basic

/-!
# Proofs about whole runs of the optimizer
-/

namespace Lulua
open Spec Optimizer

/-! ### Before the run -/

theorem identityMap_entry {L : KeyboardLayout} {kb : PhysicalKeyboard} {e : Pos × Pos} (h : e ∈ identityMap L kb) :
    e.2 = e.1 ∧ e.1.1 < L.layers.length ∧ e.1.2 ∈ mutableButtons L kb := by
  have h1 := Dict.get?_of_mem (Dict.wf_ofPairs _) (show (e.1, e.2) ∈ identityMap L kb by simpa using h)
  rw [Dict.get?_ofPairs] at h1
  have h2 := Dict.mem_of_get? h1
  simp only [List.mem_reverse, List.mem_flatMap, List.mem_map, List.mem_range, Prod.mk.injEq] at h2
  obtain ⟨i, hi, b, hb, h3, h4⟩ := h2
  exact ⟨by rw [← h3, ← h4], by rw [← h3]; exact ⟨hi, hb⟩⟩

theorem identityMap_keys {L : KeyboardLayout} {kb : PhysicalKeyboard} {p : Pos} :
    p ∈ (identityMap L kb).map Prod.fst ↔ p.1 < L.layers.length ∧ p.2 ∈ mutableButtons L kb := by
  constructor
  · intro h
    obtain ⟨e, he, rfl⟩ := List.mem_map.1 h
    exact (identityMap_entry he).2
  · rintro ⟨h1, h2⟩
    rw [← Dict.get?_isSome_iff, identityMap, Dict.get?_ofPairs, Dict.get?_isSome_iff]
    rw [List.map_reverse, List.mem_reverse]
    simp only [List.mem_map, List.mem_flatMap, List.mem_range]
    exact ⟨(p, p), ⟨p.1, h1, p.2, h2, rfl⟩, rfl⟩

theorem identityMap_permutes (L : KeyboardLayout) (kb : PhysicalKeyboard) : Permutes (identityMap L kb) := by
  refine ⟨Dict.wf_ofPairs _, ?_⟩
  rw [List.map_congr_left (fun e he => (identityMap_entry he).1)]

theorem mem_mutableButtons {L : KeyboardLayout} {kb : PhysicalKeyboard} {b : Button} :
    b ∈ mutableButtons L kb ↔ ∃ k ∈ kb.keys, k.i = b ∧ k.kind = .letter ∧ L.isModifier [b] = false := by
  simp only [mutableButtons, List.mem_map, List.mem_filter, Bool.and_eq_true, decide_eq_true_eq, Bool.not_eq_true',
    frozenset_singleton]
  constructor
  · rintro ⟨k, ⟨h1, h2, h3⟩, rfl⟩; exact ⟨k, h1, rfl, h2, h3⟩
  · rintro ⟨k, h1, rfl, h2, h3⟩; exact ⟨k, ⟨h1, h2, h3⟩, rfl⟩

theorem onBoard_of_keys {layers : List Layer} {kb : PhysicalKeyboard} {name : String} {bm : ButtonMap}
    (h : bm.map Prod.fst = (identityMap (KeyboardLayout.mk' name layers kb) kb).map Prod.fst) : OnBoard layers kb bm := by
  intro p hp
  rw [h, identityMap_keys, mem_mutableButtons] at hp
  obtain ⟨h1, k, hk, h2, _⟩ := hp
  exact ⟨h1, List.mem_map.2 ⟨k, hk, h2⟩⟩

theorem applyMutations_kept {t : InternTable} {kb : PhysicalKeyboard} {ms : List ((Int × String) × (Int × String))}
    {bm bm' : ButtonMap} (hp : Permutes bm) (h : applyMutations t kb ms bm = .ok bm') :
    Permutes bm' ∧ bm'.map Prod.fst = bm.map Prod.fst := by
  induction ms generalizing bm with
  | nil =>
    simp only [applyMutations, Except.ok.injEq] at h
    subst h; exact ⟨hp, rfl⟩
  | cons m ms ih =>
    obtain ⟨⟨i, a⟩, ⟨j, b⟩⟩ := m
    simp only [applyMutations, bind_ok_iff] at h
    obtain ⟨a', _, b', _, h⟩ := h
    split_ifs at h
    simp only [bind_ok_iff] at h
    obtain ⟨bm1, h1, h2⟩ := h
    obtain ⟨h3, h4⟩ := ih (swap_permutes hp h1) h2
    exact ⟨h3, by rw [h4, swap_keys h1]⟩

theorem setup_ok {x : OptArgs} (he : ∀ l, (x.enum l).Perm l) {O : Optimizer} {s : OptState}
    (h : optimizeSetup x = .ok (O, s)) :
    ∃ bm pins, applyMutations x.table x.keyboard x.mutations (identityMap x.layout x.keyboard) = .ok bm ∧
      x.pin.mapM (expandPin x.table x.keyboard x.fnmatch) = .ok pins ∧
      Indexed O ∧ O.triads = limitTriads x.triadLimit x.triads ∧ O.layout = x.layout ∧ O.pins = pins.flatten ∧
      O.allButtons = bm.map Prod.fst ∧ s = ⟨⟨x.env, 0, 0⟩, bm⟩ := by
  simp only [optimizeSetup, bind_ok_iff] at h
  obtain ⟨bm, h1, pins, h2, h3⟩ := h
  obtain ⟨a, b, c, d, e, f⟩ := init_indexed he h3
  exact ⟨bm, pins, h1, h2, a, b, c, d, e, f⟩

/-- With exact arithmetic both plausibility checks after a run pass. -/
theorem finish_eq {x : OptArgs} {O : Optimizer} {last best : OptState} (hl : Exact O last)
    (hb : Permutes best.buttonMap) : optimizeFinish x O last best = (do
      let d ← emit x.table x.layout x.keyboard best.buttonMap
      .ok ⟨last.carpalx.effort, d, best.buttonMap⟩) := by
  have h1 : (∀ k ∈ best.buttonMap.keys, k ∈ best.buttonMap.values) ∧
      ∀ v ∈ best.buttonMap.values, v ∈ best.buttonMap.keys :=
    ⟨fun k hk => hb.2.mem_iff.2 hk, fun v hv => hb.2.mem_iff.1 hv⟩
  have h2 : O.resetEnergy last = .ok last := hl
  unfold optimizeFinish
  rw [if_neg (not_not.2 h1), h2]
  change (if ¬ |last.carpalx.effort - last.carpalx.effort| < 1 / 10000 then _ else _) = _
  rw [if_neg (by rw [sub_self, abs_zero]; norm_num)]

/-- The parts of a run. -/
theorem optimize_ok {x : OptArgs} {ds : List (Pos × Pos)} {r : OptResult} (h : optimize x ds = .ok r) :
    ∃ O s s1 ds1 y ds2, optimizeSetup x = .ok (O, s) ∧
      ((x.randomize = true ∧ O.randomize (s.buttonMap.length * 2) (s, ds) = .ok (s1, ds1)) ∨
        (x.randomize = false ∧ s1 = s ∧ ds1 = ds)) ∧
      O.run x.steps s1 ds1 = .ok (y, ds2) ∧ optimizeFinish x O y.state y.best.1 = .ok r := by
  unfold optimize at h
  cases h1 : optimizeSetup x with
  | error e => simp [h1] at h
  | ok v =>
    obtain ⟨O, s⟩ := v
    simp only [h1] at h
    have hfin : ∀ s1 ds1, (match O.run x.steps s1 ds1 with
        | .error e => (Except.error e : Rnd OptResult)
        | .ok (y, _) => Rnd.lift (optimizeFinish x O y.state y.best.1)) = .ok r →
        ∃ y ds2, O.run x.steps s1 ds1 = .ok (y, ds2) ∧ optimizeFinish x O y.state y.best.1 = .ok r := by
      intro s1 ds1 h
      cases h2 : O.run x.steps s1 ds1 with
      | error e => simp [h2] at h
      | ok v =>
        obtain ⟨y, ds2⟩ := v
        simp only [h2] at h
        refine ⟨y, ds2, rfl, ?_⟩
        cases h3 : optimizeFinish x O y.state y.best.1 with
        | error e => simp [h3, Rnd.lift] at h
        | ok v => simp only [h3, Rnd.lift, Except.ok.injEq] at h; rw [h]
    cases hr : x.randomize with
    | false =>
      simp only [hr, Bool.false_eq_true, if_false] at h
      obtain ⟨y, ds2, h3, h4⟩ := hfin s ds h
      exact ⟨O, s, s, ds, y, ds2, rfl, .inr ⟨rfl, rfl, rfl⟩, h3, h4⟩
    | true =>
      simp only [hr, if_true] at h
      cases h2 : O.randomize (s.buttonMap.length * 2) (s, ds) with
      | error e => simp [h2] at h
      | ok v =>
        obtain ⟨s1, ds1⟩ := v
        simp only [h2] at h
        obtain ⟨y, ds2, h3, h4⟩ := hfin s1 ds1 h
        exact ⟨O, s, s1, ds1, y, ds2, rfl, .inl ⟨rfl, h2⟩, h3, h4⟩

theorem randomize_carpalx {O : Optimizer} {n : Nat} {s s' : OptState} {ds ds' : List (Pos × Pos)}
    (h : O.randomize n (s, ds) = .ok (s', ds')) : s'.carpalx = s.carpalx := by
  induction n generalizing s ds with
  | zero =>
    simp only [Optimizer.randomize, Except.ok.injEq, Prod.mk.injEq] at h
    rw [← h.1]
  | succ n ih =>
    rw [Optimizer.randomize] at h
    cases h1 : O.mutateOnly s ds with
    | error e => simp [h1] at h
    | ok v =>
      obtain ⟨s1, ds1⟩ := v
      simp only [h1] at h
      obtain ⟨_, _, _, _, h2⟩ := mutateOnly_ok h1
      rw [ih h, h2]

/-- What a run that ends gives. -/
theorem optimize_result {x : OptArgs} {name : String} {layers : List Layer}
    (hx : x.layout = KeyboardLayout.mk' name layers x.keyboard) (hu : UnambiguousModifiers layers)
    (he : ∀ l, (x.enum l).Perm l) {ds : List (Pos × Pos)} {r : OptResult} (h : optimize x ds = .ok r) :
    Permutes r.buttonMap ∧
      r.buttonMap.map Prod.fst = (identityMap x.layout x.keyboard).map Prod.fst ∧
      emit x.table x.layout x.keyboard r.buttonMap = .ok r.layout ∧
      (∃ last, EffortOf x.env layers last (limitTriads x.triadLimit x.triads) r.energy) ∧
      ∃ v, EffortOf x.env layers r.buttonMap (limitTriads x.triadLimit x.triads) v ∧ v ≤ r.energy ∧
        (x.randomize = false → ∀ bm w,
          applyMutations x.table x.keyboard x.mutations (identityMap x.layout x.keyboard) = .ok bm →
          EffortOf x.env layers bm (limitTriads x.triadLimit x.triads) w → v ≤ w) := by
  obtain ⟨O, s, s1, ds1, y, ds2, h1, h2, h3, h4⟩ := optimize_ok h
  obtain ⟨bm, pins, h5, _, hI, hT, hLay, _, _, rfl⟩ := setup_ok he h1
  obtain ⟨hp, hk⟩ := applyMutations_kept (identityMap_permutes _ _) h5
  have hs1 : Permutes s1.buttonMap ∧ s1.buttonMap.map Prod.fst = bm.map Prod.fst ∧ s1.carpalx.env = x.env := by
    rcases h2 with ⟨_, h2⟩ | ⟨_, rfl, _⟩
    · exact ⟨(kept_permutes O).randomize _ hp h2, (kept_keys O _).randomize _ rfl h2, by rw [randomize_carpalx h2]⟩
    · exact ⟨hp, rfl, rfl⟩
  obtain ⟨s0, h6, h7⟩ := run_ok.1 h3
  have hex := exact_of_reset h6
  have hs0 : s0.buttonMap = s1.buttonMap ∧ s0.carpalx.env = s1.carpalx.env := by
    obtain ⟨_, rfl⟩ := resetEnergy_ok.1 h6; exact ⟨rfl, rfl⟩
  obtain ⟨⟨e1, e2⟩, e3, ⟨e4, e5⟩, e6, e7, e8⟩ := run_energy hI hex h7
  have hpb := ((kept_permutes O).loop (by rw [hs0.1]; exact hs1.1) h7).2
  have hkb := ((kept_keys O (bm.map Prod.fst)).loop (by rw [hs0.1]; exact hs1.2.1) h7).2
  rw [finish_eq e1 hpb] at h4
  simp only [bind_ok_iff, Except.ok.injEq] at h4
  obtain ⟨d, h8, rfl⟩ := h4
  have hLay' := hLay.trans hx
  have hlast := effortOf_exact hu hLay' e1
  have hbest := effortOf_exact hu hLay' e4
  have hstart := effortOf_exact hu hLay' hex
  rw [hT, e2, hs0.2, hs1.2.2] at hlast
  rw [hT, e5, hs0.2, hs1.2.2] at hbest
  rw [hT, hs0.2, hs1.2.2, hs0.1] at hstart
  refine ⟨hpb, by rw [hkb, hk], h8, ⟨_, hlast⟩, _, hbest, ?_, ?_⟩
  · change _ ≤ y.state.carpalx.effort
    rw [e6, e3] at e7; linarith
  · intro hr bm' w hbm' hw
    rcases h2 with ⟨h2, _⟩ | ⟨_, rfl, _⟩
    · rw [hr] at h2; simp at h2
    · rw [h5] at hbm'
      simp only [Except.ok.injEq] at hbm'
      subst hbm'
      have := effortOf_unique hu hstart hw
      rw [e6] at e8
      linarith

/-! ### Drawing -/

/-- In a state where the texts of pinned layers are on them, only the pins decide what can be swapped. -/
theorem acceptMutation_swappable {O : Optimizer} {bm : ButtonMap} (hp : Permutes bm) (hl : LayersKept O.pins bm) {a b : Pos}
    (ha : a ∈ bm.map Prod.fst) (hb : b ∈ bm.map Prod.fst) :
    O.acceptMutation bm a b = .ok true ↔ Swappable O.pins a b := by
  obtain ⟨va, hva⟩ := Option.isSome_iff_exists.1 (Dict.get?_isSome_iff.2 ha)
  obtain ⟨vb, hvb⟩ := Option.isSome_iff_exists.1 (Dict.get?_isSome_iff.2 hb)
  have hclosed : ∀ p q v, bm.get? q = some v → (p, none) ∈ O.pins → (v.1 = p ↔ q.1 = p) := by
    intro p q v hv hpin
    constructor
    · intro h
      exact layer_closed hp p (fun e he h => by rw [hl e he (by rw [h]; exact hpin), h]) (q, v) (Dict.mem_of_get? hv) h
    · intro h
      have := hl (q, v) (Dict.mem_of_get? hv) (by rw [h]; exact hpin)
      rw [← h]; exact this
  rw [acceptMutation_true]
  constructor
  · rintro ⟨h1, va', vb', h2, h3, h4, h5, h6, h7⟩
    rw [hva] at h2; rw [hvb] at h3
    simp only [Option.some.injEq] at h2 h3
    subst h2 h3
    refine ⟨h1, h4, h5, fun hne => ⟨fun hpin => hne ?_, fun hpin => hne ?_⟩⟩
    · exact ((hclosed _ _ _ hvb hpin).1 (h6 hpin)).symm
    · exact (hclosed _ _ _ hva hpin).1 (h7 hpin)
  · rintro ⟨h1, h4, h5, h6⟩
    refine ⟨h1, va, vb, hva, hvb, h4, h5, fun hpin => ?_, fun hpin => ?_⟩
    · rw [hclosed _ _ _ hvb hpin]
      by_contra hne
      exact (h6 (Ne.symm hne)).1 hpin
    · rw [hclosed _ _ _ hva hpin]
      by_contra hne
      exact (h6 hne).2 hpin

/-- Pairs that can be drawn, and those of them that are refused. -/
def drawable (O : Optimizer) : Finset (Pos × Pos) := O.allButtons.toFinset ×ˢ O.allButtons.toFinset

def refused (O : Optimizer) (bm : ButtonMap) : Finset (Pos × Pos) :=
  (drawable O).filter fun x => O.acceptMutation bm x.1 x.2 ≠ .ok true

theorem drawing_iff {O : Optimizer} {bm : ButtonMap} (hne : O.allButtons ≠ []) (hk : O.allButtons = bm.map Prod.fst)
    {ds : List (Pos × Pos)} (hd : ∀ x ∈ ds, x ∈ drawable O) :
    O.drawPair bm ds = .error .drawing ↔ ∀ x ∈ ds, x ∈ refused O bm := by
  have hd' : ∀ x ∈ ds, x.1 ∈ bm.map Prod.fst ∧ x.2 ∈ bm.map Prod.fst := by
    intro x hx
    have := hd x hx
    rw [drawable, Finset.mem_product, List.mem_toFinset, List.mem_toFinset, hk] at this
    exact this
  rcases drawPair_cases hne hd' with ⟨ab, ds', h⟩ | ⟨h, hall⟩
  · rw [h]
    simp only [reduceCtorEq, false_iff]
    intro hall
    obtain ⟨_, pre, rfl, _, hacc⟩ := drawPair_ok h
    have := hall ab (by simp)
    rw [refused, Finset.mem_filter] at this
    exact this.2 hacc
  · rw [h]
    simp only [true_iff]
    intro x hx
    rw [refused, Finset.mem_filter]
    refine ⟨hd x hx, ?_⟩
    rw [hall x hx]
    simp

/-- How many of the sequences of `n` draws are not enough. -/
theorem drawing_card {O : Optimizer} {bm : ButtonMap} (hne : O.allButtons ≠ []) (hk : O.allButtons = bm.map Prod.fst)
    (n : Nat) : ((Fintype.piFinset fun _ : Fin n => drawable O).filter fun f =>
      O.drawPair bm (List.ofFn f) = .error .drawing).card = (refused O bm).card ^ n := by
  have : ((Fintype.piFinset fun _ : Fin n => drawable O).filter fun f =>
      O.drawPair bm (List.ofFn f) = .error .drawing) = Fintype.piFinset fun _ : Fin n => refused O bm := by
    ext f
    rw [Finset.mem_filter, Fintype.mem_piFinset, Fintype.mem_piFinset]
    constructor
    · rintro ⟨h1, h2⟩ i
      rw [drawing_iff hne hk (by intro x hx; obtain ⟨j, rfl⟩ := List.mem_ofFn.1 hx; exact h1 j)] at h2
      exact h2 _ (List.mem_ofFn.2 ⟨i, rfl⟩)
    · intro h
      have h1 : ∀ i, f i ∈ drawable O := fun i => (Finset.mem_filter.1 (h i)).1
      refine ⟨h1, ?_⟩
      rw [drawing_iff hne hk (by intro x hx; obtain ⟨j, rfl⟩ := List.mem_ofFn.1 hx; exact h1 j)]
      intro x hx
      obtain ⟨j, rfl⟩ := List.mem_ofFn.1 hx
      exact h j
  rw [this, Fintype.card_piFinset_const]

end Lulua
