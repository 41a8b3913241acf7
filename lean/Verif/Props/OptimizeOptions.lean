import Verif.Props.Optimize
import Verif.Proofs.OptimizeTotal
import Mathlib.Logic.Equiv.Basic
import Mathlib.Data.List.Sort

/-!
# C98, C99: the options `--mutate` and `--triad-limit` of the optimizer
-/

namespace Lulua.Props
open Lulua Spec Optimizer

/-! ### C98 -/

/-- The position an option names: a layer number and the name of a key. -/
def Names (t : InternTable) (kb : PhysicalKeyboard) (x : Int × String) (p : Pos) : Prop :=
  x.1 = p.1 ∧ Called t kb x.2 p.2

theorem target_swap {bm bm' : ButtonMap} {a b : Pos} (h : swap bm a b = .ok bm') (p : Pos) :
    target bm' p = target bm (Equiv.swap a b p) := by
  obtain ⟨va, vb, h1, h2, _⟩ := swap_ok.1 h
  unfold target
  rw [swap_get? h]
  by_cases hpa : p = a
  · subst hpa
    rw [if_pos rfl, Equiv.swap_apply_left, h2]; rfl
  · rw [if_neg hpa]
    by_cases hpb : p = b
    · subst hpb
      rw [if_pos rfl, Equiv.swap_apply_right, h1]; rfl
    · rw [if_neg hpb, Equiv.swap_apply_of_ne_of_ne hpa hpb]

theorem applyMutations_target {t : InternTable} {kb : PhysicalKeyboard} {ms : List ((Int × String) × (Int × String))}
    {bm bm' : ButtonMap} (h : applyMutations t kb ms bm = .ok bm') :
    ∃ ps : List (Pos × Pos), List.Forall₂ (fun m p => Names t kb m.1 p.1 ∧ Names t kb m.2 p.2) ms ps ∧
      (∀ p ∈ ps, p.1 ∈ bm.map Prod.fst ∧ p.2 ∈ bm.map Prod.fst) ∧
      ∀ q, target bm' q = target bm (ps.foldr (fun p q => Equiv.swap p.1 p.2 q) q) := by
  induction ms generalizing bm with
  | nil =>
    simp only [applyMutations, Except.ok.injEq] at h
    subst h
    exact ⟨[], .nil, by simp, fun q => rfl⟩
  | cons m ms ih =>
    obtain ⟨⟨i, a⟩, ⟨j, b⟩⟩ := m
    simp only [applyMutations, bind_ok_iff] at h
    obtain ⟨a', ha, b', hb, h⟩ := h
    split_ifs at h with hneg
    simp only [bind_ok_iff] at h
    obtain ⟨bm1, h1, h2⟩ := h
    obtain ⟨ps, h3, h4, h5⟩ := ih h2
    obtain ⟨va, vb, g1, g2, _⟩ := swap_ok.1 h1
    refine ⟨((i.toNat, a'.i), (j.toNat, b'.i)) :: ps, .cons ⟨⟨by simp only; omega, find_called ha⟩,
      ⟨by simp only; omega, find_called hb⟩⟩ h3, ?_, fun q => ?_⟩
    · intro p hp
      rcases List.mem_cons.1 hp with rfl | hp
      · exact ⟨Dict.get?_isSome_iff.1 (by simp [g1]), Dict.get?_isSome_iff.1 (by simp [g2])⟩
      · rw [← swap_keys h1]; exact h4 p hp
    · rw [h5, target_swap h1]; rfl

theorem target_identityMap (L : KeyboardLayout) (kb : PhysicalKeyboard) (q : Pos) : target (identityMap L kb) q = q := by
  unfold target
  cases h : (identityMap L kb).get? q with
  | none => rfl
  | some v => exact (identityMap_entry (Dict.mem_of_get? h)).1

theorem optimize_start {x : OptArgs} {ds : List (Pos × Pos)} {r : OptResult} (he : ∀ l, (x.enum l).Perm l)
    (h0 : x.steps = 0) (hr : x.randomize = false) (h : optimize x ds = .ok r) :
    applyMutations x.table x.keyboard x.mutations (identityMap x.layout x.keyboard) = .ok r.buttonMap ∧
      emit x.table x.layout x.keyboard r.buttonMap = .ok r.layout := by
  obtain ⟨O, s, s1, ds1, y, ds2, h1, h2, h3, h4⟩ := optimize_ok h
  rcases h2 with ⟨h2, _⟩ | ⟨_, rfl, rfl⟩
  · rw [hr] at h2; simp at h2
  obtain ⟨bm, pins, g1, g2, _, _, _, _, _, rfl⟩ := setup_ok he h1
  obtain ⟨s0, e1, e2⟩ := run_ok.1 h3
  rw [h0] at e2
  simp only [Anneal.loop, Except.ok.injEq, Prod.mk.injEq] at e2
  obtain ⟨rfl, rfl⟩ := e2
  have hb : s0.buttonMap = bm := by obtain ⟨_, rfl⟩ := resetEnergy_ok.1 e1; rfl
  change optimizeFinish x O s0 s0 = .ok r at h4
  simp only [optimizeFinish] at h4
  rw [ite_eq_iff] at h4
  rcases h4 with ⟨_, h4⟩ | ⟨_, h4⟩
  · simp at h4
  simp only [bind_ok_iff] at h4
  obtain ⟨_, _, h4⟩ := h4
  rw [ite_eq_iff] at h4
  rcases h4 with ⟨_, h4⟩ | ⟨_, h4⟩
  · simp at h4
  simp only [bind_ok_iff, Except.ok.injEq] at h4
  obtain ⟨d, h5, rfl⟩ := h4
  rw [hb] at h5
  exact ⟨by rw [hb]; exact g1, by rw [hb]; exact h5⟩

/-- **C98** (the map): `--mutate` sends every text where exchanging the pairs of positions that are named sends it, the
last one first, i.e. the options name texts by where they are in the input; only letter keys that are not modifiers can
be named. -/
theorem C98_mutations (t : InternTable) (kb : PhysicalKeyboard) (name : String) (layers : List Layer)
    (hu : UnambiguousModifiers layers) (ms : List ((Int × String) × (Int × String))) (bm : ButtonMap)
    (h : applyMutations t kb ms (identityMap (KeyboardLayout.mk' name layers kb) kb) = .ok bm) :
    ∃ ps : List (Pos × Pos), List.Forall₂ (fun m p => Names t kb m.1 p.1 ∧ Names t kb m.2 p.2) ms ps ∧
      (∀ p ∈ ps, Movable layers kb p.1 ∧ Movable layers kb p.2) ∧
      ∀ q, target bm q = ps.foldr (fun p q => Equiv.swap p.1 p.2 q) q := by
  obtain ⟨ps, h1, h2, h3⟩ := applyMutations_target h
  refine ⟨ps, h1, fun p hp => ?_, fun q => by rw [h3, target_identityMap]⟩
  have hm : ∀ q, q ∈ (identityMap (KeyboardLayout.mk' name layers kb) kb).map Prod.fst → Movable layers kb q := by
    intro q hq
    rw [identityMap_keys, mem_mutableButtons] at hq
    obtain ⟨g1, k, hk, g2, g3, g4⟩ := hq
    exact ⟨g1, k, hk, g2, g3, (isModifier_false_iff hu).1 g4⟩
  exact ⟨hm _ (h2 p hp).1, hm _ (h2 p hp).2⟩

/-- **C98** (one pair): one mutation exchanges two positions and leaves everything else. -/
theorem C98_single (t : InternTable) (kb : PhysicalKeyboard) (name : String) (layers : List Layer)
    (hu : UnambiguousModifiers layers) (x y : Int × String) (bm : ButtonMap)
    (h : applyMutations t kb [(x, y)] (identityMap (KeyboardLayout.mk' name layers kb) kb) = .ok bm) :
    ∃ a b, Names t kb x a ∧ Names t kb y b ∧ target bm a = b ∧ target bm b = a ∧
      ∀ q, q ≠ a → q ≠ b → target bm q = q := by
  obtain ⟨ps, h1, _, h3⟩ := C98_mutations t kb name layers hu _ bm h
  obtain ⟨⟨a, b⟩, rest, ⟨ha, hb⟩, hr, rfl⟩ := List.forall₂_cons_left_iff.1 h1
  cases hr
  refine ⟨a, b, ha, hb, ?_, ?_, fun q h1 h2 => ?_⟩
  · rw [h3]; exact Equiv.swap_apply_left a b
  · rw [h3]; exact Equiv.swap_apply_right a b
  · rw [h3]; exact Equiv.swap_apply_of_ne_of_ne h1 h2

/-- **C98** (printed): without any step of the optimizer the layout printed is the input with these positions
exchanged. -/
theorem C98_printed (x : OptArgs) (names : List String) (name : String) (layers : List Layer)
    (ht : x.table = tableAfter names) (hx : x.layout = KeyboardLayout.mk' name layers x.keyboard)
    (hn : Named x.table x.keyboard.keys) (hu : UnambiguousModifiers layers) (hrch : Reachable layers)
    (hmod : ∀ l ∈ layers, ∀ m ∈ l.modifier, ∀ b ∈ m, b ∈ x.keyboard.keys.map Btn.i)
    (he : ∀ l, (x.enum l).Perm l) (h0 : x.steps = 0) (hr : x.randomize = false) (ds : List (Pos × Pos)) (r : OptResult)
    (h : optimize x ds = .ok r) :
    ∃ ps : List (Pos × Pos),
      List.Forall₂ (fun m p => Names x.table x.keyboard m.1 p.1 ∧ Names x.table x.keyboard m.2 p.2) x.mutations ps ∧
      ∀ j n v, gTextAt r.layout.layout j n = some v ↔
        ∃ p : Pos, (p.1 < layers.length ∧ p.2 ∈ x.keyboard.keys.map Btn.i) ∧
          ∃ b, ps.foldr (fun p q => Equiv.swap p.1 p.2 q) p = (j, b) ∧ x.table.nameOf b = .ok n ∧
            textAt layers p = some v := by
  obtain ⟨h1, h2⟩ := optimize_start he h0 hr h
  rw [hx] at h1 h2
  obtain ⟨ps, g1, _, g3⟩ := C98_mutations _ _ name layers hu _ _ h1
  obtain ⟨hp, hk⟩ := applyMutations_kept (identityMap_permutes _ _) h1
  rw [ht] at hn h2
  obtain ⟨gs, e1, _, e3, _⟩ := C41_emitted names name layers x.keyboard r.buttonMap hn hu hrch hmod hp (onBoard_of_keys hk)
  rw [h2] at e1
  simp only [Except.ok.injEq] at e1
  refine ⟨ps, g1, fun j n v => ?_⟩
  rw [e1, e3, ht]
  simp only [g3]

/-- Two mutations: `a` goes to the place of `b`, `b` to that of `c`, `c` to that of `a`. -/
def mutateArgs : OptArgs :=
  { optArgs with steps := 0, mutations := [((0, "Bl1"), (0, "Bl2")), ((0, "Bl2"), (0, "Br1"))] }

example : mutateArgs.table = tableAfter ["Bl1", "Bl2", "Br1", "Br2", "El_shift"] ∧
    mutateArgs.layout = KeyboardLayout.mk' "demo" optLayers mutateArgs.keyboard ∧
    Named mutateArgs.table mutateArgs.keyboard.keys ∧ UnambiguousModifiers optLayers ∧ Reachable optLayers ∧
    (∀ l, (mutateArgs.enum l).Perm l) ∧ mutateArgs.steps = 0 ∧ mutateArgs.randomize = false ∧
    (optimize mutateArgs []).toOption.map (fun r => r.layout.layout.map GLayer.layout) = some
      [[("Bl2", .str ['a']), ("Br1", .str ['b']), ("Bl1", .str ['c']), ("Br2", .str ['d'])],
        [("Bl1", .str ['A']), ("Br1", .str ['C'])]] :=
  ⟨rfl, rfl, optKb_named, optLayers_unambiguous, optLayers_reachable, fun l => List.Perm.refl l, rfl, rfl, by decide +kernel⟩

/-! ### C99 -/

instance : Std.Total fun (a b : Triad × Rat) => b.2 ≤ a.2 := ⟨fun a b => le_total b.2 a.2⟩
instance : IsTrans (Triad × Rat) fun a b => b.2 ≤ a.2 := ⟨fun _ _ _ h h' => le_trans h' h⟩

theorem sortTriads_perm (ts : List (Triad × Rat)) : (sortTriads ts).Perm ts := List.perm_insertionSort _ _

theorem sortTriads_pairwise (ts : List (Triad × Rat)) : (sortTriads ts).Pairwise fun a b => b.2 ≤ a.2 :=
  List.pairwise_insertionSort _ _

theorem limitTriads_split (limit : Nat) (ts : List (Triad × Rat)) :
    ∃ n, limitTriads limit ts = (sortTriads ts).take n ∧ (limit = 0 → n = ts.length) ∧ (0 < limit → n = limit) := by
  unfold limitTriads
  split_ifs with h
  · exact ⟨limit, rfl, fun h0 => by omega, fun _ => rfl⟩
  · refine ⟨ts.length, ?_, fun _ => rfl, fun h' => absurd h' h⟩
    rw [← (sortTriads_perm ts).length_eq, List.take_length]

/-- **C99**: with `--triad-limit` the most frequent triads are kept, as many as asked for, most frequent first; without
it, all of them are. -/
theorem C99_most_frequent (limit : Nat) (ts : List (Triad × Rat)) :
    ∃ dropped, (limitTriads limit ts ++ dropped).Perm ts ∧
      (limitTriads limit ts).Pairwise (fun a b => b.2 ≤ a.2) ∧
      (∀ a ∈ limitTriads limit ts, ∀ b ∈ dropped, b.2 ≤ a.2) ∧
      (limit = 0 → dropped = []) ∧ (0 < limit → (limitTriads limit ts).length = min limit ts.length) := by
  obtain ⟨n, h1, h2, h3⟩ := limitTriads_split limit ts
  have hs := sortTriads_pairwise ts
  rw [← List.take_append_drop n (sortTriads ts), List.pairwise_append] at hs
  refine ⟨(sortTriads ts).drop n, ?_, ?_, ?_, fun h0 => ?_, fun h0 => ?_⟩
  · rw [h1, List.take_append_drop]; exact sortTriads_perm ts
  · rw [h1]; exact hs.1
  · rw [h1]; exact hs.2.2
  · rw [h2 h0, ← (sortTriads_perm ts).length_eq, List.drop_length]
  · rw [h1, List.length_take, (sortTriads_perm ts).length_eq, h3 h0]

/-- **C99** (ties): among equally frequent triads the ones that come first in the statistics are kept. -/
theorem C99_ties (limit : Nat) (ts : Dict Triad Rat) (hd : ts.WF) (a b : Triad × Rat) (ha : a ∈ limitTriads limit ts)
    (hb : b ∈ ts) (hb' : b ∉ limitTriads limit ts) (hab : a.2 = b.2) : List.Sublist [a, b] ts := by
  have hnd : ts.Nodup := List.Nodup.of_map _ hd
  obtain ⟨n, h1, _, _⟩ := limitTriads_split limit ts
  rw [h1] at ha hb'
  have hne : a ≠ b := by rintro rfl; exact hb' ha
  have ha' : a ∈ ts := (sortTriads_perm ts).mem_iff.1 (List.mem_of_mem_take ha)
  have hbs : b ∈ (sortTriads ts).drop n := by
    have := (sortTriads_perm ts).mem_iff.2 hb
    rw [← List.take_append_drop n (sortTriads ts), List.mem_append] at this
    exact this.resolve_left hb'
  have hnds : (sortTriads ts).Nodup := (sortTriads_perm ts).nodup_iff.2 hnd
  have two : ∀ (l : List (Triad × Rat)), a ∈ l → b ∈ l → List.Sublist [a, b] l ∨ List.Sublist [b, a] l := by
    intro l ha hb
    obtain ⟨s, t, rfl⟩ := List.append_of_mem ha
    rcases List.mem_append.1 hb with h | h
    · right
      have := (List.singleton_sublist.2 h).append (List.singleton_sublist.2 (List.mem_cons_self (a := a) (l := t)))
      simpa using this
    · left
      have hbt : b ∈ t := by
        rcases List.mem_cons.1 h with h | h
        · exact absurd h.symm hne
        · exact h
      exact ((List.singleton_sublist.2 hbt).cons_cons a).trans (List.sublist_append_right _ _)
  rcases two ts ha' hb with h | h
  · exact h
  · exfalso
    have h' : List.Sublist [b, a] (sortTriads ts) :=
      List.pair_sublist_insertionSort (r := fun (a b : Triad × Rat) => b.2 ≤ a.2) (le_of_eq hab) h
    have h'' : List.Sublist [a, b] (sortTriads ts) := by
      rw [← List.take_append_drop n (sortTriads ts)]
      simpa using (List.singleton_sublist.2 ha).append (List.singleton_sublist.2 hbs)
    -- both orders cannot be in a list without repetitions
    obtain ⟨i, j, hij, e1, e2⟩ : ∃ i j : Nat, i < j ∧ (sortTriads ts)[i]? = some a ∧ (sortTriads ts)[j]? = some b := by
      obtain ⟨f, hf⟩ := List.sublist_iff_exists_orderEmbedding_getElem?_eq.1 h''
      exact ⟨f 0, f 1, by simp, by rw [← hf]; rfl, by rw [← hf]; rfl⟩
    obtain ⟨k, l, hkl, e3, e4⟩ : ∃ i j : Nat, i < j ∧ (sortTriads ts)[i]? = some b ∧ (sortTriads ts)[j]? = some a := by
      obtain ⟨f, hf⟩ := List.sublist_iff_exists_orderEmbedding_getElem?_eq.1 h'
      exact ⟨f 0, f 1, by simp, by rw [← hf]; rfl, by rw [← hf]; rfl⟩
    have inj : ∀ {u v : Nat} {z : Triad × Rat}, (sortTriads ts)[u]? = some z → (sortTriads ts)[v]? = some z → u = v := by
      intro u v z hu hv
      obtain ⟨hu, rfl⟩ := List.getElem?_eq_some_iff.1 hu
      obtain ⟨hv, e⟩ := List.getElem?_eq_some_iff.1 hv
      exact ((hnds.getElem_inj_iff).1 e).symm
    have := inj e1 e4
    have := inj e2 e3
    omega

/-- Two of four, one of the equally frequent ones. -/
example : let t (b : Button) : Triad := (⟨[], [b]⟩, ⟨[], [b]⟩, ⟨[], [b]⟩)
    limitTriads 2 [(t 0, 1), (t 1, 3), (t 2, 5), (t 3, 3)] = [(t 2, 5), (t 1, 3)] ∧
    Dict.WF [(t 0, (1 : Rat)), (t 1, 3), (t 2, 5), (t 3, 3)] := by decide +kernel

end Lulua.Props
