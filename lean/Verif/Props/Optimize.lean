import Verif.Proofs.OptimizeRun
import Verif.Proofs.OptArgs
import Verif.Props.Keyboard

/-!
# C37–C44: the optimizer
-/

namespace Lulua.Props
open Lulua Spec Optimizer
open Filter (Tendsto atTop)

/-! Objects for demonstration: four letter keys and a shift key, two layers. The effort of a triad is that of its first
key. -/

def optShift : Btn := { demoBtn 4 with kind := .standard }
def optKb : PhysicalKeyboard :=
  PhysicalKeyboard.mk' "demo" "" [([demoBtn 0, demoBtn 1], [demoBtn 2, demoBtn 3]), ([optShift], [])]
def optTable : InternTable := tableAfter ["Bl1", "Bl2", "Br1", "Br2", "El_shift"]
def optLayers : List Layer :=
  [ { modifier := [[]], layout := [(0, .str ['a']), (1, .str ['b']), (2, .str ['c']), (3, .str ['d'])] },
    { modifier := [[4]], layout := [(0, .str ['A']), (2, .str ['C'])] } ]
def optLayout : KeyboardLayout := KeyboardLayout.mk' "demo" optLayers optKb
def optEnv : CarpalxEnv where
  params :=
    { kBPS := (1, 0, 0), k123S := (1, 0, 0, 0), w0HRF := (0, 0, 0, 0), pHand := [(.left, 0), (.right, 0)], pRow := [0, 0]
      pFinger := [(.left, [(.index, 0)]), (.right, [(.index, 0)])], fHRF := (0, 0, 0)
      baselineEffort := [("Bl1", 1), ("Bl2", 2), ("Br1", 3), ("Br2", 4), ("El_shift", 5)] }
  hf b := if b % 2 = 0 then .ok (.left, .index) else .ok (.right, .index)
  nameOf := optTable.nameOf
  getRow := optKb.getRow
def optArgs : OptArgs where
  table := optTable
  keyboard := optKb
  layout := optLayout
  env := optEnv
  triads := [((⟨[], [2]⟩, ⟨[], [2]⟩, ⟨[4], [2]⟩), 1), ((⟨[], [1]⟩, ⟨[], [1]⟩, ⟨[], [1]⟩), 1000000)]
  triadLimit := 0
  steps := 2
  randomize := false
  pin := [(1, none)]
  mutations := []
  fnmatch := fun a b => a == b
  enum := id

/-- Draws: a pair that is refused because of the pin, one that is the same twice, and two that are accepted. -/
def optDraws : List (Pos × Pos) := [((0, 0), (1, 0)), ((0, 0), (0, 0)), ((0, 0), (0, 1)), ((0, 2), (0, 3))]

/-- The result of a run. -/
theorem optArgs_run : optimize optArgs optDraws = .ok
    { energy := 1000004 / 1000001
      layout := ⟨"demo-new",
        [⟨[[]], [("Bl2", .str ['a']), ("Bl1", .str ['b']), ("Br1", .str ['c']), ("Br2", .str ['d'])]⟩,
          ⟨[["El_shift"]], [("Bl1", .str ['A']), ("Br1", .str ['C'])]⟩]⟩
      buttonMap := [((0, 0), (0, 1)), ((0, 1), (0, 0)), ((0, 2), (0, 2)), ((0, 3), (0, 3)),
        ((1, 0), (1, 0)), ((1, 1), (1, 1)), ((1, 2), (1, 2)), ((1, 3), (1, 3))] } := by decide +kernel

theorem optLayers_unambiguous : UnambiguousModifiers optLayers := by
  intro i j hi hj m h1 h2
  simp only [optLayers, List.length_cons, List.length_nil] at hi hj
  have hi' : i = 0 ∨ i = 1 := by omega
  have hj' : j = 0 ∨ j = 1 := by omega
  rcases hi' with rfl | rfl <;> rcases hj' with rfl | rfl <;> first | rfl | (exfalso; simp_all [optLayers])

theorem optLayers_reachable : Reachable optLayers := by
  intro l hl
  simp only [optLayers, List.mem_cons, List.not_mem_nil, or_false] at hl
  rcases hl with rfl | rfl <;> simp

theorem optKb_keys : optKb.keys = [demoBtn 0, demoBtn 1, demoBtn 2, demoBtn 3, optShift] := by decide +kernel

theorem optKb_named : Named optTable optKb.keys := by
  intro b hb
  rw [optKb_keys] at hb
  simp only [List.mem_cons, List.not_mem_nil, or_false] at hb
  rcases hb with rfl | rfl | rfl | rfl | rfl
  · exact ⟨"Bl1", by decide +kernel⟩
  · exact ⟨"Bl2", by decide +kernel⟩
  · exact ⟨"Br1", by decide +kernel⟩
  · exact ⟨"Br2", by decide +kernel⟩
  · exact ⟨"El_shift", by decide +kernel⟩

/-! ### C37 -/

/-- **C37**: after any number of steps the current and the best button map are one-to-one maps of the original positions
onto themselves, whatever is drawn and whichever steps are accepted. -/
theorem C37_permutes (O : Optimizer) (accept : Nat → Rat → Bool) (n : Nat) (s : OptState) (ds ds' : List (Pos × Pos))
    (x : Anneal OptState) (hs : Permutes s.buttonMap)
    (h : Anneal.loop accept O.mutate (Anneal.start s, ds) n = .ok (x, ds')) :
    (Permutes x.state.buttonMap ∧ x.state.buttonMap.map Prod.fst = s.buttonMap.map Prod.fst) ∧
      (Permutes x.best.1.buttonMap ∧ x.best.1.buttonMap.map Prod.fst = s.buttonMap.map Prod.fst) := by
  obtain ⟨a, b⟩ := (kept_permutes O).loop hs h
  obtain ⟨c, d⟩ := (kept_keys O (s.buttonMap.map Prod.fst)).loop rfl h
  exact ⟨⟨a, c⟩, ⟨b, d⟩⟩

/-- **C37** (randomization). -/
theorem C37_randomize (O : Optimizer) (n : Nat) (s s' : OptState) (ds ds' : List (Pos × Pos)) (hs : Permutes s.buttonMap)
    (h : O.randomize n (s, ds) = .ok (s', ds')) :
    Permutes s'.buttonMap ∧ s'.buttonMap.map Prod.fst = s.buttonMap.map Prod.fst :=
  ⟨(kept_permutes O).randomize n hs h, (kept_keys O _).randomize n rfl h⟩

/-- **C37** (the whole program): the map used for the result is a one-to-one map of the letter keys that are not
modifiers, in every layer, onto themselves. -/
theorem C37_result (x : OptArgs) (name : String) (layers : List Layer)
    (hx : x.layout = KeyboardLayout.mk' name layers x.keyboard) (hu : UnambiguousModifiers layers)
    (he : ∀ l, (x.enum l).Perm l) (ds : List (Pos × Pos)) (r : OptResult) (h : optimize x ds = .ok r) :
    Permutes r.buttonMap ∧ ∀ p : Pos, p ∈ r.buttonMap.map Prod.fst ↔ p.1 < layers.length ∧
      ∃ k ∈ x.keyboard.keys, k.i = p.2 ∧ k.kind = .letter ∧ ∀ l ∈ layers, [p.2] ∉ l.modifier := by
  obtain ⟨h1, h2, _⟩ := optimize_result hx hu he h
  refine ⟨h1, fun p => ?_⟩
  have hm : x.layout.isModifier [p.2] = false ↔ ∀ l ∈ layers, [p.2] ∉ l.modifier := by
    have hok : ∀ v, x.layout.modToLayer.get? [p.2] = some v ↔ layers[v.1]? = some v.2 ∧ [p.2] ∈ v.2.modifier := by
      intro v
      rw [hx, ← modifierToLayer_ok (name := name) (kb := x.keyboard) hu]
      simp only [KeyboardLayout.modifierToLayer, Dict.getItem_eq_ok]
    unfold KeyboardLayout.isModifier Dict.contains
    rw [Option.isSome_eq_false_iff, Option.isNone_iff_eq_none]
    constructor
    · intro hn l hl hmem
      obtain ⟨i, hi, rfl⟩ := List.mem_iff_getElem.1 hl
      have := (hok (i, layers[i])).2 ⟨List.getElem?_eq_getElem hi, hmem⟩
      rw [hn] at this
      simp at this
    · intro hall
      cases hg : x.layout.modToLayer.get? [p.2] with
      | none => rfl
      | some v =>
        obtain ⟨a, b⟩ := (hok v).1 hg
        exact absurd b (hall v.2 (List.mem_of_getElem? a))
  rw [h2, identityMap_keys, mem_mutableButtons, hm]
  rw [hx]
  rfl

example : optArgs.layout = KeyboardLayout.mk' "demo" optLayers optArgs.keyboard ∧ (∀ l, (optArgs.enum l).Perm l) ∧
    ∃ r, optimize optArgs optDraws = .ok r ∧ r.buttonMap.get? (0, 0) = some (0, 1) :=
  ⟨rfl, fun l => List.Perm.refl l, _, optArgs_run, by decide +kernel⟩

/-! ### C38 -/

/-- **C38** (buttons): what a pinned position is mapped to never changes. -/
theorem C38_pinned_button (O : Optimizer) (accept : Nat → Rat → Bool) (n : Nat) (s : OptState) (ds ds' : List (Pos × Pos))
    (x : Anneal OptState) (p : Pos) (hp : (p.1, some p.2) ∈ O.pins)
    (h : Anneal.loop accept O.mutate (Anneal.start s, ds) n = .ok (x, ds')) :
    x.state.buttonMap.get? p = s.buttonMap.get? p ∧ x.best.1.buttonMap.get? p = s.buttonMap.get? p :=
  (kept_pin O p hp _).loop rfl h

/-- **C38** (layers): if that is so in the beginning, texts stay on their pinned layer and no text of another layer gets
there. -/
theorem C38_pinned_layer (O : Optimizer) (accept : Nat → Rat → Bool) (n : Nat) (s : OptState) (ds ds' : List (Pos × Pos))
    (x : Anneal OptState) (hs : Permutes s.buttonMap) (hl : LayersKept O.pins s.buttonMap)
    (h : Anneal.loop accept O.mutate (Anneal.start s, ds) n = .ok (x, ds')) :
    ∀ bm, bm = x.state.buttonMap ∨ bm = x.best.1.buttonMap →
      ∀ l, (l, none) ∈ O.pins → ∀ p q, bm.get? p = some q → (p.1 = l ↔ q.1 = l) := by
  have h1 := (kept_layers O).loop ⟨hs.1, hl⟩ h
  have h2 := (kept_permutes O).loop hs h
  have key : ∀ bm, Permutes bm → LayersKept O.pins bm →
      ∀ l, (l, none) ∈ O.pins → ∀ p q, bm.get? p = some q → (p.1 = l ↔ q.1 = l) := by
    intro bm hp hk l hpin p q hg
    have hm := Dict.mem_of_get? hg
    constructor
    · intro e
      have := hk (p, q) hm (by rw [e]; exact hpin)
      rw [← e]; exact this
    · exact layer_closed hp l (fun e he h => by rw [hk e he (by rw [h]; exact hpin), h]) (p, q) hm
  rintro bm (rfl | rfl)
  · exact key _ h2.1 h1.1.2
  · exact key _ h2.2 h1.2.2

/-- **C38** (randomization). -/
theorem C38_randomize (O : Optimizer) (n : Nat) (s s' : OptState) (ds ds' : List (Pos × Pos)) (hs : Permutes s.buttonMap)
    (h : O.randomize n (s, ds) = .ok (s', ds')) :
    (∀ p : Pos, (p.1, some p.2) ∈ O.pins → s'.buttonMap.get? p = s.buttonMap.get? p) ∧
      (LayersKept O.pins s.buttonMap → LayersKept O.pins s'.buttonMap) :=
  ⟨fun p hp => (kept_pin O p hp _).randomize n rfl h, fun hl => ((kept_layers O).randomize n ⟨hs.1, hl⟩ h).2⟩

/-- **C38** (patterns): a pin with a pattern means the buttons of the keyboard whose name matches, in the given layer. -/
theorem C38_pattern (t : InternTable) (kb : PhysicalKeyboard) (hn : Named t kb.keys) (fnmatch : String → String → Bool)
    (layer : Nat) (pattern : String) : ∃ ps, expandPin t kb fnmatch (layer, some pattern) = .ok ps ∧
      ∀ p, p ∈ ps ↔ ∃ b n, Called t kb n b ∧ fnmatch n pattern = true ∧ p = (layer, some b) := by
  obtain ⟨ns, hns⟩ : ∃ ns, (kb.keys.mapM fun k => t.nameOf k.i) = Except.ok ns := (mapM_exists_iff _ _).2 hn
  have hfa := (mapM_ok_iff _ _ _).1 hns
  refine ⟨_, by simp only [expandPin, hns, bind, Except.bind]; rfl, fun p => ?_⟩
  rw [if_neg (by omega)]
  simp only [List.mem_map, List.mem_filter, Int.toNat_natCast]
  have hz : ∀ k n, (k, n) ∈ kb.keys.zip ns → t.nameOf k.i = .ok n ∧ k ∈ kb.keys := by
    intro k n hz
    exact ⟨List.forall₂_zip hfa hz, (List.of_mem_zip hz).1⟩
  constructor
  · rintro ⟨⟨k, n⟩, ⟨h1, h2⟩, rfl⟩
    obtain ⟨h3, h4⟩ := hz k n h1
    exact ⟨k.i, n, ⟨⟨k, h4, rfl⟩, h3⟩, h2, rfl⟩
  · rintro ⟨b, n, ⟨⟨k, h4, rfl⟩, h3⟩, h2, rfl⟩
    obtain ⟨i, hi, rfl⟩ := List.mem_iff_getElem.1 h4
    have hi' : i < ns.length := by rw [← hfa.length_eq]; exact hi
    have h5 := (List.forall₂_iff_get.1 hfa).2 i hi hi'
    simp only [List.get_eq_getElem] at h5
    rw [h3] at h5
    simp only [Except.ok.injEq] at h5
    refine ⟨(kb.keys[i], ns[i]), ⟨?_, by rw [← h5]; exact h2⟩, rfl⟩
    rw [← List.getElem_zip (h := by rw [List.length_zip]; omega)]
    exact List.getElem_mem _

/-- **C38** (layers): a pin without pattern pins its layer, and a pin of a layer with a negative number nothing at all. -/
theorem C38_layer (t : InternTable) (kb : PhysicalKeyboard) (hn : Named t kb.keys) (fnmatch : String → String → Bool)
    (layer : Int) (pattern : Option String) : ∃ ps, expandPin t kb fnmatch (layer, pattern) = .ok ps ∧
      (∀ p ∈ ps, (p.1 : Int) = layer) ∧ (pattern = none → ∀ p, p ∈ ps ↔ (p.1 : Int) = layer ∧ p.2 = none) := by
  cases pattern with
  | none =>
    refine ⟨_, rfl, ?_⟩
    split_ifs with h
    · refine ⟨by simp, fun _ p => ⟨by simp, fun ⟨h1, _⟩ => by omega⟩⟩
    · have h' : ((layer.toNat : Nat) : Int) = layer := Int.toNat_of_nonneg (by omega)
      refine ⟨by simp [h'], fun _ p => ?_⟩
      obtain ⟨a, b⟩ := p
      simp only [List.mem_singleton, Prod.mk.injEq]
      constructor
      · rintro ⟨rfl, rfl⟩; exact ⟨h', rfl⟩
      · rintro ⟨h1, rfl⟩; exact ⟨by omega, rfl⟩
  | some m =>
    obtain ⟨ns, hns⟩ : ∃ ns, (kb.keys.mapM fun k => t.nameOf k.i) = Except.ok ns := (mapM_exists_iff _ _).2 hn
    refine ⟨_, by simp only [expandPin, hns, bind, Except.bind]; rfl, ?_, by simp⟩
    split_ifs with h
    · simp
    · intro p hp
      obtain ⟨_, _, rfl⟩ := List.mem_map.1 hp
      exact Int.toNat_of_nonneg (by omega)

example : expandPin optTable optKb (fun n p => n.startsWith p) (-1, none) = .ok [] ∧
    expandPin optTable optKb (fun n p => n.startsWith p) (-1, some "Bl") = .ok [] ∧
    expandPin optTable optKb (fun n p => n.startsWith p) (1, none) = .ok [(1, none)] := by decide +kernel

example : (1, none) ∈ [((1 : Nat), (none : Option Button))] ∧ LayersKept [(1, none)] (identityMap optLayout optKb) ∧
    Permutes (identityMap optLayout optKb) ∧
    expandPin optTable optKb (fun n p => n.startsWith p) (0, some "Bl") = .ok [(0, some 0), (0, some 1)] :=
  ⟨by simp, fun e he _ => by rw [(identityMap_entry he).1], identityMap_permutes _ _, by decide +kernel⟩

/-! ### C39 -/

/-- **C39**: after any sequence of mutations the effort kept is the effort of the changed layout, and a further mutation
returns the difference between the efforts after and before it. -/
theorem C39_incremental (bm : ButtonMap) (triads : List (Triad × Rat)) (name : String) (layers : List Layer)
    (kb : PhysicalKeyboard) (pins : List (Nat × Option Button)) (env : CarpalxEnv) (enum : List Nat → List Nat)
    (hu : UnambiguousModifiers layers) (he : ∀ l, (enum l).Perm l) (O : Optimizer) (s s0 s1 : OptState)
    (hi : Optimizer.init bm triads (KeyboardLayout.mk' name layers kb) pins env enum = .ok (O, s))
    (h0 : O.resetEnergy s = .ok s0) (h1 : Mutated O s0 s1) :
    EffortOf env layers s1.buttonMap triads s1.carpalx.effort ∧
      ∀ ds d s2 ds', O.mutate s1 ds = .ok (d, s2, ds') →
        EffortOf env layers s2.buttonMap triads (s1.carpalx.effort + d) := by
  obtain ⟨hI, hT, hL, _, _, rfl⟩ := init_indexed he hi
  have hex : Exact O s0 ∧ s0.carpalx.env = env := by
    refine ⟨exact_of_reset h0, ?_⟩
    obtain ⟨_, rfl⟩ := resetEnergy_ok.1 h0; rfl
  have h2 : Exact O s1 ∧ s1.carpalx.env = env := by
    induction h1 with
    | refl => exact hex
    | step _ hm ih =>
      obtain ⟨a, b, _⟩ := mutate_exact hI ih.1 hm
      exact ⟨a, by rw [b]; exact ih.2⟩
  have key : ∀ s, Exact O s → s.carpalx.env = env → EffortOf env layers s.buttonMap triads s.carpalx.effort := by
    intro s a b
    have := effortOf_exact hu hL a
    rwa [b, hT] at this
  refine ⟨key s1 h2.1 h2.2, fun ds d s2 ds' hm => ?_⟩
  obtain ⟨a, b, c⟩ := mutate_exact hI h2.1 hm
  have := key s2 a (by rw [b]; exact h2.2)
  rwa [c, add_sub_cancel]

/-- **C39** (meaning): layers, map and triads determine the effort. -/
theorem C39_unique (env : CarpalxEnv) (layers : List Layer) (hu : UnambiguousModifiers layers) (bm : ButtonMap)
    (triads : List (Triad × Rat)) (v w : Rat) (hv : EffortOf env layers bm triads v)
    (hw : EffortOf env layers bm triads w) : v = w := effortOf_unique hu hv hw

/-- A mutation on the demonstration objects. -/
example : ∃ O s s0 d s1, Optimizer.init (identityMap optLayout optKb) optArgs.triads optLayout [] optEnv id = .ok (O, s) ∧
    O.resetEnergy s = .ok s0 ∧ s0.carpalx.effort = 2000003 / 1000001 ∧
    O.mutate s0 [((0, 1), (0, 0))] = .ok (d, s1, []) ∧ d = -1000000 / 1000001 :=
  ⟨_, _, _, _, _, rfl, rfl, by decide +kernel, rfl, by decide +kernel⟩

/-! ### C40 -/

/-- **C40** (any mutation function, any acceptance): what is returned is a state visited, with its energy, none of the
states visited has a lower one, and the energy is not positive. -/
theorem C40_best {σ ρ : Type} (accept : Nat → Rat → Bool) (mutate : σ → ρ → Rnd (Rat × σ × ρ)) (n : Nat) (s0 : σ) (r0 : ρ)
    (x : Anneal σ) (r : ρ) (h : Anneal.loop accept mutate (Anneal.start s0, r0) n = .ok (x, r)) :
    (∃ k ≤ n, ∃ y ry, Anneal.loop accept mutate (Anneal.start s0, r0) k = .ok (y, ry) ∧
      x.best = (y.state, y.energy)) ∧
    (∀ k ≤ n, ∀ y ry, Anneal.loop accept mutate (Anneal.start s0, r0) k = .ok (y, ry) → x.best.2 ≤ y.energy) ∧
    x.best.2 ≤ 0 := by
  obtain ⟨h1, h2⟩ := loop_best n x r h
  exact ⟨h1, h2, h2 0 (Nat.zero_le _) (Anneal.start s0) r0 rfl⟩

/-- **C40** (energy): if mutations return the difference of an energy function, energies are relative to the initial
state: the returned one is that of the returned state. -/
theorem C40_energy {σ ρ : Type} (accept : Nat → Rat → Bool) (mutate : σ → ρ → Rnd (Rat × σ × ρ)) (E : σ → Rat)
    (hm : ∀ s r d s' r', mutate s r = .ok (d, s', r') → d = E s' - E s) (n : Nat) (s0 : σ) (r0 : ρ)
    (x : Anneal σ) (r : ρ) (h : Anneal.loop accept mutate (Anneal.start s0, r0) n = .ok (x, r)) :
    x.best.2 = E x.best.1 - E s0 ∧ x.energy = E x.state - E s0 ∧ E x.best.1 ≤ E s0 ∧ E x.best.1 ≤ E x.state := by
  obtain ⟨_, h2, _, h4, h5, h6⟩ := loop_inv (accept := accept) (mutate := mutate) (fun _ => True) E
    (fun s r d s' r' _ h => ⟨trivial, hm s r d s' r' h⟩) trivial r0 n x r h
  refine ⟨h4, h2, ?_, ?_⟩
  · rw [h4] at h6; linarith
  · rw [h4, h2] at h5; linarith

/-- **C40** (the progress shown): the largest energy shown is the largest of the proposed ones, or that of the initial
state. -/
theorem C40_largest {σ ρ : Type} (accept : Nat → Rat → Bool) (mutate : σ → ρ → Rnd (Rat × σ × ρ)) (n : Nat) (s0 : σ) (r0 : ρ)
    (x : Anneal σ) (r : ρ) (h : Anneal.loop accept mutate (Anneal.start s0, r0) n = .ok (x, r)) :
    0 ≤ x.energyMax ∧
    (∀ k < n, ∀ y ry d s rz, Anneal.loop accept mutate (Anneal.start s0, r0) k = .ok (y, ry) →
      mutate y.state ry = .ok (d, s, rz) → y.energy + d ≤ x.energyMax) ∧
    (x.energyMax = 0 ∨ ∃ k < n, ∃ y ry d s rz, Anneal.loop accept mutate (Anneal.start s0, r0) k = .ok (y, ry) ∧
      mutate y.state ry = .ok (d, s, rz) ∧ x.energyMax = y.energy + d) := by
  induction n generalizing x r with
  | zero =>
    simp only [Anneal.loop, Except.ok.injEq, Prod.mk.injEq] at h
    obtain ⟨rfl, rfl⟩ := h
    exact ⟨le_refl _, by omega, .inl rfl⟩
  | succ n ih =>
    obtain ⟨⟨y, ry⟩, h1, h2⟩ := loop_succ_ok.1 h
    obtain ⟨d, s, r', h3, h4⟩ := step_ok.1 h2
    obtain ⟨i1, i2, i3⟩ := ih y ry h1
    simp only [Prod.mk.injEq] at h4
    obtain ⟨hx', rfl⟩ := h4
    have hmax : x.energyMax = max (y.energy + d) y.energyMax := by
      rw [hx']
      unfold Anneal.judge
      simp only
      split_ifs <;> rfl
    rw [hmax]
    refine ⟨le_trans i1 (le_max_right _ _), ?_, ?_⟩
    · intro k hk z rz d' s' r' hz hm
      rcases Nat.lt_succ_iff_lt_or_eq.1 hk with hk | rfl
      · exact le_trans (i2 k hk z rz d' s' r' hz hm) (le_max_right _ _)
      · rw [h1] at hz
        simp only [Except.ok.injEq, Prod.mk.injEq] at hz
        obtain ⟨rfl, rfl⟩ := hz
        simp only at h3
        rw [h3] at hm
        simp only [Except.ok.injEq, Prod.mk.injEq] at hm
        rw [hm.1]
        exact le_max_left _ _
    · rcases max_choice (y.energy + d) y.energyMax with hc | hc <;> rw [hc]
      · exact .inr ⟨n, by omega, y, ry, d, s, r, h1, h3, rfl⟩
      · rcases i3 with i3 | ⟨k, hk, z, rz, d', s', r', hz⟩
        · exact .inl i3
        · exact .inr ⟨k, by omega, z, rz, d', s', r', hz⟩

/-- **C40** (steps): a step goes to the new state exactly if it is better or the change, relative to the largest change
seen, is below the threshold, which falls from 1 to a millionth; otherwise it stays. -/
theorem C40_step {σ ρ : Type} (mutate : σ → ρ → Rnd (Rat × σ × ρ)) (steps n : Nat) (hn : n < steps) (s0 : σ) (r0 : ρ)
    (x y : Anneal σ) (r ry : ρ)
    (hx : Anneal.loop (Anneal.acceptable steps) mutate (Anneal.start s0, r0) n = .ok (x, r))
    (hy : Anneal.loop (Anneal.acceptable steps) mutate (Anneal.start s0, r0) (n + 1) = .ok (y, ry)) :
    ∃ d s, mutate x.state r = .ok (d, s, ry) ∧
      (∀ k ≤ n, ∀ z rz d' s' r', Anneal.loop (Anneal.acceptable steps) mutate (Anneal.start s0, r0) k = .ok (z, rz) →
        mutate z.state rz = .ok (d', s', r') → |d'| ≤ y.energyDiffMax) ∧
      ((d < 0 ∨ (y.energyDiffMax ≠ 0 ∧
          ((|d| / y.energyDiffMax : Rat) : ℝ) < (10 : ℝ) ^ (-((n : ℝ) / (steps : ℝ) * 6)))) →
        y.state = s ∧ y.energy = x.energy + d) ∧
      (¬ (d < 0 ∨ (y.energyDiffMax ≠ 0 ∧
          ((|d| / y.energyDiffMax : Rat) : ℝ) < (10 : ℝ) ^ (-((n : ℝ) / (steps : ℝ) * 6)))) →
        y.state = x.state ∧ y.energy = x.energy) := by
  obtain ⟨x', hx', hstep⟩ := loop_succ_ok.1 hy
  rw [hx] at hx'
  simp only [Except.ok.injEq] at hx'
  subst hx'
  obtain ⟨d, s, r', hm, hz⟩ := step_ok.1 hstep
  simp only [Prod.mk.injEq] at hz
  obtain ⟨rfl, rfl⟩ := hz
  have hmax := (loop_diffMax (n + 1) _ _ hy).1
  refine ⟨d, s, hm, fun k hk z rz d' s' r' h1 h2 => hmax k (by omega) z rz d' s' r' h1 h2, ?_⟩
  have hdm : (Anneal.judge (Anneal.acceptable steps n) x s d).energyDiffMax = max |d| x.energyDiffMax := by
    simp only [Anneal.judge]; split_ifs <;> rfl
  rw [hdm]
  have hnn : 0 ≤ max |d| x.energyDiffMax := le_trans (abs_nonneg d) (le_max_left _ _)
  have hacc : Anneal.acceptable steps n (Anneal.relDiff |d| (max |d| x.energyDiffMax)) = true ↔
      max |d| x.energyDiffMax ≠ 0 ∧
        ((|d| / max |d| x.energyDiffMax : Rat) : ℝ) < (10 : ℝ) ^ (-((n : ℝ) / (steps : ℝ) * 6)) := by
    unfold Anneal.relDiff
    by_cases h0 : max |d| x.energyDiffMax = 0
    · rw [if_neg (not_not.2 h0), acceptable_iff (by omega) zero_le_one]
      simp only [h0, ne_eq, not_true_eq_false, false_and, iff_false, not_lt, Rat.cast_one]
      apply Real.rpow_le_one_of_one_le_of_nonpos (by norm_num)
      rw [neg_nonpos]
      positivity
    · rw [if_pos h0, acceptable_iff (by omega) (div_nonneg (abs_nonneg _) hnn)]
      simp [h0]
  have hor : (d < 0 ∨ Anneal.acceptable steps n (Anneal.relDiff |d| (max |d| x.energyDiffMax)) = true) ↔
      (d < 0 ∨ (max |d| x.energyDiffMax ≠ 0 ∧
        ((|d| / max |d| x.energyDiffMax : Rat) : ℝ) < (10 : ℝ) ^ (-((n : ℝ) / (steps : ℝ) * 6)))) := or_congr Iff.rfl hacc
  constructor
  · intro hc
    simp only [Anneal.judge]
    rw [if_pos (hor.2 hc)]
    exact ⟨rfl, rfl⟩
  · intro hc
    simp only [Anneal.judge]
    rw [if_neg (fun h => hc (hor.1 h))]
    exact ⟨rfl, rfl⟩

/-- A walk on the integers with energy `s²` and given moves: the best state is neither the first nor the last. -/
example : (Anneal.loop (Anneal.acceptable 3) (fun (s : Int) (r : List Int) => match r with
      | [] => .error .drawing
      | d :: r => .ok (mkRat ((s + d) * (s + d) - s * s) 1, s + d, r)) (Anneal.start 1000, [-1000, 1, 50]) 3).toOption.map
    (fun x => (x.1.best, x.1.state)) = some ((0, -1000000), 1) := by decide +kernel

/-! ### C41 -/

/-- **C41**: the layout written has as many layers and the modifiers of the input layout, and has a text exactly where
the map sends a position with that text. -/
theorem C41_emitted (names : List String) (name : String) (layers : List Layer) (kb : PhysicalKeyboard) (bm : ButtonMap)
    (hn : Named (tableAfter names) kb.keys) (hu : UnambiguousModifiers layers) (hr : Reachable layers)
    (hmod : ∀ l ∈ layers, ∀ m ∈ l.modifier, ∀ b ∈ m, b ∈ kb.keys.map Btn.i) (hp : Permutes bm) (ho : OnBoard layers kb bm) :
    ∃ gs, emit (tableAfter names) (KeyboardLayout.mk' name layers kb) kb bm = .ok ⟨name ++ "-new", gs⟩ ∧
      gs.length = layers.length ∧
      (∀ j n v, gTextAt gs j n = some v ↔ ∃ p : Pos, (p.1 < layers.length ∧ p.2 ∈ kb.keys.map Btn.i) ∧
        ∃ b, target bm p = (j, b) ∧ (tableAfter names).nameOf b = .ok n ∧ textAt layers p = some v) ∧
      ∀ (j : Nat) (l : Layer), layers[j]? = some l → ∃ g : GLayer, gs[j]? = some g ∧
        List.Forall₂ (fun m ns => List.Forall₂ (fun b n => (tableAfter names).nameOf b = .ok n) m ns) l.modifier g.modifier := by
  obtain ⟨gs, h1, h2, _, h4, h5⟩ := emit_spec (name := name) (represents_tableAfter names) hn hu hr (fun l hl m hm b hb => by
    obtain ⟨x, hx, rfl⟩ := List.mem_map.1 (hmod l hl m hm b hb)
    exact hn x hx) hp ho
  exact ⟨gs, h1, h2, h4, h5⟩

/-- **C41** (no collisions, none lost): different positions go to different positions, and every position is reached. -/
theorem C41_bijective (bm : ButtonMap) (hp : Permutes bm) : Function.Bijective (target bm) :=
  ⟨target_injective hp, target_surjective hp⟩

/-- `C41_usable` for every table. -/
theorem emit_usable {t : InternTable} {ns : List String} (ht : Represents t ns) (name : String) (layers : List Layer) (kb : PhysicalKeyboard) (bm : ButtonMap)
    (hn : Named t kb.keys) (hu : UnambiguousModifiers layers) (hr : Reachable layers)
    (hmod : ∀ l ∈ layers, ∀ m ∈ l.modifier, FSet.WF m ∧ ∀ b ∈ m, b ∈ kb.keys.map Btn.i)
    (hp : Permutes bm) (ho : OnBoard layers kb bm) :
    ∃ d ls, emit t (KeyboardLayout.mk' name layers kb) kb bm = .ok d ∧
      (GenericLayout.deserialize d).specialize t kb = .ok (KeyboardLayout.mk' d.name ls kb) ∧
      ls.map Layer.modifier = layers.map Layer.modifier ∧
      (∀ p : Pos, p.1 < layers.length → p.2 ∈ kb.keys.map Btn.i → textAt ls (target bm p) = textAt layers p) ∧
      (∀ q v, textAt ls q = some v → ∃ p : Pos, target bm p = q ∧ textAt layers p = some v) ∧
      ∀ c c', Moves layers bm c c' → ∀ v,
        (KeyboardLayout.mk' d.name ls kb).getText c' = .ok v ↔ (KeyboardLayout.mk' name layers kb).getText c = .ok v := by
  obtain ⟨d, ls, h1, h2, h3, h4, h5⟩ := emit_specialize (name := name) ht hn hu hr hmod hp ho
  have hlen : ls.length = layers.length := by have := congrArg List.length h3; simpa using this
  have hu' : UnambiguousModifiers ls := by
    intro i j hi hj m hm1 hm2
    have e : ∀ k (hk : k < ls.length), (ls[k]).modifier = (layers[k]'(by omega)).modifier := by
      intro k hk
      have := congrArg (fun l => l[k]?) h3
      simp only [List.getElem?_map, List.getElem?_eq_getElem hk, List.getElem?_eq_getElem (show k < layers.length by omega),
        Option.map_some, Option.some.injEq] at this
      exact this
    rw [e] at hm1 hm2
    exact hu i j (by omega) (by omega) m hm1 hm2
  refine ⟨d, ls, h1, h2, h3, fun p a b => h4 p ⟨a, b⟩, fun q v hq => ?_, fun c c' hmv v => ?_⟩
  · obtain ⟨p, rfl⟩ := target_surjective hp q
    have hv := (target_valid hp ho).1 (h5 _ _ hq)
    exact ⟨p, rfl, by rw [← h4 p hv]; exact hq⟩
  · obtain ⟨i, l, b, j, l', b', a1, a2, a3, a4, a5, a6, a7⟩ := moved_text h3 h4 ho hmv
    have key : ∀ {nm : String} {ly : List Layer} (_ : UnambiguousModifiers ly) (k : Nat) (y : Layer) (c : Comb) (bb : Button),
        ly[k]? = some y → c.modifier ∈ y.modifier → c.buttons = [bb] → ((KeyboardLayout.mk' nm ly kb).getText c = .ok v ↔
          y.layout.get? bb = some v) := by
      intro nm ly hul k y c bb hk hm hb
      have h6 : (KeyboardLayout.mk' nm ly kb).modifierToLayer c.modifier = .ok (k, y) := (modifierToLayer_ok hul).2 ⟨hk, hm⟩
      simp only [KeyboardLayout.getText, h6, bind, Except.bind, hb, first, Dict.getItem_eq_ok]
    rw [key hu' j l' c' b' a4 a5 a6, key hu i l c b a1 a2 a3, a7]

/-- **C41** (usable): the layout written can be loaded and used with the keyboard. It has the modifiers of the original,
each text is where the map sends it and there is no other text. Typing a moved combination gives the text that typing the
combination gave on the original layout. -/
theorem C41_usable (names : List String) (name : String) (layers : List Layer) (kb : PhysicalKeyboard) (bm : ButtonMap)
    (hn : Named (tableAfter names) kb.keys) (hu : UnambiguousModifiers layers) (hr : Reachable layers)
    (hmod : ∀ l ∈ layers, ∀ m ∈ l.modifier, FSet.WF m ∧ ∀ b ∈ m, b ∈ kb.keys.map Btn.i)
    (hp : Permutes bm) (ho : OnBoard layers kb bm) :
    ∃ d ls, emit (tableAfter names) (KeyboardLayout.mk' name layers kb) kb bm = .ok d ∧
      (GenericLayout.deserialize d).specialize (tableAfter names) kb = .ok (KeyboardLayout.mk' d.name ls kb) ∧
      ls.map Layer.modifier = layers.map Layer.modifier ∧
      (∀ p : Pos, p.1 < layers.length → p.2 ∈ kb.keys.map Btn.i → textAt ls (target bm p) = textAt layers p) ∧
      (∀ q v, textAt ls q = some v → ∃ p : Pos, target bm p = q ∧ textAt layers p = some v) ∧
      ∀ c c', Moves layers bm c c' → ∀ v,
        (KeyboardLayout.mk' d.name ls kb).getText c' = .ok v ↔ (KeyboardLayout.mk' name layers kb).getText c = .ok v :=
  emit_usable (represents_tableAfter names) name layers kb bm hn hu hr hmod hp ho

example : optTable = tableAfter ["Bl1", "Bl2", "Br1", "Br2", "El_shift"] ∧ Named optTable optKb.keys ∧
    UnambiguousModifiers optLayers ∧ Reachable optLayers ∧
    (∀ l ∈ optLayers, ∀ m ∈ l.modifier, FSet.WF m ∧ ∀ b ∈ m, b ∈ optKb.keys.map Btn.i) ∧
    OnBoard optLayers optKb [((0, 0), (1, 1)), ((1, 1), (0, 0))] ∧ Permutes [((0, 0), (1, 1)), ((1, 1), (0, 0))] ∧
    emit optTable optLayout optKb [((0, 0), (1, 1)), ((1, 1), (0, 0))] = .ok ⟨"demo-new",
      [⟨[[]], [("Bl2", .str ['b']), ("Br1", .str ['c']), ("Br2", .str ['d'])]⟩,
        ⟨[["El_shift"]], [("Bl2", .str ['a']), ("Bl1", .str ['A']), ("Br1", .str ['C'])]⟩]⟩ := by
  refine ⟨rfl, optKb_named, optLayers_unambiguous, optLayers_reachable, ?_, ?_, ?_, by decide +kernel⟩
  · rw [optKb_keys]
    simp [optLayers, FSet.WF, optShift, demoBtn]
  · rw [OnBoard, optKb_keys]
    simp [optLayers, demoBtn]
  · exact ⟨by decide +kernel, List.Perm.swap _ _ _⟩

/-! ### C42 -/

/-- **C42** (false): the energy printed is not that of the layout printed. -/
theorem C42_false : ∃ (x : OptArgs) (layers : List Layer) (ds : List (Pos × Pos)) (r : OptResult) (v : Rat),
    x.layout = KeyboardLayout.mk' "demo" layers x.keyboard ∧ UnambiguousModifiers layers ∧ optimize x ds = .ok r ∧
      EffortOf x.env layers r.buttonMap (limitTriads x.triadLimit x.triads) v ∧ r.energy ≠ v := by
  obtain ⟨_, _, _, _, v, hv, hle, _⟩ := optimize_result (x := optArgs) (name := "demo") (layers := optLayers) rfl
    optLayers_unambiguous (fun l => List.Perm.refl l) optArgs_run
  refine ⟨optArgs, optLayers, optDraws, _, v, rfl, optLayers_unambiguous, optArgs_run, hv, ?_⟩
  intro he
  change (1000004 / 1000001 : Rat) = v at he
  have hu := optLayers_unambiguous
  have hex : ∃ s, (Optimizer.mk (limitTriads 0 optArgs.triads) optLayout [] [] [] id).resetEnergy
      ⟨⟨optEnv, 0, 0⟩, [((0, 0), (0, 1)), ((0, 1), (0, 0)), ((0, 2), (0, 2)), ((0, 3), (0, 3)),
        ((1, 0), (1, 0)), ((1, 1), (1, 1)), ((1, 2), (1, 2)), ((1, 3), (1, 3))]⟩ = .ok s ∧
      s.carpalx.effort = 1000003 / 1000001 := ⟨_, rfl, by decide +kernel⟩
  obtain ⟨s, hs, hse⟩ := hex
  have hs' := effortOf_exact (name := "demo") (kb := optKb) hu rfl (exact_of_reset hs)
  obtain ⟨_, rfl⟩ := resetEnergy_ok.1 hs
  have := effortOf_unique hu hv hs'
  rw [hse, ← he] at this
  norm_num at this

/-- **C42** (partial): it is never lower than that of the layout printed, and the latter is not higher than that of the
input layout, with the mutations asked for, if the layout is not randomized. -/
theorem C42_never_lower_partial (x : OptArgs) (name : String) (layers : List Layer)
    (hx : x.layout = KeyboardLayout.mk' name layers x.keyboard) (hu : UnambiguousModifiers layers)
    (he : ∀ l, (x.enum l).Perm l) (ds : List (Pos × Pos)) (r : OptResult) (h : optimize x ds = .ok r) :
    ∃ v, EffortOf x.env layers r.buttonMap (limitTriads x.triadLimit x.triads) v ∧ v ≤ r.energy ∧
      (x.randomize = false → ∀ bm w,
        applyMutations x.table x.keyboard x.mutations (identityMap x.layout x.keyboard) = .ok bm →
        EffortOf x.env layers bm (limitTriads x.triadLimit x.triads) w → v ≤ w) :=
  (optimize_result hx hu he h).2.2.2.2

/-- **C42** (partial): the energy printed is that of some one-to-one map, the one the run ended with; the plausibility
checks never fail. -/
theorem C42_checks_pass_partial (O : Optimizer) (x : OptArgs) (hI : Indexed O) (steps : Nat) (s : OptState)
    (hs : Permutes s.buttonMap) (ds ds' : List (Pos × Pos)) (y : Anneal OptState)
    (h : O.run steps s ds = .ok (y, ds')) :
    optimizeFinish x O y.state y.best.1 = (do
      let d ← emit x.table x.layout x.keyboard y.best.1.buttonMap
      .ok ⟨y.state.carpalx.effort, d, y.best.1.buttonMap⟩) := by
  obtain ⟨s0, h1, h2⟩ := run_ok.1 h
  obtain ⟨⟨e1, _⟩, _⟩ := run_energy hI (exact_of_reset h1) h2
  have hs0 : s0.buttonMap = s.buttonMap := by obtain ⟨_, rfl⟩ := resetEnergy_ok.1 h1; rfl
  exact finish_eq e1 ((kept_permutes O).loop (by rw [hs0]; exact hs) h2).2

example : ∃ O s y ds', optimizeSetup optArgs = .ok (O, s) ∧ O.run 2 s optDraws = .ok (y, ds') ∧ Indexed O := by
  obtain ⟨O, s, s1, ds1, y, ds', h1, ⟨h, _⟩ | ⟨_, rfl, rfl⟩, h2, _⟩ := optimize_ok optArgs_run
  · simp [optArgs] at h
  obtain ⟨_, _, _, _, h3, _⟩ := setup_ok (x := optArgs) (fun l => List.Perm.refl l) h1
  exact ⟨O, _, y, ds', h1, h2, h3⟩

/-! ### C43 -/

/-- **C43**: with the pairs drawn so far `mutate` has chosen one exactly if one of them is admissible, and then it is the
first; otherwise it draws on. -/
theorem C43_first_admissible (O : Optimizer) (bm : ButtonMap) (hne : O.allButtons ≠ [])
    (hk : O.allButtons = bm.map Prod.fst) (ds : List (Pos × Pos)) (hd : ∀ x ∈ ds, x.1 ∈ O.allButtons ∧ x.2 ∈ O.allButtons) :
    (∃ pre ab ds', ds = pre ++ ab :: ds' ∧ (∀ x ∈ pre, O.acceptMutation bm x.1 x.2 = .ok false) ∧
      O.acceptMutation bm ab.1 ab.2 = .ok true ∧ O.drawPair bm ds = .ok (ab, ds')) ∨
    ((∀ x ∈ ds, O.acceptMutation bm x.1 x.2 = .ok false) ∧ O.drawPair bm ds = .error .drawing) := by
  rcases drawPair_cases hne (bm := bm) (ds := ds) (by rw [hk] at hd; exact hd) with ⟨ab, ds', h⟩ | ⟨h, hall⟩
  · left
    obtain ⟨_, pre, h1, h2, h3⟩ := drawPair_ok h
    exact ⟨pre, ab, ds', h1, h2, h3, h⟩
  · exact .inr ⟨hall, h⟩

/-- **C43** (what is admissible): if the texts of pinned layers are on them, which stays so, two different positions that
are not pinned and are in the same layer or in layers that are not pinned. -/
theorem C43_admissible (O : Optimizer) (bm : ButtonMap) (hp : Permutes bm) (hl : LayersKept O.pins bm) (a b : Pos)
    (ha : a ∈ bm.map Prod.fst) (hb : b ∈ bm.map Prod.fst) :
    O.acceptMutation bm a b = .ok true ↔ Swappable O.pins a b := acceptMutation_swappable hp hl ha hb

/-- **C43** (no end): if no pair is admissible nothing that is drawn ends the loop. -/
theorem C43_never_returns (O : Optimizer) (s : OptState) (hne : O.allButtons ≠ [])
    (hk : O.allButtons = s.buttonMap.map Prod.fst) (hp : Permutes s.buttonMap) (hl : LayersKept O.pins s.buttonMap)
    (hno : ∀ a ∈ O.allButtons, ∀ b ∈ O.allButtons, ¬ Swappable O.pins a b)
    (ds : List (Pos × Pos)) (hd : ∀ x ∈ ds, x.1 ∈ O.allButtons ∧ x.2 ∈ O.allButtons) :
    O.mutate s ds = .error .drawing := by
  rcases C43_first_admissible O s.buttonMap hne hk ds hd with ⟨pre, ab, ds', rfl, _, h, _⟩ | ⟨_, h⟩
  · exfalso
    obtain ⟨h1, h2⟩ := hd ab (by simp)
    exact hno _ h1 _ h2 ((C43_admissible O s.buttonMap hp hl _ _ (by rw [← hk]; exact h1) (by rw [← hk]; exact h2)).1 h)
  · unfold Optimizer.mutate
    rw [h]

/-- **C43** (no buttons): without any button `random.choice` raises an exception. -/
theorem C43_no_buttons (O : Optimizer) (s : OptState) (h : O.allButtons = []) (ds : List (Pos × Pos)) :
    O.mutate s ds = .error (.raised .indexError) := by
  unfold Optimizer.mutate
  cases ds <;> simp [drawPair, h]

/-- **C43** (probability): of the equally likely sequences of `n` draws the fraction that does not end the loop is the
`n`th power of the fraction of pairs refused, -/
theorem C43_fraction (O : Optimizer) (bm : ButtonMap) (hne : O.allButtons ≠ []) (hk : O.allButtons = bm.map Prod.fst)
    (n : Nat) :
    (((Fintype.piFinset fun _ : Fin n => drawable O).filter fun f =>
        O.drawPair bm (List.ofFn f) = .error .drawing).card : ℝ) /
      ((Fintype.piFinset fun _ : Fin n => drawable O).card : ℝ) =
    (((refused O bm).card : ℝ) / ((drawable O).card : ℝ)) ^ n := by
  rw [drawing_card hne hk, Fintype.card_piFinset_const, Nat.cast_pow, Nat.cast_pow, div_pow]

/-- so that the loop ends with probability one if there is an admissible pair. -/
theorem C43_almost_surely (O : Optimizer) (bm : ButtonMap) (hne : O.allButtons ≠ []) (hk : O.allButtons = bm.map Prod.fst)
    (a b : Pos) (ha : a ∈ O.allButtons) (hb : b ∈ O.allButtons) (hab : O.acceptMutation bm a b = .ok true) :
    Tendsto (fun n => (((Fintype.piFinset fun _ : Fin n => drawable O).filter fun f =>
        O.drawPair bm (List.ofFn f) = .error .drawing).card : ℝ) /
      ((Fintype.piFinset fun _ : Fin n => drawable O).card : ℝ)) atTop (nhds 0) := by
  simp only [C43_fraction O bm hne hk]
  have hmem : (a, b) ∈ drawable O := by
    rw [drawable, Finset.mem_product, List.mem_toFinset, List.mem_toFinset]
    exact ⟨ha, hb⟩
  have hlt : (refused O bm).card < (drawable O).card := by
    apply Finset.card_lt_card
    refine ⟨Finset.filter_subset _ _, fun hsub => ?_⟩
    have := hsub hmem
    rw [refused, Finset.mem_filter] at this
    exact this.2 hab
  have hpos : (0 : ℝ) < (drawable O).card := by exact_mod_cast Nat.pos_of_ne_zero (by omega)
  apply tendsto_pow_atTop_nhds_zero_of_lt_one
  · positivity
  · rw [div_lt_one hpos]
    exact_mod_cast hlt

/-- Some pairs of the demonstration objects can be swapped with layer 1 pinned; with both keys pinned none can. -/
example : ∃ O s, optimizeSetup optArgs = .ok (O, s) ∧ O.allButtons.length = 8 ∧ O.allButtons = s.buttonMap.map Prod.fst ∧
    O.acceptMutation s.buttonMap (0, 0) (0, 1) = .ok true ∧ O.acceptMutation s.buttonMap (0, 0) (1, 1) = .ok false ∧
    ({ O with pins := [(0, some 0), (0, some 1), (0, some 2), (1, some 0), (1, some 1), (1, some 2), (1, some 3)] } :
      Optimizer).mutate s optDraws = .error .drawing :=
  ⟨_, _, rfl, by decide +kernel, rfl, by decide +kernel, by decide +kernel, by
    simp only [Optimizer.mutate]
    rw [show drawPair _ _ optDraws = .error .drawing by decide +kernel]⟩

/-! ### C44 -/

/-- **C44**: pins written as `layer` or `layer,pattern` and separated by `;` are read back. A pattern may have any
character except `;`. -/
theorem C44_roundtrip (u : UniNum) (hu : PlainNum u) (ps : List (Int × Option Text)) (hne : ps ≠ [])
    (hs : ∀ p ∈ ps, ∀ pat, p.2 = some pat → ';' ∉ pat) : parsePin u (writePins ps) = .ok ps :=
  parsePin_writePins hu hne hs

/-- **C44** (documentation): the syntax described in the documentation is rejected. -/
theorem C44_documented_rejected (u : UniNum) (hu : PlainNum u) (layer : Int) (c : Char) (cs : Text) (hc : c.isAlpha)
    (hs : ';' ∉ cs) : parsePin u (decimal layer ++ ';' :: c :: cs) = .error .valueError :=
  parsePin_documented hu layer hc hs

/-- **C44** (mutations): `layer,button:layer,button` is read back. -/
theorem C44_mutation_roundtrip (u : UniNum) (hu : PlainNum u) (m : (Int × Text) × (Int × Text))
    (h1 : ',' ∉ m.1.2 ∧ ':' ∉ m.1.2) (h2 : ',' ∉ m.2.2 ∧ ':' ∉ m.2.2) : parseMutation u (writeMutation m) = .ok m :=
  parseMutation_write hu m h1 h2

/-- Digits and white space of ASCII. -/
def asciiNum : UniNum where
  space c := c = ' ' || c = '\t' || c = '\n'
  digit c := if c.isDigit then some (c.toNat - 48) else none

example : PlainNum asciiNum where
  digit c hc := by
    refine ⟨by simp [asciiNum, hc], ?_⟩
    simp only [asciiNum, Bool.or_eq_false_iff, decide_eq_false_iff_not]
    refine ⟨⟨?_, ?_⟩, ?_⟩ <;> rintro rfl <;> simp [Char.isDigit] at hc
  letter c hc := by
    constructor
    · simp only [asciiNum, ite_eq_right_iff, reduceCtorEq, imp_false]
      intro h
      simp only [Char.isDigit, Char.isAlpha, Char.isUpper, Char.isLower, Bool.and_eq_true, Bool.or_eq_true,
        decide_eq_true_eq] at h hc
      have h2 : c.val.toNat ≤ 57 := UInt32.le_iff_toNat_le.1 h.2
      rcases hc with hc | hc
      · have : 65 ≤ c.val.toNat := UInt32.le_iff_toNat_le.1 hc.1
        omega
      · have : 97 ≤ c.val.toNat := UInt32.le_iff_toNat_le.1 hc.1
        omega
    · simp only [asciiNum, Bool.or_eq_false_iff, decide_eq_false_iff_not]
      refine ⟨⟨?_, ?_⟩, ?_⟩ <;> rintro rfl <;> simp [Char.isAlpha, Char.isUpper, Char.isLower] at hc
  minus := by decide

example : parsePin asciiNum "0;12,B*;-1,a,b".toList = .ok [(0, none), (12, some ['B', '*']), (-1, some ['a', ',', 'b'])] ∧
    parsePin asciiNum "1;Bl1".toList = .error .valueError ∧ parsePin asciiNum " +1_0 ".toList = .ok [(10, none)] ∧
    parsePin asciiNum "1__0".toList = .error .valueError ∧ parsePin asciiNum [] = .error .valueError ∧
    parseMutation asciiNum "0,Bl1:1,Cr2".toList = .ok ((0, "Bl1".toList), (1, "Cr2".toList)) ∧
    parseMutation asciiNum "0,Bl1".toList = .error .valueError := by
  refine ⟨?_, ?_, ?_, ?_, ?_, ?_, ?_⟩ <;> decide +kernel

end Lulua.Props
