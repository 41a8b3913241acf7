import Verif.Proofs.OptimizeRun

/-!
# Proofs about runs of the optimizer that raise no exception
-/

namespace Lulua
open Spec Optimizer

theorem isModifier_false_iff {name : String} {layers : List Layer} {kb : PhysicalKeyboard}
    (hu : UnambiguousModifiers layers) {m : FSet} :
    (KeyboardLayout.mk' name layers kb).isModifier m = false ↔ ∀ l ∈ layers, m ∉ l.modifier := by
  have hok : ∀ v, (KeyboardLayout.mk' name layers kb).modToLayer.get? m = some v ↔
      layers[v.1]? = some v.2 ∧ m ∈ v.2.modifier := by
    intro v
    rw [← modifierToLayer_ok (name := name) (kb := kb) hu]
    simp only [KeyboardLayout.modifierToLayer, Dict.getItem_eq_ok]
  unfold KeyboardLayout.isModifier Dict.contains
  rw [Option.isSome_eq_false_iff, Option.isNone_iff_eq_none]
  constructor
  · intro hn l hl hmem
    obtain ⟨i, hi, rfl⟩ := List.mem_iff_getElem.1 hl
    have := (hok (i, layers[i])).2 ⟨List.getElem?_eq_getElem hi, hmem⟩
    rw [hn] at this
    simp at this
  · intro hall
    cases hg : (KeyboardLayout.mk' name layers kb).modToLayer.get? m with
    | none => rfl
    | some v =>
      obtain ⟨a, b⟩ := (hok v).1 hg
      exact absurd b (hall v.2 (List.mem_of_getElem? a))

theorem identityMap_movable {name : String} {layers : List Layer} {kb : PhysicalKeyboard}
    (hu : UnambiguousModifiers layers) {p : Pos} :
    p ∈ (identityMap (KeyboardLayout.mk' name layers kb) kb).map Prod.fst ↔ Movable layers kb p := by
  rw [identityMap_keys, mem_mutableButtons]
  simp only [isModifier_false_iff hu]
  rfl

/-! ### Parts that do not raise -/

theorem removeAll_total {O : Optimizer} {bm : ButtonMap} {is : List Nat} {r : Rater}
    (h : ∀ i ∈ is, ∃ x, O.triads[i]? = some x ∧ Ok r.env O.layout bm x.1) :
    ∃ r', O.removeAll bm is r = .ok r' ∧ r'.env = r.env := by
  induction is generalizing r with
  | nil => exact ⟨r, rfl, rfl⟩
  | cons i is ih =>
    obtain ⟨x, h1, e, he⟩ := h i (by simp)
    obtain ⟨t', h2, h3⟩ := movedEffort_ok.1 he
    obtain ⟨r', h4, h5⟩ := ih (r := { r with absEffort := r.absEffort - x.2 * e, N := r.N - x.2 })
      (fun j hj => h j (by simp [hj]))
    refine ⟨r', ?_, h5⟩
    simp only [removeAll, bind_ok_iff, Rater.remove, Except.ok.injEq, listIndex_ok]
    exact ⟨x, h1, t', h2, _, ⟨e, h3, rfl⟩, h4⟩

theorem addAll_total {O : Optimizer} {bm : ButtonMap} {is : List Nat} {r : Rater}
    (h : ∀ i ∈ is, ∃ x, O.triads[i]? = some x ∧ Ok r.env O.layout bm x.1) :
    ∃ r', O.addAll bm is r = .ok r' ∧ r'.env = r.env := by
  induction is generalizing r with
  | nil => exact ⟨r, rfl, rfl⟩
  | cons i is ih =>
    obtain ⟨x, h1, e, he⟩ := h i (by simp)
    obtain ⟨t', h2, h3⟩ := movedEffort_ok.1 he
    obtain ⟨r', h4, h5⟩ := ih (r := { r with absEffort := r.absEffort + x.2 * e, N := r.N + x.2 })
      (fun j hj => h j (by simp [hj]))
    refine ⟨r', ?_, h5⟩
    simp only [addAll, bind_ok_iff, Rater.add, Except.ok.injEq, listIndex_ok]
    exact ⟨x, h1, t', h2, _, ⟨e, h3, rfl⟩, h4⟩

theorem swap_total {bm : ButtonMap} {a b : Pos} (ha : a ∈ bm.map Prod.fst) (hb : b ∈ bm.map Prod.fst) :
    ∃ bm', swap bm a b = .ok bm' := by
  obtain ⟨va, hva⟩ := Option.isSome_iff_exists.1 (Dict.get?_isSome_iff.2 ha)
  obtain ⟨vb, hvb⟩ := Option.isSome_iff_exists.1 (Dict.get?_isSome_iff.2 hb)
  exact ⟨_, swap_ok.2 ⟨va, vb, hva, hvb, rfl⟩⟩

/-- The optimizer can rate its triads wherever the buttons are. -/
structure AlwaysRated (O : Optimizer) (env : CarpalxEnv) : Prop where
  indexed : Indexed O
  some : O.allButtons ≠ []
  rated : ∀ bm, Permutes bm → bm.map Prod.fst = O.allButtons → ∀ x ∈ O.triads, Ok env O.layout bm x.1

/-- A state of such an optimizer. -/
structure StateOf (O : Optimizer) (env : CarpalxEnv) (s : OptState) : Prop where
  permutes : Permutes s.buttonMap
  keys : s.buttonMap.map Prod.fst = O.allButtons
  env : s.carpalx.env = env

theorem exchange_total {O : Optimizer} {env : CarpalxEnv} (hO : AlwaysRated O env) {s : OptState} (hs : StateOf O env s)
    {a b : Pos} (ha : a ∈ O.allButtons) (hb : b ∈ O.allButtons) :
    ∃ d s', O.exchange s a b = .ok (d, s') ∧ StateOf O env s' := by
  have haff : ∀ bm, Permutes bm → bm.map Prod.fst = O.allButtons →
      ∀ i ∈ O.affected a b, ∃ x, O.triads[i]? = some x ∧ Ok env O.layout bm x.1 := by
    intro bm h1 h2 i hi
    obtain ⟨x, h3, _⟩ := (mem_affected hO.indexed).1 hi
    exact ⟨x, h3, hO.rated bm h1 h2 x (List.mem_of_getElem? h3)⟩
  obtain ⟨r, h1, h2⟩ := removeAll_total (O := O) (bm := s.buttonMap) (is := O.affected a b) (r := s.carpalx)
    (by rw [hs.env]; exact haff _ hs.permutes hs.keys)
  obtain ⟨bm, h3⟩ := swap_total (bm := s.buttonMap) (by rw [hs.keys]; exact ha) (by rw [hs.keys]; exact hb)
  have hp := swap_permutes hs.permutes h3
  have hk : bm.map Prod.fst = O.allButtons := (swap_keys h3).trans hs.keys
  obtain ⟨r', h4, h5⟩ := addAll_total (O := O) (bm := bm) (is := O.affected a b) (r := r)
    (by rw [h2, hs.env]; exact haff _ hp hk)
  exact ⟨_, ⟨r', bm⟩, exchange_ok.2 ⟨r, h1, h3, h4, rfl⟩, hp, hk, by rw [h5, h2, hs.env]⟩

/-- Draws from the positions of the optimizer. -/
def DrawnFrom (O : Optimizer) (ds : List (Pos × Pos)) : Prop := ∀ x ∈ ds, x.1 ∈ O.allButtons ∧ x.2 ∈ O.allButtons

theorem drawPair_total {O : Optimizer} {env : CarpalxEnv} (hO : AlwaysRated O env) {s : OptState} (hs : StateOf O env s)
    {ds : List (Pos × Pos)} (hd : DrawnFrom O ds) :
    (∃ a b ds', O.drawPair s.buttonMap ds = .ok ((a, b), ds') ∧ a ∈ O.allButtons ∧ b ∈ O.allButtons ∧ DrawnFrom O ds') ∨
      O.drawPair s.buttonMap ds = .error .drawing := by
  rcases drawPair_cases hO.some (bm := s.buttonMap) (ds := ds) (by rw [hs.keys]; exact hd) with ⟨ab, ds', h⟩ | ⟨h, _⟩
  · obtain ⟨_, pre, h1, _⟩ := drawPair_ok h
    obtain ⟨h2, h3⟩ := hd ab (by rw [h1]; simp)
    exact .inl ⟨ab.1, ab.2, ds', h, h2, h3, fun x hx => hd x (by rw [h1]; simp [hx])⟩
  · exact .inr h

theorem mutate_total {O : Optimizer} {env : CarpalxEnv} (hO : AlwaysRated O env) {s : OptState} (hs : StateOf O env s)
    {ds : List (Pos × Pos)} (hd : DrawnFrom O ds) :
    (∃ d s' ds', O.mutate s ds = .ok (d, s', ds') ∧ StateOf O env s' ∧ DrawnFrom O ds') ∨ O.mutate s ds = .error .drawing := by
  unfold mutate
  rcases drawPair_total hO hs hd with ⟨a, b, ds', h, h1, h2, h3⟩ | h
  · obtain ⟨d, s', h4, h5⟩ := exchange_total hO hs h1 h2
    left
    simp only [h, h4]
    exact ⟨d, s', ds', rfl, h5, h3⟩
  · right; rw [h]

theorem randomize_total {O : Optimizer} {env : CarpalxEnv} (hO : AlwaysRated O env) (n : Nat) {s : OptState}
    (hs : StateOf O env s) {ds : List (Pos × Pos)} (hd : DrawnFrom O ds) :
    (∃ s' ds', O.randomize n (s, ds) = .ok (s', ds') ∧ StateOf O env s' ∧ DrawnFrom O ds') ∨
      O.randomize n (s, ds) = .error .drawing := by
  induction n generalizing s ds with
  | zero => exact .inl ⟨s, ds, rfl, hs, hd⟩
  | succ n ih =>
    unfold Optimizer.randomize Optimizer.mutateOnly
    rcases drawPair_total hO hs hd with ⟨a, b, ds', h, h1, h2, h3⟩ | h
    · obtain ⟨bm, h4⟩ := swap_total (bm := s.buttonMap) (by rw [hs.keys]; exact h1) (by rw [hs.keys]; exact h2)
      simp only [h, h4]
      exact ih (s := ⟨s.carpalx, bm⟩) ⟨swap_permutes hs.permutes h4, (swap_keys h4).trans hs.keys, hs.env⟩ h3
    · right; simp only [h]

theorem loop_total {O : Optimizer} {env : CarpalxEnv} (hO : AlwaysRated O env) (accept : Nat → Rat → Bool) (n : Nat)
    {s : OptState} (hs : StateOf O env s) {ds : List (Pos × Pos)} (hd : DrawnFrom O ds) :
    (∃ x ds', Anneal.loop accept O.mutate (Anneal.start s, ds) n = .ok (x, ds') ∧ StateOf O env x.state ∧ DrawnFrom O ds') ∨
      Anneal.loop accept O.mutate (Anneal.start s, ds) n = .error .drawing := by
  induction n with
  | zero => exact .inl ⟨_, ds, rfl, hs, hd⟩
  | succ n ih =>
    rw [Anneal.loop]
    rcases ih with ⟨x, ds1, h, h1, h2⟩ | h
    · rw [h]
      simp only [Anneal.step]
      rcases mutate_total hO h1 h2 with ⟨d, s', ds', h3, h4, h5⟩ | h3
      · left
        simp only [h3]
        refine ⟨_, ds', rfl, ?_, h5⟩
        unfold Anneal.judge
        simp only
        split_ifs
        · exact h4
        · exact h4
        · exact h1
      · right; simp only [h3]
    · right; rw [h]

theorem run_total {O : Optimizer} {env : CarpalxEnv} (hO : AlwaysRated O env) (steps : Nat) {s : OptState}
    (hs : StateOf O env s) {ds : List (Pos × Pos)} (hd : DrawnFrom O ds) :
    (∃ y ds', O.run steps s ds = .ok (y, ds')) ∨ O.run steps s ds = .error .drawing := by
  obtain ⟨s0, h0⟩ : ∃ s0, O.resetEnergy s = .ok s0 :=
    ⟨_, resetEnergy_ok.2 ⟨by rw [hs.env]; exact hO.rated _ hs.permutes hs.keys, rfl⟩⟩
  have hs0 : StateOf O env s0 := by
    obtain ⟨_, rfl⟩ := resetEnergy_ok.1 h0
    exact ⟨hs.permutes, hs.keys, hs.env⟩
  unfold Optimizer.run Anneal.run
  rw [h0]
  rcases loop_total hO (Anneal.acceptable steps) steps hs0 hd with ⟨x, ds', h, _⟩ | h
  · exact .inl ⟨x, ds', h⟩
  · exact .inr h

/-! ### Moved triads can be rated -/

theorem moves_movable {layers : List Layer} {kb : PhysicalKeyboard} (hr : Reachable layers) {bm : ButtonMap}
    (hp : Permutes bm) (hk : ∀ p, p ∈ bm.map Prod.fst ↔ Movable layers kb p) {c : Comb} (hc : AtMovable layers kb c) :
    ∃ j l m b, layers[j]? = some l ∧ m ∈ l.modifier ∧ Movable layers kb (j, b) ∧ Moves layers bm c ⟨m, [b]⟩ := by
  obtain ⟨i, l, b, h1, h2, h3, h4⟩ := hc
  obtain ⟨⟨j, b'⟩, hq⟩ := Option.isSome_iff_exists.1 (Dict.get?_isSome_iff.2 ((hk _).2 h4))
  have hm : Movable layers kb (j, b') := by
    rw [← hk, ← hp.2.mem_iff]
    exact List.mem_map.2 ⟨_, Dict.mem_of_get? hq, rfl⟩
  obtain ⟨l', hl'⟩ : ∃ l', layers[j]? = some l' := ⟨_, List.getElem?_eq_getElem hm.1⟩
  obtain ⟨m, ms, hms⟩ := List.exists_cons_of_ne_nil (hr l' (List.mem_of_getElem? hl'))
  exact ⟨j, l', m, b', hl', by rw [hms]; simp, hm, i, l, b, j, l', b', m, h1, h2, h3, hq, hl', by rw [hms]; rfl, rfl⟩

theorem movable_ok {name : String} {layers : List Layer} {kb : PhysicalKeyboard} {env : CarpalxEnv}
    (hu : UnambiguousModifiers layers) (hr : Reachable layers)
    (hl : ∀ p, Movable layers kb p → Rateable env p.2) (hm : ∀ l ∈ layers, ∀ m ∈ l.modifier, ∀ b ∈ m, Rateable env b)
    {bm : ButtonMap} (hp : Permutes bm) (hk : ∀ p, p ∈ bm.map Prod.fst ↔ Movable layers kb p) {t : Triad}
    (h1 : AtMovable layers kb t.1) (h2 : AtMovable layers kb t.2.1) (h3 : AtMovable layers kb t.2.2) :
    Ok env (KeyboardLayout.mk' name layers kb) bm t := by
  have key : ∀ c, AtMovable layers kb c → ∃ c', Moves layers bm c c' ∧ c'.iter ≠ [] ∧ ∀ b ∈ c'.iter, Rateable env b := by
    intro c hc
    obtain ⟨j, l, m, b, a1, a2, a3, a4⟩ := moves_movable hr hp hk hc
    refine ⟨_, a4, by simp [Comb.iter], fun b' hb' => ?_⟩
    simp only [Comb.iter, List.mem_append, List.mem_singleton] at hb'
    rcases hb' with hb' | rfl
    · exact hm l (List.mem_of_getElem? a1) m a2 b' hb'
    · exact hl _ a3
  obtain ⟨a, a1, a2, a3⟩ := key _ h1
  obtain ⟨b, b1, b2, b3⟩ := key _ h2
  obtain ⟨c, c1, c2, c3⟩ := key _ h3
  obtain ⟨e, he⟩ := (triadEffort_ok_iff (e := env) (t := (a, b, c))).2 ⟨⟨a2, b2, c2⟩, by
    rintro x (hx | hx | hx)
    · exact a3 x hx
    · exact b3 x hx
    · exact c3 x hx⟩
  exact ⟨e, movedEffort_ok.2 ⟨(a, b, c), (mapTriad_iff hu).2 ⟨a1, b1, c1⟩, he⟩⟩

/-! ### Before the run -/

theorem noteTriads_total {L : KeyboardLayout} {i : Nat} {ts : List (Triad × Rat)} {d : Dict Pos (List Nat)}
    (h : ∀ x ∈ ts, (∃ p, combPos L x.1.1 = .ok p) ∧ (∃ p, combPos L x.1.2.1 = .ok p) ∧ ∃ p, combPos L x.1.2.2 = .ok p) :
    ∃ d', noteTriads L i ts d = .ok d' := by
  induction ts generalizing i d with
  | nil => exact ⟨d, rfl⟩
  | cons x ts ih =>
    obtain ⟨t, v⟩ := x
    obtain ⟨⟨p, hp⟩, ⟨q, hq⟩, ⟨r, hr⟩⟩ := h (t, v) (by simp)
    simp only at hp hq hr
    simp only [noteTriads, noteComb, hp, hq, hr, bind, Except.bind]
    exact ih fun x hx => h x (by simp [hx])

theorem expandPin_total {t : InternTable} {kb : PhysicalKeyboard} (hn : Named t kb.keys) (fnmatch : String → String → Bool)
    (p : Int × Option String) : ∃ ps, expandPin t kb fnmatch p = .ok ps := by
  obtain ⟨l, m⟩ := p
  cases m with
  | none => exact ⟨_, rfl⟩
  | some m =>
    obtain ⟨ns, hns⟩ : ∃ ns, (kb.keys.mapM fun k => t.nameOf k.i) = Except.ok ns := (mapM_exists_iff _ _).2 hn
    simp only [expandPin, hns, bind, Except.bind]
    exact ⟨_, rfl⟩

theorem applyMutations_total {t : InternTable} {ns : List String} (hr : Represents t ns) {kb : PhysicalKeyboard}
    (hn : Named t kb.keys) {ms : List ((Int × String) × (Int × String))} {bm : ButtonMap}
    (h : ∀ m ∈ ms, ∀ x, x = m.1 ∨ x = m.2 → ∃ i : Nat, ∃ b, x.1 = i ∧ Called t kb x.2 b ∧ (i, b) ∈ bm.map Prod.fst) :
    ∃ bm', applyMutations t kb ms bm = .ok bm' := by
  induction ms generalizing bm with
  | nil => exact ⟨bm, rfl⟩
  | cons m ms ih =>
    obtain ⟨⟨i, a⟩, ⟨j, b⟩⟩ := m
    obtain ⟨i', a', rfl, h1, h2⟩ := h ((i, a), (j, b)) (by simp) (i, a) (.inl rfl)
    obtain ⟨j', b', rfl, h3, h4⟩ := h (((i' : Int), a), (j, b)) (by simp) (j, b) (.inr rfl)
    obtain ⟨x, hx, rfl⟩ := called_find hr hn h1
    obtain ⟨y, hy, rfl⟩ := called_find hr hn h3
    simp only at hx hy
    obtain ⟨bm', hs⟩ := swap_total h2 h4
    obtain ⟨bm'', hb⟩ := ih (bm := bm') (fun m hm x hx => by
      obtain ⟨i, b, c1, c2, c3⟩ := h m (by simp [hm]) x hx
      exact ⟨i, b, c1, c2, by rw [swap_keys hs]; exact c3⟩)
    refine ⟨bm'', ?_⟩
    have hno : ¬ ((i' : Int) < 0 ∨ (j' : Int) < 0) := by omega
    simp only [applyMutations, hx, hy, bind, Except.bind, if_neg hno, Int.toNat_natCast, hs]
    exact hb

theorem limitTriads_mem {n : Nat} {ts : List (Triad × Rat)} {x : Triad × Rat} (h : x ∈ limitTriads n ts) : x ∈ ts := by
  unfold limitTriads sortTriads at h
  split_ifs at h
  · exact (List.mem_insertionSort _).1 (List.mem_of_mem_take h)
  · exact (List.mem_insertionSort _).1 h

/-- A run on suitable arguments gives a result or waits for draws. -/
theorem optimize_total {x : OptArgs} {name : String} {layers : List Layer} {ns : List String}
    (hx : x.layout = KeyboardLayout.mk' name layers x.keyboard) (ht : Represents x.table ns)
    (hn : Named x.table x.keyboard.keys) (hu : UnambiguousModifiers layers) (hr : Reachable layers)
    (hmod : ∀ l ∈ layers, ∀ m ∈ l.modifier, FSet.WF m ∧ ∀ b ∈ m, b ∈ x.keyboard.keys.map Btn.i)
    (he : ∀ l, (x.enum l).Perm l) (hne : ∃ p, Movable layers x.keyboard p)
    (hl : ∀ p, Movable layers x.keyboard p → Rateable x.env p.2)
    (hm : ∀ l ∈ layers, ∀ m ∈ l.modifier, ∀ b ∈ m, Rateable x.env b)
    (hts : ∀ y ∈ x.triads, AtMovable layers x.keyboard y.1.1 ∧ AtMovable layers x.keyboard y.1.2.1 ∧
      AtMovable layers x.keyboard y.1.2.2)
    (hmu : ∀ m ∈ x.mutations, ∀ y, y = m.1 ∨ y = m.2 → ∃ i : Nat, ∃ b, y.1 = i ∧ Called x.table x.keyboard y.2 b ∧
      Movable layers x.keyboard (i, b))
    {ds : List (Pos × Pos)} (hd : ∀ y ∈ ds, Movable layers x.keyboard y.1 ∧ Movable layers x.keyboard y.2) :
    (∃ r, optimize x ds = .ok r) ∨ optimize x ds = .error .drawing := by
  have hkeys : ∀ p, p ∈ (identityMap x.layout x.keyboard).map Prod.fst ↔ Movable layers x.keyboard p := by
    intro p; rw [hx]; exact identityMap_movable hu
  obtain ⟨bm, hbm⟩ := applyMutations_total (bm := identityMap x.layout x.keyboard) ht hn (ms := x.mutations) (by
    intro m hm y hy
    obtain ⟨i, b, h1, h2, h3⟩ := hmu m hm y hy
    exact ⟨i, b, h1, h2, (hkeys _).2 h3⟩)
  obtain ⟨pins, hpins⟩ : ∃ pins, x.pin.mapM (expandPin x.table x.keyboard x.fnmatch) = .ok pins :=
    (mapM_exists_iff _ _).2 fun p _ => expandPin_total hn x.fnmatch p
  have hpos : ∀ c, AtMovable layers x.keyboard c → ∃ p, combPos x.layout c = .ok p := by
    rintro c ⟨i, l, b, h1, h2, h3, _⟩
    exact ⟨(i, b), combPos_ok.2 ⟨l, by rw [hx]; exact (modifierToLayer_ok hu).2 ⟨h1, h2⟩, h3⟩⟩
  obtain ⟨d, hd0⟩ := noteTriads_total (L := x.layout) (i := 0) (ts := limitTriads x.triadLimit x.triads) (d := [])
    (fun y hy => by
      obtain ⟨h1, h2, h3⟩ := hts y (limitTriads_mem hy)
      exact ⟨hpos _ h1, hpos _ h2, hpos _ h3⟩)
  obtain ⟨⟨O, s⟩, hset⟩ : ∃ y, optimizeSetup x = .ok y := by
    simp only [optimizeSetup, hbm, hpins, Optimizer.init, hd0, bind, Except.bind]
    exact ⟨_, rfl⟩
  obtain ⟨bm', pins', e1, _, hI, hT, hL, _, hA, rfl⟩ := setup_ok he hset
  rw [hbm] at e1
  obtain rfl := Except.ok.inj e1
  obtain ⟨hp, hk⟩ := applyMutations_kept (identityMap_permutes _ _) hbm
  have hall : ∀ p, p ∈ O.allButtons ↔ Movable layers x.keyboard p := by
    intro p; rw [hA, hk]; exact hkeys p
  have hO : AlwaysRated O x.env := by
    refine ⟨hI, ?_, ?_⟩
    · obtain ⟨p, hp⟩ := hne
      intro h
      have := (hall p).2 hp
      rw [h] at this
      simp at this
    · intro bm' h1 h2 y hy
      rw [hT] at hy
      obtain ⟨a, b, c⟩ := hts y (limitTriads_mem hy)
      rw [hL, hx]
      exact movable_ok hu hr hl hm h1 (fun p => by rw [h2]; exact hall p) a b c
  have hs : StateOf O x.env ⟨⟨x.env, 0, 0⟩, bm⟩ := ⟨hp, hA.symm, rfl⟩
  have hD : DrawnFrom O ds := fun y hy => ⟨(hall _).2 (hd y hy).1, (hall _).2 (hd y hy).2⟩
  have hrun : ∀ s ds, StateOf O x.env s → DrawnFrom O ds →
      (∃ r, (match O.run x.steps s ds with
        | .error e => .error e
        | .ok (y, _) => Rnd.lift (optimizeFinish x O y.state y.best.1) : Rnd OptResult) = .ok r) ∨
      (match O.run x.steps s ds with
        | .error e => .error e
        | .ok (y, _) => Rnd.lift (optimizeFinish x O y.state y.best.1) : Rnd OptResult) = .error .drawing := by
    intro s ds hs hD
    rcases run_total hO x.steps hs hD with ⟨y, ds', h⟩ | h
    · left
      rw [h]
      simp only
      obtain ⟨s0, h1, h2⟩ := run_ok.1 h
      have hs0 : s0.buttonMap = s.buttonMap := by obtain ⟨_, rfl⟩ := resetEnergy_ok.1 h1; rfl
      obtain ⟨⟨e1, _⟩, _⟩ := run_energy hI (exact_of_reset h1) h2
      have hpb := ((kept_permutes O).loop (by rw [hs0]; exact hs.permutes) h2).2
      have hkb := ((kept_keys O O.allButtons).loop (by rw [hs0]; exact hs.keys) h2).2
      rw [finish_eq e1 hpb]
      have hob : OnBoard layers x.keyboard y.best.1.buttonMap := by
        intro p hp
        rw [hkb, hall] at hp
        obtain ⟨h3, k, h4, h5, _⟩ := hp
        exact ⟨h3, List.mem_map.2 ⟨k, h4, h5⟩⟩
      obtain ⟨dd, _, h6, _⟩ := emit_specialize (name := name) ht hn hu hr hmod hpb hob
      rw [hx, h6]
      exact ⟨_, rfl⟩
    · right; rw [h]
  unfold optimize
  rw [hset]
  simp only
  split_ifs
  · rcases randomize_total hO (bm.length * 2) hs hD with ⟨s', ds', h, h1, h2⟩ | h
    · rw [h]
      exact hrun s' ds' h1 h2
    · right; rw [h]
  · exact hrun _ ds hs hD

end Lulua
