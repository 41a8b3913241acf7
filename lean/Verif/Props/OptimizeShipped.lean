import Verif.Proofs.OptimizeTotal
import Verif.Props.Layout
import Verif.Props.Optimize
import Verif.Props.Shipped

/-!
# C94–C96: optimizing measured layouts
-/

namespace Lulua.Props
open Lulua Spec Optimizer

/-! ### C94 -/

/-- The effort measured for triads, see `C33_mean`. -/
def Measured (env : CarpalxEnv) (triads : List (Triad × Rat)) (v : Rat) : Prop :=
  ∃ es : List Rat, List.Forall₂ (fun x e => env.triadEffort x.1 = .ok e) triads es ∧
    v = (List.zipWith (fun x e => x.2 * e) triads es).sum / (triads.map Prod.snd).sum

/-- Combinations with the first modifier of their layer. -/
def FirstModifier (layers : List Layer) (c : Comb) : Prop :=
  ∀ (i : Nat) (l : Layer), layers[i]? = some l → c.modifier ∈ l.modifier → l.modifier.head? = some c.modifier

/-- **C94** (partial: if every combination has the first modifier of its layer): for a layout not changed yet the energy
of the optimizer is the effort measured. -/
theorem C94_initial_partial (env : CarpalxEnv) (name : String) (layers : List Layer) (kb : PhysicalKeyboard)
    (hu : UnambiguousModifiers layers) (triads : List (Triad × Rat))
    (ht : ∀ x ∈ triads, ∀ c, c = x.1.1 ∨ c = x.1.2.1 ∨ c = x.1.2.2 → AtMovable layers kb c ∧ FirstModifier layers c)
    (v : Rat) : EffortOf env layers (identityMap (KeyboardLayout.mk' name layers kb) kb) triads v ↔ Measured env triads v := by
  have key : ∀ c, AtMovable layers kb c → FirstModifier layers c → ∀ c',
      Moves layers (identityMap (KeyboardLayout.mk' name layers kb) kb) c c' ↔ c' = c := by
    rintro ⟨m0, bs⟩ ⟨i, l, b, h1, h2, h3, h4⟩ hf c'
    simp only at h2 h3
    subst h3
    have hid : ∀ p q, (identityMap (KeyboardLayout.mk' name layers kb) kb).get? p = some q → q = p :=
      fun p q h => (identityMap_entry (Dict.mem_of_get? h)).1
    constructor
    · rintro ⟨i', l', b', j, l'', b'', m, g1, g2, g3, g4, g5, g6, rfl⟩
      have := hid _ _ g4
      simp only [Prod.mk.injEq] at this
      obtain ⟨rfl, rfl⟩ := this
      rw [g1] at g5
      obtain rfl := Option.some.inj g5
      have h5 := hf _ _ g1 g2
      rw [h5] at g6
      obtain rfl := Option.some.inj g6
      rw [show [b] = [b''] from g3]
    · rintro rfl
      obtain ⟨q, hq⟩ := Option.isSome_iff_exists.1 (Dict.get?_isSome_iff.2 ((identityMap_movable (name := name) hu).2 h4))
      have := hid _ _ hq
      subst this
      exact ⟨i, l, b, i, l, b, m0, h1, h2, rfl, hq, h1, hf i l h1 h2, rfl⟩
  have key2 : ∀ x ∈ triads, ∀ t', MovesTriad layers (identityMap (KeyboardLayout.mk' name layers kb) kb) x.1 t' ↔ t' = x.1 := by
    intro x hx t'
    unfold MovesTriad
    rw [key _ (ht x hx _ (.inl rfl)).1 (ht x hx _ (.inl rfl)).2, key _ (ht x hx _ (.inr (.inl rfl))).1
      (ht x hx _ (.inr (.inl rfl))).2, key _ (ht x hx _ (.inr (.inr rfl))).1 (ht x hx _ (.inr (.inr rfl))).2]
    simp only [Prod.ext_iff]
  have hes : ∀ es : List Rat,
      List.Forall₂ (fun (x : Triad × Rat) e => ∃ t', MovesTriad layers (identityMap (KeyboardLayout.mk' name layers kb) kb) x.1 t' ∧
        env.triadEffort t' = .ok e) triads es ↔ List.Forall₂ (fun (x : Triad × Rat) e => env.triadEffort x.1 = .ok e) triads es := by
    intro es
    clear ht
    induction triads generalizing es with
    | nil => cases es <;> simp
    | cons x ts ih =>
      cases es with
      | nil => simp
      | cons e es =>
        rw [List.forall₂_cons, List.forall₂_cons, ih (fun y hy => key2 y (by simp [hy]))]
        refine and_congr ?_ Iff.rfl
        constructor
        · rintro ⟨t', h1, h2⟩
          rw [(key2 x (by simp) t').1 h1] at h2
          exact h2
        · intro h
          exact ⟨x.1, (key2 x (by simp) x.1).2 rfl, h⟩
  unfold EffortOf Measured
  simp only [hes]

/-- Energies of both kinds for a text typed on a shipped layout. -/
def energies (p : ModelParams) (d : LayoutData) (text : Text) : Py (Rat × Rat) := do
  let (t, kb, L) ← loadFirst d
  let s ← triadsOfText t kb L text
  let ts := s.triads.map fun x => (x.1, (x.2 : Rat))
  let r ← rateAll L (identityMap L kb) ts ⟨shippedEnv p t kb, 0, 0⟩
  let r' ← ts.foldlM (fun r y => Rater.add r y.1 y.2) ⟨shippedEnv p t kb, 0, 0⟩
  .ok (r.effort, r'.effort)

/-- **C94** is false in general: three question marks on the shipped layout `ar-lulua` are typed with the right shift key,
the optimizer rates them as if typed with the left one. -/
theorem C94_false : ∃ a b, energies Data.mod01 Data.arLulua "؟؟؟".toList = .ok (a, b) ∧ a ≠ b :=
  ⟨791581330169643733133 / 31250000000000000000, 764906330169643733133 / 31250000000000000000,
    by decide +kernel, by decide +kernel⟩

/-- Both agree on a text that needs the first shift key. -/
example : ∃ a, energies Data.mod01 Data.arLulua "!!!".toList = .ok (a, a) :=
  ⟨70766944666704712527 / 2000000000000000000, by decide +kernel⟩

/-- Combinations that meet the hypotheses. -/
example : AtMovable optLayers optKb ⟨[4], [2]⟩ ∧ FirstModifier optLayers ⟨[4], [2]⟩ := by
  constructor
  · refine ⟨1, _, 2, rfl, by simp, rfl, by simp [optLayers], demoBtn 2, ?_, rfl, rfl, ?_⟩
    · rw [optKb_keys]; simp
    · simp [optLayers]
  · intro i l h1 h2
    have hl := List.mem_of_getElem? h1
    simp only [optLayers, List.mem_cons, List.not_mem_nil, or_false] at hl
    rcases hl with rfl | rfl
    · simp at h2
    · rfl

/-! ### C95 -/

/-- **C95** (general): if all letter keys and modifiers can be rated and every combination is a letter key with a modifier
of a layer, optimizing ends with a result or needs further draws: it raises no exception, whatever is pinned, drawn and
accepted. -/
theorem C95_no_exception (x : OptArgs) (names : List String) (name : String) (layers : List Layer)
    (hx : x.layout = KeyboardLayout.mk' name layers x.keyboard) (ht : x.table = tableAfter names)
    (hn : Named x.table x.keyboard.keys) (hu : UnambiguousModifiers layers) (hr : Reachable layers)
    (hmod : ∀ l ∈ layers, ∀ m ∈ l.modifier, FSet.WF m ∧ ∀ b ∈ m, b ∈ x.keyboard.keys.map Btn.i)
    (he : ∀ l, (x.enum l).Perm l) (hne : ∃ p, Movable layers x.keyboard p)
    (hl : ∀ p, Movable layers x.keyboard p → Rateable x.env p.2)
    (hm : ∀ l ∈ layers, ∀ m ∈ l.modifier, ∀ b ∈ m, Rateable x.env b)
    (hts : ∀ y ∈ x.triads, AtMovable layers x.keyboard y.1.1 ∧ AtMovable layers x.keyboard y.1.2.1 ∧
      AtMovable layers x.keyboard y.1.2.2)
    (hmu : ∀ m ∈ x.mutations, ∀ y, y = m.1 ∨ y = m.2 → ∃ i : Nat, ∃ b, y.1 = i ∧ Called x.table x.keyboard y.2 b ∧
      Movable layers x.keyboard (i, b))
    (ds : List (Pos × Pos)) (hd : ∀ y ∈ ds, Movable layers x.keyboard y.1 ∧ Movable layers x.keyboard y.2) :
    (∃ r, optimize x ds = .ok r) ∨ optimize x ds = .error .drawing :=
  optimize_total hx (by rw [ht]; exact represents_tableAfter names) hn hu hr hmod he hne hl hm hts hmu hd

/-- Every letter key is rated by both models. -/
theorem shipped_letters : (boardNames Data.ibmpc105).Nodup ∧
    ∀ p ∈ Data.models, ∀ n ∈ letterNames Data.ibmpc105, ratedName p Data.fingermap n = true := by
  have h : (decide (boardNames Data.ibmpc105).Nodup && Data.models.all fun p =>
    (letterNames Data.ibmpc105).all fun n => ratedName p Data.fingermap n) = true := by decide +kernel
  simp only [Bool.and_eq_true, decide_eq_true_eq, List.all_eq_true] at h
  exact h

/-- Texts are on letter keys that are not modifiers, unless they are ignored or a backspace. -/
theorem shipped_movable : ∀ d ∈ Data.layouts,
    (d = Data.nullLayout ∨ d.layout ≠ [] ∧ "Cl1" ∈ letterNames Data.ibmpc105 ∧
      ∀ g ∈ d.layout, ∀ m ∈ g.modifier, sameNames m ["Cl1"] = false) ∧
    ∀ g ∈ d.layout, ∀ e ∈ g.layout, e.1 ∈ ["Fl_space", "Fr_space", "CD_ret", "Cl_tab"] ∨
      (e.1 ∈ letterNames Data.ibmpc105 ∧ ∀ g' ∈ d.layout, ∀ m ∈ g'.modifier, sameNames m [e.1] = false) ∨
      ∀ x, e.2 = LVal.str x → '\x08' ∈ x := by
  have h : (Data.layouts.all fun d =>
      (decide (d = Data.nullLayout) || (!d.layout.isEmpty && decide ("Cl1" ∈ letterNames Data.ibmpc105) &&
        d.layout.all fun g => g.modifier.all fun m => !sameNames m ["Cl1"])) &&
      d.layout.all fun g => g.layout.all fun e =>
        decide (e.1 ∈ ["Fl_space", "Fr_space", "CD_ret", "Cl_tab"]) ||
        (decide (e.1 ∈ letterNames Data.ibmpc105) &&
          d.layout.all fun g' => g'.modifier.all fun m => !sameNames m [e.1]) ||
        match e.2 with | .str x => decide ('\x08' ∈ x) | .other _ => true) = true := by decide +kernel
  intro d hd
  have h := List.all_eq_true.1 h d hd
  simp only [List.all_eq_true, Bool.and_eq_true, Bool.or_eq_true, decide_eq_true_eq, Bool.not_eq_true',
    List.isEmpty_eq_false_iff] at h
  refine ⟨?_, fun g hg e he => ?_⟩
  · rcases h.1 with h1 | ⟨⟨h1, h2⟩, h3⟩
    · exact .inl h1
    · exact .inr ⟨h1, h2, h3⟩
  · rcases h.2 g hg e he with (h1 | h1) | h1
    · exact .inl h1
    · exact .inr (.inl h1)
    · refine .inr (.inr fun x hx => ?_)
      rw [hx] at h1
      simpa using h1

/-- Arguments of the optimizer made from statistics of a text. -/
def shippedArgs (p : ModelParams) (t : InternTable) (kb : PhysicalKeyboard) (L : KeyboardLayout) (s : TriadStats)
    (limit steps : Nat) (random : Bool) (pin : List (Int × Option String)) (fnmatch : String → String → Bool)
    (enum : List Nat → List Nat) : OptArgs :=
  { table := t, keyboard := kb, layout := L, env := shippedEnv p t kb, triads := s.triads.map fun x => (x.1, (x.2 : Rat))
    triadLimit := limit, steps := steps, randomize := random, pin := pin, mutations := [], fnmatch := fnmatch
    enum := enum }

/-- A letter key that is not a modifier of the file is one the optimizer may change. -/
theorem movable_of_name {t : InternTable} {kb : PhysicalKeyboard} {d : LayoutData} {ls : List Layer}
    (h2 : LoadedAs t kb Data.ibmpc105) (hg : goodLayout (boardNames Data.ibmpc105) d = true)
    (h4 : SpecializedAs t kb (boardNames Data.ibmpc105) d ls) {n : String} {b : Button} (hc : Called t kb n b)
    (hl : n ∈ letterNames Data.ibmpc105) (hm : ∀ g ∈ d.layout, ∀ m ∈ g.modifier, sameNames m [n] = false) {i : Nat}
    (hi : i < ls.length) : Movable ls kb (i, b) := by
  obtain ⟨⟨x, hx, rfl⟩, hn⟩ := hc
  refine ⟨hi, x, hx, rfl, (h2.letter shipped_letters.1 hx hn).2 hl, fun l hll hmem => ?_⟩
  obtain ⟨g, hg', ns, hns, hb⟩ := h4.modifier hll hmem
  have hsame : sameNames ns [n] = true := by
    simp only [sameNames, Bool.and_eq_true, List.all_eq_true, decide_eq_true_eq, List.mem_singleton, forall_eq]
    constructor
    · intro m hmn
      have hgood := hg
      simp only [goodLayout, Bool.and_eq_true, List.all_eq_true] at hgood
      obtain ⟨b', hb'⟩ := h2.called ((goodLayer_iff (hgood.1 g hg')).2.2.2 m (by
        simp only [layerNames, List.mem_append, List.mem_flatten]
        exact .inr ⟨ns, hns, hmn⟩))
      have : b' = x.i := by simpa using (hb b').2 ⟨m, hmn, hb'⟩
      subst this
      have := hb'.2
      rw [hn] at this
      exact (Except.ok.inj this).symm
    · obtain ⟨m, hmn, hcm⟩ := (hb x.i).1 (by simp)
      have := hcm.2
      rw [hn] at this
      rw [Except.ok.inj this]; exact hmn
  rw [hm g hg' ns hns] at hsame
  simp at hsame

/-- **C95** (partial: false for texts with backspaces and for the empty layout): the triads of every other text, typed on
any other shipped layout, can be collected, and optimizing the layout for them with either model raises no exception. -/
theorem C95_shipped_partial (p : ModelParams) (hp : p ∈ Data.models) (names : List String) (t : InternTable)
    (kb : PhysicalKeyboard) (d' : KeyboardData)
    (hk : PhysicalKeyboard.deserialize (tableAfter names) Data.ibmpc105 = .ok (t, kb, d'))
    (d : LayoutData) (hd : d ∈ Data.layouts) (hnull : d ≠ Data.nullLayout) (L : KeyboardLayout)
    (hL : (GenericLayout.deserialize d).specialize t kb = .ok L) (text : Text) (hb : '\x08' ∉ text)
    (limit steps : Nat) (random : Bool) (pin : List (Int × Option String)) (fnmatch : String → String → Bool)
    (enum : List Nat → List Nat) (he : ∀ l, (enum l).Perm l) :
    ∃ s, triadsOfText t kb L text = .ok s ∧
      ∀ ds : List (Pos × Pos), (∀ y ∈ ds, Movable L.layers kb y.1 ∧ Movable L.layers kb y.2) →
        (∃ r, optimize (shippedArgs p t kb L s limit steps random pin fnmatch enum) ds = .ok r) ∨
          optimize (shippedArgs p t kb L s limit steps random pin fnmatch enum) ds = .error .drawing := by
  have h2 := shipped_loaded hk
  have hg := shipped_good d hd
  obtain ⟨ls, h3, h4⟩ := load_layout h2 hg
  rw [hL] at h3
  simp only [Except.ok.injEq] at h3
  subst h3
  obtain ⟨ns, hr⟩ := h2.table
  obtain ⟨s0, hs0⟩ : ∃ s0, TriadStats.init t kb = .ok s0 := by
    unfold TriadStats.init
    rcases findAll_iff h2.named TriadStats.ignoredNames with ⟨⟨bs, h1⟩, _⟩ | ⟨_, n, h5, h6⟩
    · simp only [h1, bind, Except.bind]; exact ⟨_, rfl⟩
    · have hall : ∀ n ∈ TriadStats.ignoredNames, n ∈ boardNames Data.ibmpc105 := by decide +kernel
      exact absurd ((h2.mem n).1 (hall n h5)) h6
  obtain ⟨hs1, hs2, hs3⟩ := C18_ignored t kb s0 hs0
  obtain ⟨s, hs, _⟩ := C18_triads s0.ignored _ (typed_singleButtons (getHandFinger Data.fingermap t) d.name ls kb none text)
  have hs' : (typeText (getHandFinger Data.fingermap t) (KeyboardLayout.mk' d.name ls kb) none text).1.foldlM
      TriadStats.process s0 = .ok s := by
    have : s0 = ⟨[], [], s0.ignored⟩ := by rw [← hs1, ← hs2]
    rw [← hs, ← this]
  obtain ⟨hempty, hmovable⟩ := shipped_movable d hd
  have hparts : ∀ m c, Event.typed m c ∈
      (typeText (getHandFinger Data.fingermap t) (KeyboardLayout.mk' d.name ls kb) none text).1 →
      notOn s0.ignored c = true → AtMovable ls kb c := by
    intro m c hc hno
    obtain ⟨mo, b, rfl, l, hl, hm, hent⟩ := mem_producers.1 (typed_producer hc)
    have hmt : '\x08' ∉ m := by
      obtain ⟨post, hpost⟩ := C01_typing_prefix (getHandFinger Data.fingermap t) (KeyboardLayout.mk' d.name ls kb) none text
      intro hx
      apply hb
      rw [← hpost]
      obtain ⟨p1, p2, h5⟩ := List.append_of_mem hc
      rw [h5]
      simp [eventsText, eventText, hx]
    obtain ⟨i, hi, rfl⟩ := List.mem_iff_getElem.1 hl
    obtain ⟨g, hg', n, hcall, hn⟩ := h4.entry hl hent
    refine ⟨i, _, b, List.getElem?_eq_getElem hi, hm, rfl, ?_⟩
    rcases hmovable g hg' _ hn with h5 | ⟨h5, h6⟩ | h5
    · obtain ⟨j, hj, x, hx, hxi⟩ := forall2_mem_left hs3 h5
      have : x.i = b := hr.inj (find_called hx).2 hcall.2
      simp only [notOn, List.all_cons, List.all_nil, Bool.and_true, decide_eq_true_eq] at hno
      exact absurd (by rw [← this, hxi]; exact hj) hno
    · exact movable_of_name h2 hg h4 hcall h5 h6 hi
    · exact absurd (h5 m rfl) hmt
  have hkeys := triads_inv (AtMovable ls kb) _ s0 s hparts (by simp [hs1]) (by simp [hs2]) hs'
  refine ⟨s, by simp only [triadsOfText, hs0, bind, Except.bind]; exact hs', fun ds hds => ?_⟩
  obtain ⟨hrow, hrated⟩ := shipped_rated p hp
  refine optimize_total (x := shippedArgs p t kb (KeyboardLayout.mk' d.name ls kb) s limit steps random pin fnmatch enum)
    (name := d.name) (layers := ls) rfl hr h2.named (h4.unambiguous hg (fun n hn => h2.called hn)) (h4.reachable hg)
    ?_ he ?_ ?_ ?_ ?_ (by simp [shippedArgs]) hds
  · intro l hl m hm
    obtain ⟨g, hg', ht⟩ := forall2_mem_right h4.layers hl
    obtain ⟨mn, hmn, hwf, hb⟩ := forall2_mem_right ht.modifiers hm
    refine ⟨hwf, fun b hbm => ?_⟩
    obtain ⟨n, _, ⟨x, hx, rfl⟩, _⟩ := (hb b).1 hbm
    exact List.mem_map_of_mem hx
  · obtain ⟨h5, h6, h7⟩ := hempty.resolve_left hnull
    have hlen : 0 < ls.length := by rw [← h4.layers.length_eq]; exact List.length_pos_of_ne_nil h5
    have hmem : "Cl1" ∈ boardNames Data.ibmpc105 := by decide +kernel
    obtain ⟨b, hb⟩ := h2.called hmem
    exact ⟨(0, b), movable_of_name h2 hg h4 hb h6 h7 hlen⟩
  · rintro ⟨i, b⟩ ⟨_, k, hk, rfl, hlet, _⟩
    obtain ⟨n, hn⟩ := h2.named k hk
    exact rateable_of_name h2 ⟨⟨k, hk, rfl⟩, hn⟩ hrow
      (shipped_letters.2 p hp n ((h2.letter shipped_letters.1 hk hn).1 hlet))
  · intro l hl m hm b hbm
    obtain ⟨g, hg', n1, hn1, h5⟩ := h4.modifier hl hm
    obtain ⟨n, hn, hcall⟩ := (h5 b).1 hbm
    exact rateable_of_name h2 hcall hrow ((hrated d hd g hg').1 n1 hn1 n hn)
  · intro y hy
    obtain ⟨x, hx, rfl⟩ := List.mem_map.1 hy
    exact hkeys x.1 (List.mem_map_of_mem hx)

/-- A run on the statistics of a text. -/
def optimizeText (p : ModelParams) (d : LayoutData) (text : Text) (steps : Nat) (ds : List (Pos × Pos)) :
    Py (Option Stop) := do
  let (t, kb, L) ← loadFirst d
  let s ← triadsOfText t kb L text
  .ok (match optimize (shippedArgs p t kb L s 0 steps false [] (fun _ _ => false) id) ds with
    | .ok _ => none
    | .error e => some e)

/-- A run with two steps ends, the same run with a single draw needs another. -/
theorem optimizeText_demo : optimizeText Data.mod01 Data.arLulua "السلام!".toList 2 [((0, 35), (0, 31)), ((0, 37), (1, 36))] = .ok none ∧
    optimizeText Data.mod01 Data.arLulua "السلام!".toList 2 [((0, 35), (0, 31))] = .ok (some .drawing) := by
  constructor <;> decide +kernel

/-- **C95** is false as a user expects it: the triad of three backspaces is collected and makes the optimizer raise
`KeyError`; with the empty layout it raises `IndexError` in the first step. -/
theorem C95_false : (∀ p ∈ Data.models,
      optimizeText p Data.arLulua ['\x08', '\x08', '\x08'] 1 [] = .ok (some (.raised .keyError))) ∧
    optimizeText Data.mod01 Data.nullLayout ['a'] 1 [] = .ok (some (.raised .indexError)) := by
  decide +kernel

/-! ### C96 -/

/-- Every entry is on the keyboard. -/
def EntriesOnBoard (layers : List Layer) (kb : PhysicalKeyboard) : Prop :=
  ∀ l ∈ layers, ∀ e ∈ l.layout, e.1 ∈ kb.keys.map Btn.i

/-- `C96_same_texts` for every table. -/
theorem emit_same_texts {t : InternTable} {ns : List String} (ht : Represents t ns) (hf : HandFinger) (name : String) (layers : List Layer)
    (kb : PhysicalKeyboard) (bm : ButtonMap) (hn : Named t kb.keys) (hu : UnambiguousModifiers layers)
    (hr : Reachable layers) (hmod : ∀ l ∈ layers, ∀ m ∈ l.modifier, FSet.WF m ∧ ∀ b ∈ m, b ∈ kb.keys.map Btn.i)
    (hw : ∀ l ∈ layers, Dict.WF l.layout) (hon : EntriesOnBoard layers kb) (hE : NoEmptyText layers)
    (hF : ∀ b ∈ kb.keys.map Btn.i, ∃ p, hf b = .ok p) (hp : Permutes bm) (ho : OnBoard layers kb bm) :
    ∃ d L, emit t (KeyboardLayout.mk' name layers kb) kb bm = .ok d ∧
      (GenericLayout.deserialize d).specialize t kb = .ok L ∧
      ∀ text, (typeText hf L none text).1.map eventKind =
        (typeText hf (KeyboardLayout.mk' name layers kb) none text).1.map eventKind := by
  obtain ⟨d, ls, h1, h2, h3, h4, h5, _⟩ := emit_usable ht name layers kb bm hn hu hr hmod hp ho
  have hspec : ∃ ls', GenericLayout.specLayers t kb (GenericLayout.deserialize d).layers = .ok ls' ∧
      KeyboardLayout.mk' (GenericLayout.deserialize d).name ls' kb = KeyboardLayout.mk' d.name ls kb := by
    simp only [GenericLayout.specialize, bind_ok_iff, Except.ok.injEq] at h2
    exact h2
  obtain ⟨ls', h6, h7⟩ := hspec
  have h8 : ls' = ls := by have := congrArg KeyboardLayout.layers h7; exact this
  subst h8
  have hw' := specLayers_wf h6
  have hat : ∀ (ly : List Layer), (∀ l ∈ ly, Dict.WF l.layout) → ∀ t, HasText ly t ↔ ∃ p, textAt ly p = some (.str t) := by
    intro ly hly t
    constructor
    · rintro ⟨l, hl, b, hb⟩
      obtain ⟨i, hi, rfl⟩ := List.mem_iff_getElem.1 hl
      refine ⟨(i, b), ?_⟩
      simp only [textAt, List.getElem?_eq_getElem hi, Option.bind_some]
      exact Dict.get?_of_mem (hly _ hl) hb
    · rintro ⟨p, hp⟩
      obtain ⟨l, hl, hg⟩ := Option.bind_eq_some_iff.1 hp
      exact ⟨l, List.mem_of_getElem? hl, p.2, Dict.mem_of_get? hg⟩
  have hvalid : ∀ p v, textAt layers p = some v → p.1 < layers.length ∧ p.2 ∈ kb.keys.map Btn.i := by
    intro p v h
    obtain ⟨l, hl, hg⟩ := Option.bind_eq_some_iff.1 h
    obtain ⟨hi, _⟩ := List.getElem?_eq_some_iff.1 hl
    exact ⟨hi, hon l (List.mem_of_getElem? hl) (p.2, v) (Dict.mem_of_get? hg)⟩
  have htexts : ∀ t, HasText ls' t ↔ HasText layers t := by
    intro t
    rw [hat ls' hw', hat layers hw]
    constructor
    · rintro ⟨q, hq⟩
      obtain ⟨p, _, h⟩ := h5 q _ hq
      exact ⟨p, h⟩
    · rintro ⟨p, h⟩
      obtain ⟨a, b⟩ := hvalid p _ h
      exact ⟨_, by rw [h4 p a b]; exact h⟩
  have hmods : ∀ l' ∈ ls', ∃ l ∈ layers, l'.modifier = l.modifier := by
    intro l' hl'
    have : l'.modifier ∈ layers.map Layer.modifier := by rw [← h3]; exact List.mem_map_of_mem hl'
    obtain ⟨l, hl, h⟩ := List.mem_map.1 this
    exact ⟨l, hl, h.symm⟩
  have hR' : Reachable ls' := by
    intro l' hl'
    obtain ⟨l, hl, h⟩ := hmods l' hl'
    rw [h]; exact hr l hl
  have hF1 : Fingered hf layers := fun l hl =>
    ⟨fun m hm b hb => hF b ((hmod l hl m hm).2 b hb), fun e he => hF _ (hon l hl e he)⟩
  have hF2 : Fingered hf ls' := by
    intro l' hl'
    refine ⟨fun m hm b hb => ?_, fun e he => ?_⟩
    · obtain ⟨l, hl, h⟩ := hmods l' hl'
      exact hF b ((hmod l hl m (by rw [← h]; exact hm)).2 b hb)
    · obtain ⟨i, hi, rfl⟩ := List.mem_iff_getElem.1 hl'
      have hq : textAt ls' (i, e.1) = some e.2 := by
        simp only [textAt, List.getElem?_eq_getElem hi, Option.bind_some]
        exact Dict.get?_of_mem (hw' _ hl') (by simpa using he)
      obtain ⟨p, hp1, hp2⟩ := h5 _ _ hq
      have := (target_valid hp ho (p := p)).2 (hvalid p _ hp2)
      rw [hp1] at this
      exact hF _ this.2
  refine ⟨d, _, h1, h2, fun text => ?_⟩
  have hE' : NoEmptyText ls' := fun h => hE ((htexts _).1 h)
  exact sameTexts_typing hf _ _ _ _ _ _ hF2 hR' hE' hF1 hr htexts text

/-- **C96**: the layout written types every text like the original one: it splits the text into the same parts and leaves
out the same characters. -/
theorem C96_same_texts (names : List String) (hf : HandFinger) (name : String) (layers : List Layer)
    (kb : PhysicalKeyboard) (bm : ButtonMap) (hn : Named (tableAfter names) kb.keys) (hu : UnambiguousModifiers layers)
    (hr : Reachable layers) (hmod : ∀ l ∈ layers, ∀ m ∈ l.modifier, FSet.WF m ∧ ∀ b ∈ m, b ∈ kb.keys.map Btn.i)
    (hw : ∀ l ∈ layers, Dict.WF l.layout) (hon : EntriesOnBoard layers kb) (hE : NoEmptyText layers)
    (hF : ∀ b ∈ kb.keys.map Btn.i, ∃ p, hf b = .ok p) (hp : Permutes bm) (ho : OnBoard layers kb bm) :
    ∃ d L, emit (tableAfter names) (KeyboardLayout.mk' name layers kb) kb bm = .ok d ∧
      (GenericLayout.deserialize d).specialize (tableAfter names) kb = .ok L ∧
      ∀ text, (typeText hf L none text).1.map eventKind =
        (typeText hf (KeyboardLayout.mk' name layers kb) none text).1.map eventKind :=
  emit_same_texts (represents_tableAfter names) hf name layers kb bm hn hu hr hmod hw hon hE hF hp ho

/-- **C96** (shipped layouts): whatever the optimizer prints for a shipped layout can be loaded and types every text like
that layout. -/
theorem C96_shipped (names : List String) (t : InternTable) (kb : PhysicalKeyboard) (d' : KeyboardData)
    (hk : PhysicalKeyboard.deserialize (tableAfter names) Data.ibmpc105 = .ok (t, kb, d'))
    (d : LayoutData) (hd : d ∈ Data.layouts) (L : KeyboardLayout)
    (hL : (GenericLayout.deserialize d).specialize t kb = .ok L) (x : OptArgs) (hx1 : x.table = t) (hx2 : x.keyboard = kb)
    (hx3 : x.layout = L) (he : ∀ l, (x.enum l).Perm l) (ds : List (Pos × Pos)) (r : OptResult)
    (h : optimize x ds = .ok r) :
    ∃ L', (GenericLayout.deserialize r.layout).specialize t kb = .ok L' ∧
      ∀ text, (typeText (getHandFinger Data.fingermap t) L' none text).1.map eventKind =
        (typeText (getHandFinger Data.fingermap t) L none text).1.map eventKind := by
  have h2 := shipped_loaded hk
  have hg := shipped_good d hd
  obtain ⟨ls, h3, h4⟩ := load_layout h2 hg
  rw [hL] at h3
  simp only [Except.ok.injEq] at h3
  subst h3
  obtain ⟨ns, hr⟩ := h2.table
  have hu := h4.unambiguous hg (fun n hn => h2.called hn)
  obtain ⟨hp, hkeys, hem, _⟩ := optimize_result (name := d.name) (layers := ls) (by rw [hx3, hx2]) hu he h
  rw [hx1, hx2, hx3] at hem
  rw [hx2, hx3] at hkeys
  have hob : OnBoard ls kb r.buttonMap := onBoard_of_keys hkeys
  obtain ⟨dd, L', a1, a2, a3⟩ := emit_same_texts hr (getHandFinger Data.fingermap t) d.name ls kb r.buttonMap h2.named hu
    (h4.reachable hg) (by
      intro l hl m hm
      obtain ⟨g, hg', ht⟩ := forall2_mem_right h4.layers hl
      obtain ⟨mn, hmn, hwf, hb⟩ := forall2_mem_right ht.modifiers hm
      refine ⟨hwf, fun b hbm => ?_⟩
      obtain ⟨n, _, ⟨x, hx, rfl⟩, _⟩ := (hb b).1 hbm
      exact List.mem_map_of_mem hx) h4.wf (by
      intro l hl e he
      obtain ⟨g, _, n, ⟨⟨x, hx, hxe⟩, _⟩, _⟩ := h4.entry hl (b := e.1) (v := e.2) (by simpa using he)
      rw [← hxe]; exact List.mem_map_of_mem hx) (h4.noEmptyText hg) (by
      intro b hb
      obtain ⟨k, hk, rfl⟩ := List.mem_map.1 hb
      obtain ⟨n, hn⟩ := h2.named k hk
      have hc : Called t kb n k.i := ⟨⟨k, hk, rfl⟩, hn⟩
      obtain ⟨p, hp⟩ := shipped_fingers n (h2.mem_of_called hc)
      exact ⟨p, getHandFinger_called hc hp⟩) hp hob
  rw [hem] at a1
  rw [Except.ok.inj a1]
  exact ⟨L', a2, a3⟩

/-- A layout printed for `ar-lulua` types the exclamation mark elsewhere. -/
def retyped (text : Text) (ds : List (Pos × Pos)) : Py (List Event × List Event) := do
  let (t, kb, L) ← loadFirst Data.arLulua
  let s ← triadsOfText t kb L text
  match optimize (shippedArgs Data.mod01 t kb L s 0 ds.length false [] (fun _ _ => false) id) ds with
  | .error _ => .error .assertionError
  | .ok r => do
    let L' ← (GenericLayout.deserialize r.layout).specialize t kb
    .ok ((typeText (getHandFinger Data.fingermap t) L none text).1, (typeText (getHandFinger Data.fingermap t) L' none text).1)

example : retyped "!!!§".toList [((1, 37), (0, 36))] =
    .ok ([.typed ['!'] ⟨[41], [37]⟩, .typed ['!'] ⟨[41], [37]⟩, .typed ['!'] ⟨[41], [37]⟩, .skip '§'],
      [.typed ['!'] ⟨[], [36]⟩, .typed ['!'] ⟨[], [36]⟩, .typed ['!'] ⟨[], [36]⟩, .skip '§']) := by decide +kernel

end Lulua.Props
