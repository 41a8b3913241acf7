import Verif.Proofs.Shipped
import Verif.Props.Typing
import Verif.Props.Stats
import Verif.Props.Carpalx

/-!
# Properties of the shipped keyboard, layouts and models: C34 (shipped models), C36, C71

The conditions on the files are checked by evaluation in the kernel; the theorems then hold for every
creation history of buttons (so for every numbering) and every text.
-/

namespace Lulua.Props
open Spec

/-! ### Checks of the files -/

theorem shipped_canonical : ∀ r ∈ Data.ibmpc105.rows, ∀ b ∈ r.1 ++ r.2, Canonical b := by
  have h : (Data.ibmpc105.rows.all fun r => (r.1 ++ r.2).all canonical) = true := by decide +kernel
  intro r hr b hb
  exact canonical_iff (List.all_eq_true.1 (List.all_eq_true.1 h r hr) b hb)

theorem shipped_good : ∀ d ∈ Data.layouts, goodLayout (boardNames Data.ibmpc105) d = true := by
  have h : (Data.layouts.all fun d => goodLayout (boardNames Data.ibmpc105) d) = true := by decide +kernel
  exact List.all_eq_true.1 h

theorem shipped_fingers : ∀ n ∈ boardNames Data.ibmpc105, ∃ p, Data.fingermap.get? n = some p := by
  have h : ((boardNames Data.ibmpc105).all fun n => (Data.fingermap.get? n).isSome) = true := by decide +kernel
  intro n hn
  exact Option.isSome_iff_exists.1 (List.all_eq_true.1 h n hn)

/-- The shipped keyboard can be loaded whatever was loaded before. -/
theorem shipped_keyboard (names : List String) :
    ∃ t kb d', PhysicalKeyboard.deserialize (tableAfter names) Data.ibmpc105 = .ok (t, kb, d') ∧
      LoadedAs t kb Data.ibmpc105 := load_keyboard names _ shipped_canonical

theorem shipped_loaded {names : List String} {t : InternTable} {kb : PhysicalKeyboard} {d' : KeyboardData}
    (h : PhysicalKeyboard.deserialize (tableAfter names) Data.ibmpc105 = .ok (t, kb, d')) :
    LoadedAs t kb Data.ibmpc105 := by
  obtain ⟨t1, kb1, d1, h1, h2⟩ := shipped_keyboard names
  rw [h] at h1
  simp only [Except.ok.injEq, Prod.mk.injEq] at h1
  obtain ⟨rfl, rfl, rfl⟩ := h1
  exact h2

/-! ### C71 -/

/-- **C71** (well formed): whatever buttons the process has created before, the shipped keyboard loads and
every shipped layout specializes to it. It then has no empty text, every layer can be reached, no modifier is
ambiguous and every button has a finger. -/
theorem C71_wellformed (names : List String) :
    ∃ t kb d', PhysicalKeyboard.deserialize (tableAfter names) Data.ibmpc105 = .ok (t, kb, d') ∧
      ∀ d ∈ Data.layouts, ∃ layers,
        (GenericLayout.deserialize d).specialize t kb = .ok (KeyboardLayout.mk' d.name layers kb) ∧
        NoEmptyText layers ∧ Reachable layers ∧ UnambiguousModifiers layers ∧
        Fingered (getHandFinger Data.fingermap t) layers ∧ ∀ l ∈ layers, Dict.WF l.layout := by
  obtain ⟨t, kb, d', h1, h2⟩ := shipped_keyboard names
  refine ⟨t, kb, d', h1, fun d hd => ?_⟩
  have hg := shipped_good d hd
  obtain ⟨ls, h3, h4⟩ := load_layout h2 hg
  exact ⟨ls, h3, h4.noEmptyText hg, h4.reachable hg, h4.unambiguous hg (fun n hn => h2.called hn),
    h4.fingered hg shipped_fingers, h4.wf⟩

/-- Every shipped layout but the empty one has a text, and the empty one has none. -/
theorem shipped_text : ∀ d ∈ Data.layouts, (d = Data.nullLayout ∧ d.layout = []) ∨
    ∃ g ∈ d.layout, ∃ n x, (n, LVal.str x) ∈ g.layout := by
  have h : (Data.layouts.all fun d => (d == Data.nullLayout && d.layout.isEmpty) || (d.layout.any fun g =>
      g.layout.any fun e => match e.2 with | .str _ => true | .other _ => false)) = true := by decide +kernel
  intro d hd
  have := List.all_eq_true.1 h d hd
  simp only [Bool.or_eq_true, Bool.and_eq_true, beq_iff_eq, List.isEmpty_iff, List.any_eq_true] at this
  rcases this with h1 | ⟨g, hg, ⟨n, v⟩, he, hv⟩
  · exact .inl h1
  · cases v with
    | str x => exact .inr ⟨g, hg, n, x, he⟩
    | other k => simp at hv

/-- **C71** (typing): typing any text on any shipped layout ends without an exception; with every layout but
the empty one the events account for the whole text, characters are skipped only where nothing the layout can
type matches, and pressing what was chosen gives the text it was chosen for. -/
theorem C71_typing (names : List String) (t : InternTable) (kb : PhysicalKeyboard) (d' : KeyboardData)
    (hk : PhysicalKeyboard.deserialize (tableAfter names) Data.ibmpc105 = .ok (t, kb, d'))
    (d : LayoutData) (hd : d ∈ Data.layouts) (L : KeyboardLayout)
    (hL : (GenericLayout.deserialize d).specialize t kb = .ok L) (text : Text) :
    let r := typeText (getHandFinger Data.fingermap t) L none text
    r.2 = .finished ∧ (d ≠ Data.nullLayout → eventsText r.1 = text) ∧ (d = Data.nullLayout → r.1 = []) ∧
      (∀ pre ch post, r.1 = pre ++ .skip ch :: post → NoMatch L.layers (text.drop (eventsText pre).length)) ∧
      ∀ m c, Event.typed m c ∈ r.1 → L.getText c = .ok (.str m) := by
  have h2 := shipped_loaded hk
  have hg := shipped_good d hd
  obtain ⟨ls, h3, h4⟩ := load_layout h2 hg
  rw [hL] at h3
  simp only [Except.ok.injEq] at h3
  subst h3
  have hF := h4.fingered hg shipped_fingers
  have hfin : (typeText (getHandFinger Data.fingermap t) (KeyboardLayout.mk' d.name ls kb) none text).2 = .finished := by
    refine C05_no_exception _ _ _ _ _ _ ?_ (h4.reachable hg) (h4.noEmptyText hg)
    intro b e he
    simp only [getHandFinger, bind, Except.bind, InternTable.nameOf, Dict.getItem] at he
    cases h5 : t.idToName.get? b with
    | none => simp only [h5, Except.error.injEq] at he; exact he.symm
    | some n =>
      simp only [h5] at he
      cases h6 : Data.fingermap.get? n with
      | none => simp only [h6, Except.error.injEq] at he; exact he.symm
      | some p => simp [h6] at he
  refine ⟨hfin, ?_, ?_, ?_, ?_⟩
  · intro hne
    refine C01_typing_lossless _ _ _ _ _ _ ?_ hfin
    rcases shipped_text d hd with ⟨h5, _⟩ | ⟨g, hg', n, x, hx⟩
    · exact absurd h5 hne
    · obtain ⟨l, hl, ht⟩ := forall2_mem_left h4.layers hg'
      have hgood := hg
      simp only [goodLayout, Bool.and_eq_true, List.all_eq_true] at hgood
      have hgl := goodLayer_iff (hgood.1 g hg')
      obtain ⟨b, hb⟩ := h2.called (hgl.2.2.2 n (by
        simp only [layerNames, List.mem_append, List.mem_map]; exact .inl ⟨_, hx, rfl⟩))
      have hget := ht.texts n b hb
      rw [Dict.get?_of_mem hgl.1 hx] at hget
      refine ⟨x, ?_, l, hl, b, Dict.mem_of_get? hget⟩
      rintro rfl
      exact hgl.2.2.1 _ hx rfl
  · rintro rfl
    have hnil : ls = [] := by
      have := h4.layers.length_eq
      exact List.length_eq_zero_iff.1 (by rw [← this]; decide +kernel)
    subst hnil
    have := C01_no_text_no_events Data.nullLayout.name [] kb (getHandFinger Data.fingermap t) none text
      (by rintro x ⟨l, hl, _⟩; simp at hl)
    rw [this]
  · intro pre ch post h
    exact (C02_skip_only_untypeable _ _ _ _ _ _ pre post ch hF (by simp) h).2
  · intro m c h
    exact C03_combination_types_match _ _ _ _ _ _ m c (h4.unambiguous hg (fun n hn => h2.called hn)) h4.wf h

/-- The shipped layouts are 13, and typing on one of them. -/

example : Data.layouts.length = 13 ∧ Data.arLulua ∈ Data.layouts ∧
    ((PhysicalKeyboard.deserialize InternTable.initial Data.ibmpc105).bind fun k =>
      ((GenericLayout.deserialize Data.arLulua).specialize k.1 k.2.1).bind fun L =>
        .ok (typeText (getHandFinger Data.fingermap k.1) L none ['ل', 'ا', '§', '!']).1) =
      .ok [.typed ['ل'] ⟨[], [35]⟩, .typed ['ا'] ⟨[], [31]⟩, .skip '§', .typed ['!'] ⟨[41], [37]⟩] := by decide +kernel

/-! ### Runtime tests -/

/-- **C12** (shipped keyboard): the assertions about rows every `Carpalx` object makes when it is created hold
on the shipped keyboard. -/
theorem C12_shipped_rows (names : List String) (t : InternTable) (kb : PhysicalKeyboard) (d' : KeyboardData)
    (hk : PhysicalKeyboard.deserialize (tableAfter names) Data.ibmpc105 = .ok (t, kb, d')) :
    runtimeTests t kb = .ok () := by
  have h2 := shipped_loaded hk
  obtain ⟨ns, hr⟩ := h2.table
  have key : ∀ n i, n ∈ boardNames Data.ibmpc105 →
      (∀ j (hj : j < Data.ibmpc105.rows.length), n ∈ rowNames Data.ibmpc105.rows[j] → j = i) →
      runtimeTest t kb n i = .ok () := by
    intro n i hn hu
    obtain ⟨b, hb⟩ := h2.called hn
    obtain ⟨x, h3, rfl⟩ := called_find hr h2.named hb
    simp only [runtimeTest, h3, bind, Except.bind, h2.getRow_eq hb hu, if_true]
  simp only [runtimeTests, key "Bl1" 0 (by decide +kernel) (by decide +kernel),
    key "Cl1" 1 (by decide +kernel) (by decide +kernel), key "Dl1" 2 (by decide +kernel) (by decide +kernel),
    key "El1" 3 (by decide +kernel) (by decide +kernel), bind, Except.bind]

/-! ### C34 -/

instance (p : ModelParams) : Decidable (NonNeg p) :=
  decidable_of_iff
    ((0 ≤ p.kBPS.1 ∧ 0 ≤ p.kBPS.2.1 ∧ 0 ≤ p.kBPS.2.2) ∧
     (0 ≤ p.k123S.1 ∧ 0 ≤ p.k123S.2.1 ∧ 0 ≤ p.k123S.2.2.1 ∧ 0 ≤ p.k123S.2.2.2) ∧
     (0 ≤ p.w0HRF.1 ∧ 0 ≤ p.w0HRF.2.1 ∧ 0 ≤ p.w0HRF.2.2.1 ∧ 0 ≤ p.w0HRF.2.2.2) ∧
     (∀ x ∈ p.pHand, 0 ≤ x.2) ∧ (∀ x ∈ p.pRow, 0 ≤ x) ∧ (∀ x ∈ p.pFinger, ∀ y ∈ x.2, 0 ≤ y.2) ∧
     (0 ≤ p.fHRF.1 ∧ 0 ≤ p.fHRF.2.1 ∧ 0 ≤ p.fHRF.2.2) ∧ ∀ x ∈ p.baselineEffort, 0 ≤ x.2)
    ⟨fun ⟨a, b, c, d, e, f, g, h⟩ => ⟨a, b, c, d, e, f, g, h⟩, fun ⟨a, b, c, d, e, f, g, h⟩ => ⟨a, b, c, d, e, f, g, h⟩⟩

/-- **C34** (shipped models): all parameters of both shipped models are non-negative, so are their efforts on
any keyboard. -/
theorem C34_shipped (p : ModelParams) (hp : p ∈ Data.models) (t : InternTable) (kb : PhysicalKeyboard) (x : Triad)
    (v : Rat) (h : (shippedEnv p t kb).triadEffort x = .ok v) : 0 ≤ v := by
  have hn : ∀ p ∈ Data.models, NonNeg p := by decide +kernel
  exact C34_nonneg _ (hn p hp) x v h

/-! ### C36 -/

/-- What both models know: every button a layout uses, unless it is ignored by the triads or types a backspace. -/
theorem shipped_rated : ∀ p ∈ Data.models, Data.ibmpc105.rows.length ≤ p.pRow.length ∧
    ∀ d ∈ Data.layouts, ∀ g ∈ d.layout, (∀ m ∈ g.modifier, ∀ n ∈ m, ratedName p Data.fingermap n = true) ∧
      ∀ e ∈ g.layout, e.1 ∈ ["Fl_space", "Fr_space", "CD_ret", "Cl_tab"] ∨ ratedName p Data.fingermap e.1 = true ∨
        ∀ x, e.2 = LVal.str x → '\x08' ∈ x := by
  have h : (Data.models.all fun p => decide (Data.ibmpc105.rows.length ≤ p.pRow.length) &&
      Data.layouts.all fun d => d.layout.all fun g =>
        (g.modifier.all fun m => m.all fun n => ratedName p Data.fingermap n) &&
        g.layout.all fun e => decide (e.1 ∈ ["Fl_space", "Fr_space", "CD_ret", "Cl_tab"]) ||
          ratedName p Data.fingermap e.1 || match e.2 with | .str x => decide ('\x08' ∈ x) | .other _ => true) = true := by
    decide +kernel
  simp only [List.all_eq_true, Bool.and_eq_true, Bool.or_eq_true, decide_eq_true_eq] at h
  intro p hp
  refine ⟨(h p hp).1, fun d hd g hg => ⟨((h p hp).2 d hd g hg).1, fun e he => ?_⟩⟩
  rcases ((h p hp).2 d hd g hg).2 e he with (h1 | h1) | h1
  · exact .inl h1
  · exact .inr (.inl h1)
  · refine .inr (.inr fun x hx => ?_)
    rw [hx] at h1
    simpa using h1

/-- The triads of a text. -/
def triadsOfText (t : InternTable) (kb : PhysicalKeyboard) (L : KeyboardLayout) (text : Text) : Py TriadStats := do
  let s ← TriadStats.init t kb
  (typeText (getHandFinger Data.fingermap t) L none text).1.foldlM TriadStats.process s

/-- Exceptions raised while rating triads with a new `Carpalx` object. -/
def rateExceptions (p : ModelParams) (t : InternTable) (kb : PhysicalKeyboard) (s : TriadStats) : List (Option PyErr) :=
  ((CarpalxWorld.mk [] []).run
    [.new (shippedEnv p t kb), .addAll 0 (s.triads.map fun x => (x.1, (x.2 : Rat)))]).2

/-- What is typed of a text without a backspace can be rated, unless it is ignored. -/
theorem shipped_rateable {p : ModelParams} (hp : p ∈ Data.models) {t : InternTable} {kb : PhysicalKeyboard}
    (h2 : LoadedAs t kb Data.ibmpc105) {d : LayoutData} (hd : d ∈ Data.layouts) {ls : List Layer}
    (h4 : SpecializedAs t kb (boardNames Data.ibmpc105) d ls) {s0 : TriadStats} (hs0 : TriadStats.init t kb = .ok s0)
    {text : Text} (hb : '\x08' ∉ text) : ∀ m c, Event.typed m c ∈
      (typeText (getHandFinger Data.fingermap t) (KeyboardLayout.mk' d.name ls kb) none text).1 →
      notOn s0.ignored c = true → c.iter ≠ [] ∧ ∀ b ∈ c.iter, Rateable (shippedEnv p t kb) b := by
  obtain ⟨ns, hr⟩ := h2.table
  obtain ⟨hs1, hs2, hs3⟩ := C18_ignored t kb s0 hs0
  obtain ⟨hrow, hrated⟩ := shipped_rated p hp
  intro m c hc hno
  obtain ⟨mo, b, rfl, l, hl, hm, he⟩ := mem_producers.1 (typed_producer hc)
  refine ⟨by simp [Comb.iter], ?_⟩
  have hmt : '\x08' ∉ m := by
    obtain ⟨post, hpost⟩ := C01_typing_prefix (getHandFinger Data.fingermap t) (KeyboardLayout.mk' d.name ls kb) none text
    intro hx
    apply hb
    rw [← hpost]
    obtain ⟨p1, p2, h5⟩ := List.append_of_mem hc
    rw [h5]
    simp [eventsText, eventText, hx]
  intro b' hb'
  simp only [Comb.iter, List.mem_append, List.mem_singleton] at hb'
  rcases hb' with hb' | rfl
  · obtain ⟨g, hg', n1, hn1, h5⟩ := h4.modifier hl hm
    obtain ⟨n, hn, hcall⟩ := (h5 b').1 hb'
    exact rateable_of_name h2 hcall hrow ((hrated d hd g hg').1 n1 hn1 n hn)
  · obtain ⟨g, hg', n, hcall, hn⟩ := h4.entry hl he
    rcases (hrated d hd g hg').2 _ hn with h5 | h5 | h5
    · obtain ⟨i, hi, x, hx, hxi⟩ := forall2_mem_left hs3 h5
      have : x.i = b' := hr.inj (find_called hx).2 hcall.2
      simp only [notOn, List.all_cons, List.all_nil, Bool.and_true, decide_eq_true_eq] at hno
      exact absurd (by rw [← this, hxi]; exact hi) hno
    · exact rateable_of_name h2 hcall hrow h5
    · exact absurd (h5 m rfl) hmt

/-- **C36** (partial: false for texts with backspaces): the triads of every text without a backspace, typed on
any shipped layout, can be collected and rated by both models. -/
theorem C36_rateable_partial (p : ModelParams) (hp : p ∈ Data.models) (names : List String) (t : InternTable)
    (kb : PhysicalKeyboard) (d' : KeyboardData)
    (hk : PhysicalKeyboard.deserialize (tableAfter names) Data.ibmpc105 = .ok (t, kb, d'))
    (d : LayoutData) (hd : d ∈ Data.layouts) (L : KeyboardLayout)
    (hL : (GenericLayout.deserialize d).specialize t kb = .ok L) (text : Text) (hb : '\x08' ∉ text) :
    ∃ s, triadsOfText t kb L text = .ok s ∧ (∀ x ∈ s.triads, ∃ v, (shippedEnv p t kb).triadEffort x.1 = .ok v) ∧
      rateExceptions p t kb s = [none, none] := by
  have h2 := shipped_loaded hk
  have hg := shipped_good d hd
  obtain ⟨ls, h3, h4⟩ := load_layout h2 hg
  rw [hL] at h3
  simp only [Except.ok.injEq] at h3
  subst h3
  obtain ⟨ns, hr⟩ := h2.table
  obtain ⟨s0, hs0⟩ : ∃ s0, TriadStats.init t kb = .ok s0 := by
    unfold TriadStats.init
    rcases findAll_iff h2.named TriadStats.ignoredNames with ⟨⟨bs, h1⟩, _⟩ | ⟨_, n, h5, h6⟩
    · simp only [h1, bind, Except.bind]; exact ⟨_, rfl⟩
    · have hall : ∀ n ∈ TriadStats.ignoredNames, n ∈ boardNames Data.ibmpc105 := by decide +kernel
      exact absurd ((h2.mem n).1 (hall n h5)) h6
  obtain ⟨hs1, hs2, hs3⟩ := C18_ignored t kb s0 hs0
  obtain ⟨s, hs, _⟩ := C18_triads s0.ignored _ (typed_singleButtons (getHandFinger Data.fingermap t) d.name ls kb none text)
  have hs' : (typeText (getHandFinger Data.fingermap t) (KeyboardLayout.mk' d.name ls kb) none text).1.foldlM
      TriadStats.process s0 = .ok s := by
    have : s0 = ⟨[], [], s0.ignored⟩ := by rw [← hs1, ← hs2]
    rw [← hs, ← this]
  have hparts := shipped_rateable hp h2 hd h4 hs0 hb
  have hkeys := triads_inv (fun c => c.iter ≠ [] ∧ ∀ b ∈ c.iter, Rateable (shippedEnv p t kb) b) _ s0 s hparts
    (by simp [hs1]) (by simp [hs2]) hs'
  have hall : ∀ x ∈ s.triads, ∃ v, (shippedEnv p t kb).triadEffort x.1 = .ok v := by
    intro x hx
    obtain ⟨h5, h6, h7⟩ := hkeys x.1 (List.mem_map_of_mem hx)
    refine triadEffort_ok_iff.2 ⟨⟨h5.1, h6.1, h7.1⟩, ?_⟩
    rintro b (h | h | h)
    · exact h5.2 b h
    · exact h6.2 b h
    · exact h7.2 b h
  refine ⟨s, by simp only [triadsOfText, hs0, bind, Except.bind]; exact hs', hall, ?_⟩
  have h := congrArg Prod.snd (C32_cache
    [.new (shippedEnv p t kb), .addAll 0 (s.triads.map fun x => (x.1, (x.2 : Rat)))])
  have hall' : ∀ x ∈ s.triads.map fun x => (x.1, (x.2 : Rat)), ∃ v, (shippedEnv p t kb).triadEffort x.1 = .ok v := by
    simp only [List.mem_map]
    rintro _ ⟨x, hx, rfl⟩
    exact hall x hx
  simp only [plainRun, plainStep, List.nil_append, onObj, List.getElem?_cons_zero,
    plain_addAll (shippedEnv p t kb) _ hall'] at h
  exact h

/-- The shipped keyboard and layouts as they are loaded first thing in a process. -/
def loadFirst (d : LayoutData) : Py (InternTable × PhysicalKeyboard × KeyboardLayout) := do
  let (t, kb, _) ← PhysicalKeyboard.deserialize (tableAfter []) Data.ibmpc105
  let L ← (GenericLayout.deserialize d).specialize t kb
  .ok (t, kb, L)

/-- Non-trivial triads: five distinct ones with and without modifiers. -/
example : ((loadFirst Data.arLulua).bind fun x => (triadsOfText x.1 x.2.1 x.2.2 "السلام!".toList).bind fun s =>
    .ok (s.triads.length, rateExceptions Data.mod01 x.1 x.2.1 s)) = .ok (5, [none, none]) := by decide +kernel

/-- **C36** is false as a user expects it: the triad of three backspaces is collected, rating it raises `KeyError`,
with both models. -/
theorem C36_false : ∀ p ∈ Data.models, ((loadFirst Data.arLulua).bind fun x =>
    (triadsOfText x.1 x.2.1 x.2.2 ['\x08', '\x08', '\x08']).bind fun s =>
      .ok (s.triads.map Prod.snd, rateExceptions p x.1 x.2.1 s)) = .ok ([1], [none, some .keyError]) := by
  decide +kernel

end Lulua.Props
