import Verif.Proofs.Figures
import Verif.Props.Pipeline
import Verif.Props.Plot
import Verif.Props.Page
import Verif.Props.EffortPlot

/-!
# C122: the figures of the report are those of the corpora
-/

namespace Lulua.Props
open Lulua Spec

/-- **C122** (partial: if no `lulua-write` fails): what the figures are made from has the statistics of typing every text of
every corpus once, and nothing else. -/
theorem C122_whole_partial (su : Setup) (layers : List Layer) (hu : Usable su layers) (runs : List CorpusRun)
    (hb : ∀ r ∈ runs, Built su r) (hd : ∀ r ∈ runs, 0 < r.jobs ∧ r.final.main = .done) :
    ∃ f, allPickle su runs = .ok f ∧ Whole su (runs.flatMap corpusTexts) f := by
  obtain ⟨f, ts, h1, h2, _, h4⟩ := whole_all hu hb
  exact ⟨f, h1, h2.ok, h2.positive, countsOf_perm h2.counts (h4 hd)⟩

/-- **C122** (what holds in any case): it has the statistics of some of the texts. -/
theorem C122_some (su : Setup) (layers : List Layer) (hu : Usable su layers) (runs : List CorpusRun)
    (hb : ∀ r ∈ runs, Built su r) :
    ∃ f ts, allPickle su runs = .ok f ∧ Whole su ts f ∧ ts.Subperm (runs.flatMap corpusTexts) := by
  obtain ⟨f, ts, h1, h2, h3, _⟩ := whole_all hu hb
  exact ⟨f, ts, h1, h2, h3⟩

/-- **C122** (hands and fingers): the figures per layout are those of all texts: `buttonPresses` the number of presses, and
for each hand and finger the number of its presses. The impact of the hamza is the share of letters with hamza in
everything typed, the other figure the share of forms with hamza in all forms of alef. -/
theorem C122_layoutstats (su : Setup) (layers : List Layer) (hu : Usable su layers) (hm : DistinctModifiers layers)
    (texts : List Text) (s : AllStats) (h : Whole su texts s) (r : LayoutStats)
    (hr : layoutstats su.hf su.layout s.simple = .ok r) :
    let T := texts.flatMap fun t => typedTexts (typedFor su t)
    r.hamzaImpact * T.length = T.countP (fun t => decide (t ∈ hamzaLetters)) ∧
    r.hamzaOnAlef * (T.count alefLetter + T.count alefAbove + T.count alefBelow) = T.count alefAbove + T.count alefBelow ∧
    r.buttonPresses = (texts.map fun t => (pressed (typedFor su t)).length).sum ∧
    (∀ d, r.hands.get? d = some (texts.map fun t => handPresses su.hf d (typedFor su t)).sum) ∧
    (∀ d f, r.fingers.count (d, f) = (texts.map fun t => fingerPresses su.hf d f (typedFor su t)).sum) ∧
    r.asymmetry * r.buttonPresses = (texts.map fun t => handPresses su.hf .left (typedFor su t)).sum -
      (texts.map fun t => handPresses su.hf .right (typedFor su t)).sum := by
  obtain ⟨name, kb, hL⟩ := hu.layout
  have hT : TypedWith layers (allTyped su texts) := by
    intro t c hc
    obtain ⟨x, _, hx⟩ := List.mem_flatMap.1 hc
    unfold typedFor at hx
    rw [hL] at hx
    exact C87_typed_texts su.hf name layers kb none _ t c hx
  intro T
  obtain ⟨p1, p2⟩ := whole_simple h
  obtain ⟨c1, c2, c3, c4⟩ := C91_figures _ _ _ _ hr
  have hz : hamzaOf su.layout (allTyped su texts) = .ok (r.hamzaImpact, r.hamzaOnAlef) := by
    unfold hamzaOf
    rw [← hamzaStats_perm h.ok.combinations p2]
    simp only [layoutstats, bind_ok_iff, Except.ok.injEq] at hr
    obtain ⟨_, _, z, hz, rfl⟩ := hr
    exact hz
  rw [hL] at hz
  obtain ⟨z1, z2, _⟩ := C87_hamza_figures name layers kb hu.unambiguous hu.dicts hm _ hT _ _ hz
  rw [typedTexts_allTyped] at z1 z2
  have hh : ∀ d, pressesWhere su.hf (fun p => decide (p.1 = d)) s.simple.buttons =
      (texts.map fun t => handPresses su.hf d (typedFor su t)).sum := fun d => whole_pressesWhere h su.hf _
  have hf : ∀ d f, pressesWhere su.hf (fun p => decide (p = (d, f))) s.simple.buttons =
      (texts.map fun t => fingerPresses su.hf d f (typedFor su t)).sum := fun d f => whole_pressesWhere h su.hf _
  refine ⟨z1, z2, ?_, fun d => by rw [c2, hh], fun d f => by rw [c3, hf], ?_⟩
  · rw [c1, sum_of_counts h.ok.buttons h.positive.buttons (whole_buttons h), List.length_flatMap]
  · have hne : (r.buttonPresses : Rat) ≠ 0 := by
      simp only [layoutstats, bind_ok_iff, Except.ok.injEq] at hr
      obtain ⟨q, hq, z, _, rfl⟩ := hr
      simp only [layoutHandStats, bind_ok_iff] at hq
      obtain ⟨_, _, hq⟩ := hq
      split at hq
      · cases hq
      · rename_i hpos
        simp only [Except.ok.injEq] at hq
        rw [← hq]
        exact_mod_cast hpos
    rw [c4, hh, hh]
    field_simp

/-- Some form of alef is typed. -/
def AlefTyped (su : Setup) (texts : List Text) : Prop :=
  ∃ t ∈ texts, ∃ x ∈ typedTexts (typedFor su t), x = alefLetter ∨ x = alefAbove ∨ x = alefBelow

/-- **C122** (when there are figures): exactly if the layout has something to type each of the letters with hamza with, and
alef, and some form of alef is typed in some text. -/
theorem C122_layoutstats_iff (su : Setup) (layers : List Layer) (hu : Usable su layers) (hm : DistinctModifiers layers)
    (texts : List Text) (s : AllStats) (h : Whole su texts s) :
    (∃ r, layoutstats su.hf su.layout s.simple = .ok r) ↔
      (∀ l ∈ alefLetter :: hamzaLetters, ¬ NoMatch layers l) ∧ AlefTyped su texts := by
  obtain ⟨name, kb, hL⟩ := hu.layout
  have hT : TypedWith layers (allTyped su texts) := by
    intro t c hc
    obtain ⟨x, _, hx⟩ := List.mem_flatMap.1 hc
    unfold typedFor at hx
    rw [hL] at hx
    exact C87_typed_texts su.hf name layers kb none _ t c hx
  obtain ⟨p1, p2⟩ := whole_simple h
  have hz : (∃ z, hamzaStats su.layout s.simple.combinations = .ok z) ↔
      (∀ l ∈ alefLetter :: hamzaLetters, ¬ NoMatch layers l) ∧ AlefTyped su texts := by
    rw [hamzaStats_perm h.ok.combinations p2, hL]
    have hiff := C87_raises_iff name layers kb hu.unambiguous hu.dicts hm _ hT
    have hneg : (∃ z, hamzaStats (KeyboardLayout.mk' name layers kb)
        ((allTyped su texts).foldl SimpleStats.process .init).combinations = .ok z) ↔
        ¬ ∃ e, hamzaOf (KeyboardLayout.mk' name layers kb) (allTyped su texts) = .error e := by
      unfold hamzaOf
      cases hamzaStats (KeyboardLayout.mk' name layers kb) ((allTyped su texts).foldl SimpleStats.process .init).combinations <;> simp
    rw [hneg, hiff, typedTexts_allTyped, not_or]
    refine and_congr ?_ ?_
    · push Not; rfl
    · unfold AlefTyped
      constructor
      · intro hn
        push Not at hn
        obtain ⟨x, hx, hx'⟩ := hn
        obtain ⟨t, ht, hx⟩ := List.mem_flatMap.1 hx
        refine ⟨t, ht, x, hx, ?_⟩
        by_cases e1 : x = alefLetter
        · exact .inl e1
        · by_cases e2 : x = alefAbove
          · exact .inr (.inl e2)
          · exact .inr (.inr (hx' e1 e2))
      · rintro ⟨t, ht, x, hx, hx'⟩ hn
        have := hn x (List.mem_flatMap.2 ⟨t, ht, hx⟩)
        tauto
  rw [← hz]
  constructor
  · rintro ⟨r, hr⟩
    simp only [layoutstats, bind_ok_iff, Except.ok.injEq] at hr
    obtain ⟨_, _, z, hz, _⟩ := hr
    exact ⟨z, hz⟩
  · rintro ⟨z, hz'⟩
    have hal := (hz.1 ⟨z, hz'⟩).2
    obtain ⟨⟨hands, fingers⟩, hl⟩ := (handFingerLoop_exists (hf := su.hf) (l := s.simple.buttons) (hands := []) (fingers := [])).2 (by
      intro e he
      obtain ⟨t, _, hb⟩ := (whole_pressed h e.1).1 ⟨e.2, he⟩
      exact pressed_fingered hu hb)
    have hpos : (s.simple.buttons.map Prod.snd).sum ≠ 0 := by
      rw [sum_of_counts h.ok.buttons h.positive.buttons (whole_buttons h)]
      obtain ⟨t, ht, x, hx, _⟩ := hal
      have hlen : typedTexts (typedFor su t) ≠ [] := List.ne_nil_of_mem hx
      rw [← List.length_pos_iff, length_typedTexts] at hlen
      obtain ⟨c, hc⟩ := List.exists_mem_of_length_pos hlen
      obtain ⟨m, hmem⟩ := mem_presses.1 hc
      unfold typedFor at hmem
      rw [hL] at hmem
      obtain ⟨m', b', rfl, _⟩ := mem_producers.1 (typed_producer hmem)
      have hb' : b' ∈ pressed (typedFor su t) := List.mem_flatMap.2 ⟨_, hc, by simp⟩
      exact (List.length_pos_of_mem (List.mem_flatMap.2 ⟨t, ht, hb'⟩)).ne'
    simp only [layoutstats, layoutHandStats, hl, bind, Except.bind, hz', if_neg hpos]
    exact ⟨_, rfl⟩

/-- **C122** (what the page needs): there is a table of hands and fingers exactly if each finger presses a button for some
text. -/
theorem C122_fingers (su : Setup) (texts : List Text) (s : AllStats) (h : Whole su texts s) (r : LayoutStats)
    (hr : layoutstats su.hf su.layout s.simple = .ok r) :
    AllFingers r ↔ ∀ d f, ∃ t ∈ texts, 0 < fingerPresses su.hf d f (typedFor su t) := by
  obtain ⟨c1, c2, c3, _⟩ := C91_figures _ _ _ _ hr
  have hkey : ∀ d f, r.fingers.get? (d, f) ≠ none ↔ ∃ t ∈ texts, 0 < fingerPresses su.hf d f (typedFor su t) := by
    intro d f
    rw [← sum_pos_iff, show (texts.map fun t => fingerPresses su.hf d f (typedFor su t)).sum =
      pressesWhere su.hf (fun p => decide (p = (d, f))) s.simple.buttons from (whole_pressesWhere h su.hf _).symm]
    simp only [layoutstats, bind_ok_iff, Except.ok.injEq] at hr
    obtain ⟨q, hq, z, _, rfl⟩ := hr
    simp only [layoutHandStats, bind_ok_iff] at hq
    obtain ⟨⟨hands, fingers⟩, hl, hq⟩ := hq
    split at hq
    · cases hq
    simp only [Except.ok.injEq] at hq
    have hk : q.fingers.get? (d, f) ≠ none ↔ ∃ e ∈ s.simple.buttons, su.hf e.1 = .ok (d, f) := by
      rw [← hq, ← not_iff_not, not_not, Dict.get?_eq_none_iff, handFingerLoop_keys hl]
      simp
    change q.fingers.get? (d, f) ≠ none ↔ _
    rw [hk]
    unfold pressesWhere
    rw [sum_pos_iff]
    constructor
    · rintro ⟨e, he, hp⟩
      exact ⟨e, List.mem_filter.2 ⟨he, by simp [hp]⟩, h.positive.buttons e he⟩
    · rintro ⟨e, he, _⟩
      obtain ⟨he, hp⟩ := List.mem_filter.1 he
      refine ⟨e, he, ?_⟩
      cases hx : su.hf e.1 with
      | error x => simp [hx] at hp
      | ok p => simp only [hx, decide_eq_true_eq] at hp; rw [hp]
  constructor
  · rintro ⟨_, h2⟩ d f
    exact (hkey d f).1 ((h2 d).2 f)
  · intro hall
    have hpos : ∀ d, 0 < (texts.map fun t => handPresses su.hf d (typedFor su t)).sum := by
      intro d
      obtain ⟨t, ht, hp⟩ := hall d .index
      rw [sum_pos_iff]
      refine ⟨t, ht, ?_⟩
      unfold fingerPresses at hp
      unfold handPresses
      rw [List.countP_pos_iff] at hp ⊢
      obtain ⟨b, hb, hp⟩ := hp
      refine ⟨b, hb, ?_⟩
      cases hx : su.hf b with
      | error x => simp [hx] at hp
      | ok p => simp only [hx, decide_eq_true_eq] at hp ⊢; rw [hp]
    refine ⟨?_, fun d => ⟨⟨_, (hpos d).ne', ?_⟩, fun f => (hkey d f).2 (hall d f)⟩⟩
    · rw [c1, sum_of_counts h.ok.buttons h.positive.buttons (whole_buttons h)]
      obtain ⟨t, ht, hp⟩ := hall .left .index
      unfold fingerPresses at hp
      rw [List.countP_pos_iff] at hp
      obtain ⟨b, hb, _⟩ := hp
      exact (List.length_pos_of_mem (List.mem_flatMap.2 ⟨t, ht, hb⟩)).ne'
    · rw [c2]
      exact congrArg some (whole_pressesWhere h su.hf _)

/-- **C122** (heat map): if the buttons pressed have different names, none of them `total` or `buttons`, there is a heat map
exactly of the buttons pressed, each with the number of its presses in all texts. -/
theorem C122_heat (su : Setup) (texts : List Text) (s : AllStats) (h : Whole su texts s) (name : Button → String)
    (hi : ∀ t ∈ texts, ∀ b ∈ pressed (typedFor su t), (name b ≠ "total" ∧ name b ≠ "buttons") ∧
      ∀ t' ∈ texts, ∀ b' ∈ pressed (typedFor su t'), name b = name b' → b = b') :
    ∃ d, keyHeatmap name s.simple.buttons = .ok ((texts.map fun t => (pressed (typedFor su t)).length).sum, d) ∧ d.WF ∧
      ∀ n k, d.get? n = some k ↔ ∃ b, name b = n ∧ 0 < k ∧ k = (texts.map fun t => (pressed (typedFor su t)).count b).sum := by
  have hi' : ∀ e ∈ s.simple.buttons, ∀ e' ∈ s.simple.buttons, name e.1 = name e'.1 → e.1 = e'.1 := by
    intro e he e' he' hn
    obtain ⟨t, ht, hb⟩ := (whole_pressed h e.1).1 ⟨e.2, he⟩
    obtain ⟨t', ht', hb'⟩ := (whole_pressed h e'.1).1 ⟨e'.2, he'⟩
    exact (hi t ht _ hb).2 t' ht' _ hb' hn
  have hp := List.perm_insertionSort (fun a b : Button × Nat => a.2 ≤ b.2) s.simple.buttons
  have hl := heatLoop_ok (name := name) (s.simple.buttons.insertionSort fun a b => a.2 ≤ b.2)
    (fun e he e' he' => hi' e (hp.subset he) e' (hp.subset he')) ((hp.map Prod.fst).nodup_iff.2 h.ok.buttons) [] (by simp)
    (fun e he => by
      obtain ⟨t, ht, hb⟩ := (whole_pressed h e.1).1 ⟨e.2, hp.subset he⟩
      exact (hi t ht _ hb).1)
  have hwf : Dict.WF ((s.simple.buttons.insertionSort fun a b => a.2 ≤ b.2).map fun e => (name e.1, e.2)) := by
    unfold Dict.WF
    rw [List.map_map]
    have : (Prod.fst ∘ fun e : Button × Nat => (name e.1, e.2)) = name ∘ Prod.fst := rfl
    rw [this, ← List.map_map]
    refine List.Nodup.map_on ?_ ((hp.map Prod.fst).nodup_iff.2 h.ok.buttons)
    intro x hx y hy hxy
    obtain ⟨e, he, rfl⟩ := List.mem_map.1 hx
    obtain ⟨e', he', rfl⟩ := List.mem_map.1 hy
    exact hi' e (hp.subset he) e' (hp.subset he') hxy
  refine ⟨(s.simple.buttons.insertionSort fun a b => a.2 ≤ b.2).map fun e => (name e.1, e.2), ?_, hwf, fun n k => ?_⟩
  · unfold keyHeatmap
    rw [hl]
    simp only [bind, Except.bind, List.nil_append]
    rw [sum_of_counts h.ok.buttons h.positive.buttons (whole_buttons h), List.length_flatMap]
  · have hc : ∀ b, (texts.map fun t => (pressed (typedFor su t)).count b).sum = s.simple.buttons.count b := fun b => by
      rw [whole_buttons h, sum_flatMap_count]
    rw [Dict.get?_eq_some_iff hwf]
    simp only [List.mem_map, Prod.mk.injEq, hc]
    constructor
    · rintro ⟨e, he, rfl, rfl⟩
      have he' := hp.subset he
      refine ⟨e.1, rfl, h.positive.buttons e he', ?_⟩
      rw [Dict.count, Dict.get?_of_mem h.ok.buttons (k := e.1) (v := e.2) he']; rfl
    · rintro ⟨b, rfl, hpos, hk⟩
      refine ⟨(b, k), hp.symm.subset ?_, rfl, rfl⟩
      unfold Dict.count at hk
      cases hg : s.simple.buttons.get? b with
      | none => simp [hg] at hk; omega
      | some v =>
        rw [hg] at hk
        simp only [Option.getD_some] at hk
        rw [hk]
        exact Dict.mem_of_get? hg

/-- **C122** (letters): if some letter is typed there is a plot of letters, with a column for each letter typed, and the
number of times it is typed in all texts. -/
theorem C122_letters (su : Setup) (layers : List Layer) (hu : Usable su layers) (texts : List Text) (s : AllStats)
    (h : Whole su texts s) (lo : Char → Bool)
    (hl : ∃ t ∈ texts, ∃ x ∈ typedTexts (typedFor su t), ∃ c r, x = c :: r ∧ lo c = true) :
    ∃ rows, letterfreq su.layout lo s.simple.combinations = .ok rows ∧ (rows.map LetterRow.letter).Nodup ∧
      (∀ v, v ∈ rows.map LetterRow.letter ↔ ∃ c r, v = .str (c :: r) ∧ lo c = true ∧
        ∃ t ∈ texts, c :: r ∈ typedTexts (typedFor su t)) ∧
      ∀ row ∈ rows, ∀ x, row.letter = .str x → row.abs = (texts.map fun t => (typedTexts (typedFor su t)).count x).sum := by
  obtain ⟨name, kb, hL⟩ := hu.layout
  have htx : ∀ t, TextsOf su.layout (typedFor su t) := by
    intro t
    unfold typedFor
    rw [hL]
    exact C21_typed_texts _ _ _ _ _ _ hu.unambiguous hu.dicts
  have hne : ∀ t m c, Event.typed m c ∈ typedFor su t → m ≠ [] := by
    intro t m c hm hnil
    unfold typedFor at hm
    rw [hL] at hm
    obtain ⟨m', b', _, l, hl, _, hb⟩ := mem_producers.1 (typed_producer hm)
    exact hu.noEmptyText (hnil ▸ ⟨l, hl, b', hb⟩)
  have hmem : ∀ e ∈ s.simple.combinations, ∃ t ∈ texts, ∃ m, Event.typed m e.1 ∈ typedFor su t := by
    intro e he
    have := (mem_of_counts h.positive.combinations (whole_combinations h) e.1).1 (List.mem_map.2 ⟨e, he, rfl⟩)
    obtain ⟨t, ht, hc⟩ := List.mem_flatMap.1 this
    obtain ⟨m, hm⟩ := mem_presses.1 hc
    exact ⟨t, ht, m, hm⟩
  have hin : ∀ t ∈ texts, ∀ m c, Event.typed m c ∈ typedFor su t → ∃ n, 0 < n ∧ (c, n) ∈ s.simple.combinations := by
    intro t ht m c hm
    have := (mem_of_counts h.positive.combinations (whole_combinations h) c).2
      (List.mem_flatMap.2 ⟨t, ht, mem_presses.2 ⟨m, hm⟩⟩)
    obtain ⟨e, he, rfl⟩ := List.mem_map.1 this
    exact ⟨e.2, h.positive.combinations e he, he⟩
  have htyped : ∀ t x, x ∈ typedTexts (typedFor su t) ↔ ∃ c, Event.typed x c ∈ typedFor su t := by
    intro t x
    unfold typedTexts
    rw [List.mem_filterMap]
    constructor
    · rintro ⟨e, he, hx⟩
      cases e with
      | skip _ => simp at hx
      | typed m c => simp only [Option.some.injEq] at hx; subst hx; exact ⟨c, he⟩
    · rintro ⟨c, hc⟩; exact ⟨_, hc, rfl⟩
  obtain ⟨rows, hrows⟩ := C62_works su.layout lo s.simple.combinations (by
      intro e he
      obtain ⟨t, _, m, hm⟩ := hmem e he
      cases m with
      | nil => exact absurd rfl (hne t _ _ hm)
      | cons c r => exact ⟨c, r, htx t _ _ hm⟩) (by
      obtain ⟨t, ht, x, hx, c, r, rfl, hlo⟩ := hl
      obtain ⟨cb, hc⟩ := (htyped t _).1 hx
      obtain ⟨n, hn, he⟩ := hin t ht _ _ hc
      exact ⟨(cb, n), he, hn, _, htx t _ _ hc, c, r, rfl, hlo⟩)
  obtain ⟨k1, k2, k3, _⟩ := C62_counts su.layout lo _ rows hrows
  refine ⟨rows, hrows, k1, fun v => ?_, fun row hrow x hx => ?_⟩
  · rw [k2]
    constructor
    · rintro ⟨⟨c, r, rfl, hlo⟩, hcs⟩
      refine ⟨c, r, rfl, hlo, ?_⟩
      obtain ⟨e, he⟩ := List.exists_mem_of_ne_nil _ hcs
      obtain ⟨he, hg⟩ := List.mem_filter.1 he
      obtain ⟨t, ht, m, hm⟩ := hmem e he
      have := htx t _ _ hm
      simp only [decide_eq_true_eq] at hg
      rw [hg] at this
      simp only [Except.ok.injEq, LVal.str.injEq] at this
      exact ⟨t, ht, (htyped t _).2 ⟨e.1, by rw [this]; exact hm⟩⟩
    · rintro ⟨c, r, rfl, hlo, t, ht, hx⟩
      obtain ⟨cb, hc⟩ := (htyped t _).1 hx
      obtain ⟨n, _, he⟩ := hin t ht _ _ hc
      exact ⟨⟨c, r, rfl, hlo⟩, List.ne_nil_of_mem (List.mem_filter.2 ⟨he, by simpa using htx t _ _ hc⟩)⟩
  · rw [k3 row hrow, hx]
    unfold combsFor
    have := filter_of_counts h.ok.combinations h.positive.combinations (whole_combinations h)
      (fun c => decide (su.layout.getText c = .ok (.str x)))
    rw [this, countP_flatMap_sum]
    congr 1
    apply List.map_congr_left
    intro t _
    apply countP_presses
    intro t' c hc
    have := htx t _ _ hc
    rw [decide_eq_true_iff, this]
    simp

/-- **C122** (words): the dictionary has every word of the texts once, words that are more frequent before others, and each
with the number nearest to its share of all words, on the scale of the dictionary. -/
theorem C122_words (su : Setup) (texts : List Text) (s : AllStats) (h : Whole su texts s) :
    let total : Rat := (texts.map fun t => ((stretches (typedFor su t)).flatMap fun x =>
      delimitedWords su.letter (eventsText x)).length).sum
    ((latinImeDict s.words.words).map Prod.fst).Nodup ∧
    (∀ w, w ∈ (latinImeDict s.words.words).map Prod.fst ↔ ∃ t ∈ texts, 0 < wordCount su.letter (typedFor su t) w) ∧
    ∀ line ∈ latinImeDict s.words.words,
      let share : Rat := (texts.map fun t => wordCount su.letter (typedFor su t) line.1).sum / total
      ((23 : Rat) / 20) ^ (2 * (line.2 - 255) - 1) < share ^ 2 ∧ share ^ 2 < ((23 : Rat) / 20) ^ (2 * (line.2 - 255) + 1) := by
  intro total
  obtain ⟨sorted, h1, -, h3⟩ := C88_lines s.words.words h.positive.words
  have htot : ((s.words.words.map Prod.snd).sum : Rat) = total := by
    have := countsOf_totals h.ok h.counts
    simp only [corpusTotals, Prod.mk.injEq] at this
    rw [this.2]
  have hfst : (latinImeDict s.words.words).map Prod.fst = sorted.map Prod.fst := by
    clear h1
    generalize latinImeDict s.words.words = lines at h3
    induction h3 with
    | nil => rfl
    | cons h _ ih => rw [List.map_cons, List.map_cons, h.1, ih]
  have hp := h1.map Prod.fst
  refine ⟨?_, fun w => ?_, fun line hline => ?_⟩
  · rw [hfst, hp.nodup_iff]; exact h.ok.words
  · rw [hfst, hp.mem_iff]
    have := (AllPos.noZero h.positive.words).keys w
    unfold Dict.keys at this
    rw [this, h.counts.words, sum_pos_iff]
  · obtain ⟨e, he, h4, h5, h6⟩ := forall2_mem_right h3 hline
    have hc : (texts.map fun t => wordCount su.letter (typedFor su t) line.1).sum = e.2 := by
      rw [← h.counts.words, h4, Dict.count, Dict.get?_of_mem h.ok.words (k := e.1) (v := e.2) (h1.subset he)]; rfl
    rw [htot] at h5 h6
    simp only [hc]
    exact ⟨h5, h6⟩

/-- **C122** (efforts): there is a curve of efforts exactly if all triads typed in the texts can be rated. It has the name of
the layout. -/
theorem C122_curve (su : Setup) (layers : List Layer) (hu : Usable su layers) (texts : List Text) (s : AllStats)
    (h : Whole su texts s) (env : CarpalxEnv) :
    ((∃ c, triadEffortCurve su.layout env s.triads.triads = .ok c) ↔
      ∀ t ∈ texts, ∀ k, 0 < triadCount su.fresh.triads.ignored (typedFor su t) k → ∃ v, env.triadEffort k = .ok v) ∧
    ∀ c, triadEffortCurve su.layout env s.triads.triads = .ok c → c.layout = su.layout.name := by
  obtain ⟨name, kb, hL⟩ := hu.layout
  have hkeys : ∀ k, k ∈ s.triads.triads.keys ↔
      ∃ t ∈ texts, 0 < triadCount su.fresh.triads.ignored (typedFor su t) k := by
    intro k
    rw [(AllPos.noZero h.positive.triads).keys k, h.counts.triads, sum_pos_iff]
  refine ⟨⟨?_, fun hr => ?_⟩, ?_⟩
  · rintro ⟨c, hc⟩ t ht k hk
    simp only [triadEffortCurve, triadEffortData, bind_ok_iff] at hc
    obtain ⟨_, ⟨⟨b, W⟩, h1, _⟩, _⟩ := hc
    obtain ⟨e, he, rfl⟩ := List.mem_map.1 ((hkeys k).2 ⟨t, ht, hk⟩)
    exact ((binTriads_binned h1).known e he).2
  · obtain ⟨b, W, hb⟩ := binTriads_exists (L := su.layout) (env := env) (ts := s.triads.triads) (by
      intro e he
      obtain ⟨t, ht, hk⟩ := (hkeys e.1).1 (List.mem_map_of_mem he)
      refine ⟨?_, hr t ht _ hk⟩
      have hg : ∀ c, c = e.1.1 ∨ c = e.1.2.1 ∨ c = e.1.2.2 → ∃ m, su.layout.getText c = .ok m := by
        intro c hc
        obtain ⟨m, hm⟩ := mem_presses.1 (triadCount_mem hk c hc).1
        unfold typedFor at hm
        rw [hL] at hm
        have := C21_typed_texts _ _ _ _ _ _ hu.unambiguous hu.dicts m c hm
        exact ⟨_, by rw [hL]; exact this⟩
      obtain ⟨x, hx⟩ := hg _ (.inl rfl)
      obtain ⟨y, hy⟩ := hg _ (.inr (.inl rfl))
      obtain ⟨z, hz⟩ := hg _ (.inr (.inr rfl))
      exact ⟨(x, y, z), by simp [KeyboardLayout.triadText, hx, hy, hz, bind, Except.bind]⟩)
    simp only [triadEffortCurve, triadEffortData, hb, bind, Except.bind]
    exact ⟨_, rfl⟩
  · intro c hc
    simp only [triadEffortCurve, bind_ok_iff, Except.ok.injEq] at hc
    obtain ⟨_, _, rfl⟩ := hc
    rfl

/-! ### The shipped layouts -/

/-- The name of a button. -/
def shownName (t : InternTable) (b : Button) : String := match t.nameOf b with
  | .ok n => n
  | .error _ => ""

theorem mem_replaceCRLF {c : Char} (t : Text) : c ∈ replaceCRLF t → c ∈ t := by
  fun_induction replaceCRLF t with
  | case1 => simp
  | case2 x => simp
  | case3 c d t h ih =>
    obtain ⟨rfl, rfl⟩ := h
    simp only [List.mem_cons]
    rintro (h | h)
    · exact .inr (.inl h)
    · exact .inr (.inr (ih h))
  | case4 c d t h ih =>
    rw [List.mem_cons, List.mem_cons]
    rintro (h | h)
    · exact .inl h
    · exact .inr (ih h)

/-- Nothing is replaced by a backspace. -/
theorem no_backspace {t : Text} (h : '\x08' ∉ t) : '\x08' ∉ replaceCRLF (mapChars t charMap) := by
  intro hm
  obtain ⟨x, hx, hm⟩ := List.mem_flatMap.1 (mem_replaceCRLF _ hm)
  have hv : ∀ e ∈ charMap, '\x08' ∉ e.2 := by decide +kernel
  cases hg : charMap.get? x with
  | none => simp only [hg, List.mem_singleton] at hm; exact h (hm ▸ hx)
  | some y => simp only [hg] at hm; exact hv _ (Dict.mem_of_get? hg) hm

/-- **C122** (shipped layouts): the statistics of every shipped layout but `null` have all figures: those per layout exactly
if some form of alef is typed, the heat map always, and the efforts of both models if there is no backspace in the texts. -/
theorem C122_shipped (letter : Char → Bool) (names : List String) (t : InternTable) (kb : PhysicalKeyboard)
    (d' : KeyboardData) (hk : PhysicalKeyboard.deserialize (tableAfter names) Data.ibmpc105 = .ok (t, kb, d'))
    (d : LayoutData) (hd : d ∈ Data.layouts) (hnn : d ≠ Data.nullLayout) (L : KeyboardLayout)
    (hL : (GenericLayout.deserialize d).specialize t kb = .ok L) :
    ∃ fresh, AllStats.init t kb = .ok fresh ∧ ∀ (texts : List Text) (s : AllStats),
      let su := shippedSetup letter t L fresh
      Whole su texts s →
      ((∃ r, layoutstats su.hf L s.simple = .ok r) ↔ AlefTyped su texts) ∧
      (∃ m, keyHeatmap (shownName t) s.simple.buttons = .ok ((texts.map fun x => (pressed (typedFor su x)).length).sum, m) ∧
        ∀ n k, m.get? n = some k ↔ ∃ b, shownName t b = n ∧ 0 < k ∧
          k = (texts.map fun x => (pressed (typedFor su x)).count b).sum) ∧
      ∀ p ∈ Data.models, (∀ x ∈ texts, '\x08' ∉ x) →
        ∃ c, triadEffortCurve L (shippedEnv p t kb) s.triads.triads = .ok c ∧ c.layout = d.name := by
  have h2 := shipped_loaded hk
  obtain ⟨s0, ls, h1, hs0, rfl, h4, hu⟩ := shipped_setup letter h2 d hd L hL
  refine ⟨_, h1, fun texts s => ?_⟩
  intro su hw
  obtain ⟨hm1, hm2⟩ := shipped_matches h2 hd hnn h4
  obtain ⟨ns, hr⟩ := h2.table
  refine ⟨?_, ?_, fun p hp hb => ?_⟩
  · have := C122_layoutstats_iff su ls hu hm2 texts s hw
    exact this.trans ⟨fun h => h.2, fun h => ⟨hm1, h⟩⟩
  · have hname : ∀ x, ∀ b ∈ pressed (typedFor su x), ∃ n p, t.nameOf b = .ok n ∧ Data.fingermap.get? n = some p := by
      intro x b hb
      obtain ⟨q, hq⟩ := pressed_fingered hu hb
      simp only [su, shippedSetup, getHandFinger, bind_ok_iff] at hq
      obtain ⟨n, hn, hq⟩ := hq
      refine ⟨n, q, hn, ?_⟩
      unfold Dict.getItem at hq
      cases hg : Data.fingermap.get? n with
      | none => simp [hg] at hq
      | some v => simp only [hg, Except.ok.injEq] at hq; rw [hq]
    have hkey : Data.fingermap.get? "total" = none ∧ Data.fingermap.get? "buttons" = none := by decide +kernel
    obtain ⟨m, hm, _, hc⟩ := C122_heat su texts s hw (shownName t) (by
      intro x _ b hb
      obtain ⟨n, q, hn, hq⟩ := hname x b hb
      have e : shownName t b = n := by unfold shownName; rw [hn]
      refine ⟨⟨?_, ?_⟩, fun y _ b' hb' he => ?_⟩
      · rw [e]; rintro rfl; rw [hkey.1] at hq; cases hq
      · rw [e]; rintro rfl; rw [hkey.2] at hq; cases hq
      · obtain ⟨n', _, hn', _⟩ := hname y b' hb'
        have e' : shownName t b' = n' := by unfold shownName; rw [hn']
        rw [e, e'] at he
        subst he
        exact hr.inj hn hn')
    exact ⟨m, hm, hc⟩
  · obtain ⟨hc1, hc2⟩ := C122_curve su ls hu texts s hw (shippedEnv p t kb)
    obtain ⟨c, hc⟩ := hc1.2 (by
      intro x hx k hk
      have hrate : ∀ c, c = k.1 ∨ c = k.2.1 ∨ c = k.2.2 → c.iter ≠ [] ∧ ∀ b ∈ c.iter, Rateable (shippedEnv p t kb) b := by
        intro c hc
        obtain ⟨hp1, hp2⟩ := triadCount_mem hk c hc
        obtain ⟨m, hm⟩ := mem_presses.1 hp1
        exact shipped_rateable hp h2 hd h4 hs0 (no_backspace (hb x hx)) m c hm hp2
      have r1 := hrate _ (.inl rfl)
      have r2 := hrate _ (.inr (.inl rfl))
      have r3 := hrate _ (.inr (.inr rfl))
      refine triadEffort_ok_iff.2 ⟨⟨r1.1, r2.1, r3.1⟩, ?_⟩
      rintro b (h | h | h)
      · exact r1.2 b h
      · exact r2.2 b h
      · exact r3.2 b h)
    exact ⟨c, hc, hc2 c hc⟩

/-! ### The page -/

/-- The setup is that of the shipped layout of a name. -/
def ShippedFor (name : String) (su : Setup) : Prop :=
  ∃ letter names t kb d' d L fresh, PhysicalKeyboard.deserialize (tableAfter names) Data.ibmpc105 = .ok (t, kb, d') ∧
    d ∈ Data.layouts ∧ d.name = name ∧ (GenericLayout.deserialize d).specialize t kb = .ok L ∧
    AllStats.init t kb = .ok fresh ∧ su = shippedSetup letter t L fresh

/-- What is needed of a shipped layout. -/
theorem shippedFor_usable {name : String} (hn : name ∈ genLayouts) {su : Setup} (h : ShippedFor name su) :
    su.layout.name = name ∧ ∃ layers, Usable su layers ∧ DistinctModifiers layers ∧
      ∀ l ∈ alefLetter :: hamzaLetters, ¬ NoMatch layers l := by
  obtain ⟨letter, names, t, kb, d', d, L, fresh, hk, hd, rfl, hL, hf, rfl⟩ := h
  have h2 := shipped_loaded hk
  obtain ⟨s0, ls, h1, _, rfl, h4, hu⟩ := shipped_setup letter h2 d hd L hL
  rw [hf] at h1
  simp only [Except.ok.injEq] at h1
  subst h1
  have hnn : d ≠ Data.nullLayout := by
    rintro rfl
    revert hn
    decide +kernel
  obtain ⟨hm1, hm2⟩ := shipped_matches h2 hd hnn h4
  exact ⟨rfl, ls, hu, hm2, hm1⟩

/-- The file with the figures of a layout. -/
theorem layoutFile_ok {name : String} (hn : name ∈ genLayouts) {l : LayoutRuns} (hs : ShippedFor name l.setup)
    (ht : AllTyped l) (hv : Varied l) :
    ∃ r, l.layoutFile = .ok (name, r) ∧ AllFingers r ∧
      (let T := (LayoutRuns.texts l).flatMap fun t => typedTexts (typedFor l.setup t)
      r.hamzaImpact * T.length = T.countP (fun t => decide (t ∈ hamzaLetters)) ∧
      r.hamzaOnAlef * (T.count alefLetter + T.count alefAbove + T.count alefBelow) = T.count alefAbove + T.count alefBelow) ∧
      r.asymmetry * overTexts l (fun e => (pressed e).length) =
        overTexts l (handPresses l.setup.hf .left) - overTexts l (handPresses l.setup.hf .right) ∧
      ∀ bars, fingerHandStats r.toHandStats = .ok bars → BarsOf l bars := by
  obtain ⟨h1, layers, hu, hm, hno⟩ := shippedFor_usable hn hs
  obtain ⟨f, hf, hw⟩ := C122_whole_partial _ _ hu l.runs ht.built ht.done
  obtain ⟨r, hr⟩ := (C122_layoutstats_iff _ _ hu hm _ f hw).2 ⟨hno, hv.alef⟩
  obtain ⟨f1, f2, f3, _, _, f6⟩ := C122_layoutstats _ _ hu hm _ f hw r hr
  refine ⟨r, ?_, (C122_fingers _ _ f hw r hr).2 hv.fingers, ⟨f1, f2⟩, ?_, fun bars hb => ?_⟩
  · simp only [LayoutRuns.layoutFile, hf, hr, h1, bind, Except.bind]
  · rw [f3] at f6
    exact f6
  · obtain ⟨t1, _, t3⟩ := C91_table _ _ _ _ hr bars hb
    refine ⟨t1, fun b hb => ?_⟩
    obtain ⟨q1, _, _, q4, q5⟩ := t3 b hb
    have e : (f.simple.buttons.map Prod.snd).sum = overTexts l fun e => (pressed e).length := by
      rw [sum_of_counts hw.ok.buttons hw.positive.buttons (whole_buttons hw), List.length_flatMap]
      rfl
    rw [e, whole_pressesWhere hw] at q4
    refine ⟨q4, q1, fun x hx => ?_⟩
    have := (q5 x hx).1
    rw [e, whole_pressesWhere hw] at this
    exact this

theorem mapM_zip_pickle {l : LayoutRuns} (metas : List (Option (Nat × Nat) → CorpusDoc)) (runs : List CorpusRun)
    (files : List AllStats) (h : runs.mapM (CorpusRun.pickle l.setup) = .ok files) :
    ((metas.zip runs).mapM fun x => l.corpusFile x.1 x.2) =
      .ok (List.zipWith (fun m x => [some (m (some x))]) metas (files.map corpusTotals)) := by
  rw [mapM_ok_iff] at h ⊢
  induction h generalizing metas with
  | nil => simp
  | cons h _ ih =>
    cases metas with
    | nil => simp
    | cons m metas =>
      simp only [List.zip_cons_cons, List.map_cons, List.zipWith_cons_cons, List.forall₂_cons]
      exact ⟨by simp only [LayoutRuns.corpusFile, h, bind, Except.bind], ih metas⟩

/-- **C122** (page): if all corpora are typed on all shipped layouts without failure, and the texts use some form of alef and
every finger on each of them, there is a page, unless there are 10²⁷ words or characters. It shows what is typed for all
texts: for each layout the shares of hands and fingers and the asymmetry, the two figures about hamza on the layout
`ar-osx`, and the numbers of words and characters on `ar-lulua`. -/
theorem C122_page (lower : Text → Text) (layouts : List LayoutRuns)
    (hs : List.Forall₂ (fun n (l : LayoutRuns) => ShippedFor n l.setup) genLayouts layouts)
    (ht : ∀ l ∈ layouts, AllTyped l) (hv : ∀ l ∈ layouts, Varied l)
    (lulua : LayoutRuns) (hl : lulua ∈ layouts) (h8 : lulua.runs.length = 8)
    (hsmall : overTexts lulua (fun e => (presses e).length) < 10 ^ 27 ∧ overTexts lulua (fun e =>
      ((stretches e).flatMap fun x => delimitedWords lulua.setup.letter (eventsText x)).length) < 10 ^ 27) :
    ∃ p, buildPage lower Data.corpora lulua layouts = .ok p ∧
      (p.layouts.map LayoutTable.layout).Perm genLayouts ∧
      (∀ tb ∈ p.layouts, ∃ l ∈ layouts, l.setup.layout.name = tb.layout ∧ BarsOf l tb.bars ∧
        tb.asymmetry * overTexts l (fun e => (pressed e).length) =
          overTexts l (handPresses l.setup.hf .left) - overTexts l (handPresses l.setup.hf .right)) ∧
      (∃ l ∈ layouts, l.setup.layout.name = "ar-osx" ∧
        let T := (LayoutRuns.texts l).flatMap fun t => typedTexts (typedFor l.setup t)
        p.hamzaImpact * T.length = 100 * T.countP (fun t => decide (t ∈ hamzaLetters)) ∧
        ∃ q : Rat, fraction q 10 = .ok p.hamzaOnAlef ∧
          q * (T.count alefLetter + T.count alefAbove + T.count alefBelow) = T.count alefAbove + T.count alefBelow) ∧
      (∀ tab ∈ [(PageLang.ar, p.ar), (PageLang.en, p.en)],
        ShowsAbout tab.1 (overTexts lulua fun e => (presses e).length) tab.2.characters ∧
        ShowsAbout tab.1 (overTexts lulua fun e =>
          ((stretches e).flatMap fun x => delimitedWords lulua.setup.letter (eventsText x)).length) tab.2.words ∧
        tab.2.rows.length = 8) := by
  have hfile : ∀ {n : String} {l : LayoutRuns}, n ∈ genLayouts → l ∈ layouts → ShippedFor n l.setup → _ :=
    fun {n l} hn hm h => layoutFile_ok hn h (ht l hm) (hv l hm)
  obtain ⟨stats, hstats⟩ := (mapM_exists_iff (f := LayoutRuns.layoutFile) (l := layouts)).2 (by
    intro l hm
    obtain ⟨n, hn, h⟩ := forall2_mem_right hs hm
    obtain ⟨r, hr, _⟩ := hfile hn hm h
    exact ⟨_, hr⟩)
  have hst := (mapM_ok_iff _ _ _).1 hstats
  have hnames : stats.map Prod.fst = genLayouts := by
    clear hstats hfile hsmall ht hv hl
    generalize genLayouts = gs at hs
    induction hs generalizing stats with
    | nil => cases hst; rfl
    | cons h _ ih =>
      cases hst with
      | cons h1 h2 =>
        obtain ⟨_, _, _, _, _, d, L, _, _, _, hn, hL, _, hsu⟩ := h
        simp only [LayoutRuns.layoutFile, bind_ok_iff, Except.ok.injEq] at h1
        obtain ⟨_, _, _, _, rfl⟩ := h1
        rw [List.map_cons, ih _ h2, hsu, ← hn]
        simp only [GenericLayout.specialize, bind_ok_iff, Except.ok.injEq] at hL
        obtain ⟨_, _, rfl⟩ := hL
        rfl
  have hall : ∀ x ∈ stats, AllFingers x.2 := by
    intro x hx
    obtain ⟨l, hm, hr⟩ := forall2_mem_right hst hx
    obtain ⟨n, hn, h⟩ := forall2_mem_right hs hm
    obtain ⟨r, hr', hf, _⟩ := hfile hn hm h
    rw [hr] at hr'
    simp only [Except.ok.injEq] at hr'
    subst hr'
    exact hf
  obtain ⟨n0, hn0, hs0⟩ := forall2_mem_right hs hl
  obtain ⟨_, layers, hu, _, _⟩ := shippedFor_usable hn0 hs0
  obtain ⟨f, hf, hw⟩ := C122_whole_partial _ _ hu lulua.runs (ht _ hl).built (ht _ hl).done
  have htot := countsOf_totals hw.ok hw.counts
  obtain ⟨f', hf', htot'⟩ := C117_totals _ _ hu lulua.runs (ht _ hl).built
  rw [hf] at hf'
  simp only [Except.ok.injEq] at hf'
  subst hf'
  simp only [allPickle, bind_ok_iff] at hf
  obtain ⟨files, hfiles, _⟩ := hf
  have hlen : (files.map corpusTotals).length = 8 := by
    rw [List.length_map, ← ((mapM_ok_iff _ _ _).1 hfiles).length_eq, h8]
  have hsum : (((files.map corpusTotals).map Prod.fst).sum, ((files.map corpusTotals).map Prod.snd).sum) = corpusTotals f := by
    simp only [reportTotals, hfiles, bind, Except.bind] at htot'
    have h5 := (C90_report_total ((files.map corpusTotals).map some)).1 (files.map corpusTotals) rfl
    rw [List.map_map] at h5
    have e : (files.map fun f => some (corpusTotals f)) = files.map (some ∘ corpusTotals) := rfl
    rw [e, h5] at htot'
    simpa using htot'
  rw [htot, Prod.mk.injEq] at hsum
  obtain ⟨p, hp, hrows1, hrows2, _⟩ := C119_shipped lower (files.map corpusTotals) hlen
    ⟨by rw [hsum.1]; exact hsmall.1, by rw [hsum.2]; exact hsmall.2⟩ stats hnames hall
  obtain ⟨_, hd2, hd3⟩ := corpora_docs (files.map corpusTotals) hlen
  obtain ⟨docs, hdocs, _, _, _, c1, c2, c3, c4⟩ := C119_corpora lower _ stats p hp
  have hsumOf : ∀ g, sumOf g docs = ((files.map corpusTotals).map g).sum := by
    intro g
    unfold sumOf
    rw [((hdocs.filterMap _).map g).sum_eq, hd2, hd3]
  obtain ⟨l1, l2, osx, l3, l4, l5⟩ := C119_layouts lower _ stats p hp
  have hfrom : ∀ name s, LastOf stats name s → ∃ l ∈ layouts, l.setup.layout.name = name ∧ name ∈ genLayouts ∧
      ShippedFor name l.setup ∧ l.layoutFile = .ok (name, s) := by
    rintro name s ⟨a, b, he, _⟩
    obtain ⟨l, hm, hr⟩ := forall2_mem_right hst (b := (name, s)) (by rw [he]; simp)
    obtain ⟨n, hn, h⟩ := forall2_mem_right hs hm
    have h1 := (shippedFor_usable hn h).1
    obtain ⟨r, hr', _⟩ := hfile hn hm h
    rw [hr] at hr'
    simp only [Except.ok.injEq, Prod.mk.injEq] at hr'
    obtain ⟨rfl, rfl⟩ := hr'
    exact ⟨l, hm, h1, hn, h, hr⟩
  refine ⟨p, ?_, l1, ?_, ?_, ?_⟩
  · simp only [buildPage, mapM_zip_pickle Data.corpora lulua.runs files hfiles, hstats, bind, Except.bind]
    exact hp
  · intro tb htb
    obtain ⟨s, hs1, hs2, hs3⟩ := l2 tb htb
    obtain ⟨l, hm, hn1, hn2, h, hr⟩ := hfrom _ _ hs1
    obtain ⟨r, hr', _, _, ha, hbars⟩ := hfile hn2 hm h
    rw [hr] at hr'
    simp only [Except.ok.injEq, Prod.mk.injEq, true_and] at hr'
    subst hr'
    exact ⟨l, hm, hn1, hbars _ hs2, by rw [hs3]; exact ha⟩
  · obtain ⟨l, hm, hn1, hn2, h, hr⟩ := hfrom _ _ l3
    obtain ⟨r, hr', _, ⟨z1, z2⟩, _⟩ := hfile hn2 hm h
    rw [hr] at hr'
    simp only [Except.ok.injEq, Prod.mk.injEq, true_and] at hr'
    subst hr'
    refine ⟨l, hm, hn1, ?_, osx.hamzaOnAlef, l5, z2⟩
    rw [l4, ← z1]
    ring
  · rw [hsumOf, hsum.1] at c2 c4
    rw [hsumOf, hsum.2] at c1 c3
    simp only [List.mem_cons, List.not_mem_nil, or_false]
    rintro tab (rfl | rfl)
    · exact ⟨c2, c1, hrows1⟩
    · exact ⟨c4, c3, hrows2⟩

/-- **C122** (page): these conditions are necessary. -/
theorem C122_page_needs (lower : Text → Text) (metas : List (Option (Nat × Nat) → CorpusDoc)) (layouts : List LayoutRuns)
    (hs : List.Forall₂ (fun n (l : LayoutRuns) => ShippedFor n l.setup) genLayouts layouts)
    (ht : ∀ l ∈ layouts, AllTyped l) (lulua : LayoutRuns) (p : Page)
    (h : buildPage lower metas lulua layouts = .ok p) : ∀ l ∈ layouts, Varied l := by
  simp only [buildPage, bind_ok_iff] at h
  obtain ⟨corpora, _, stats, hstats, hp⟩ := h
  have hst := (mapM_ok_iff _ _ _).1 hstats
  have hnd : (layouts.map fun l => l.setup.layout.name).Nodup := by
    have : layouts.map (fun l => l.setup.layout.name) = genLayouts := by
      have hs' : List.Forall₂ (fun n (l : LayoutRuns) => l.setup.layout.name = n) genLayouts layouts := by
        refine hs.imp ?_
        rintro n l ⟨_, _, _, _, _, d, L, _, _, _, hn, hL, _, hsu⟩
        rw [hsu, ← hn]
        simp only [GenericLayout.specialize, bind_ok_iff, Except.ok.injEq] at hL
        obtain ⟨_, _, rfl⟩ := hL
        rfl
      clear hs ht hst hstats hp
      generalize genLayouts = gs at hs'
      induction hs' with
      | nil => rfl
      | cons h _ ih => rw [List.map_cons, h, ih]
    rw [this]
    exact genLayouts_names.2.1
  intro l hl
  obtain ⟨n, hn, hsh⟩ := forall2_mem_right hs hl
  obtain ⟨h1, layers, hu, hm, hno⟩ := shippedFor_usable hn hsh
  obtain ⟨f, hf, hw⟩ := C122_whole_partial _ _ hu l.runs (ht l hl).built (ht l hl).done
  obtain ⟨x, hx, hlx⟩ := forall2_mem_left hst hl
  have hlx' := hlx
  simp only [LayoutRuns.layoutFile, hf, bind_ok_iff, Except.ok.injEq] at hlx
  obtain ⟨_, rfl, r, hr, rfl⟩ := hlx
  refine ⟨((C122_layoutstats_iff _ _ hu hm _ f hw).1 ⟨r, hr⟩).2, ?_⟩
  refine (C122_fingers _ _ f hw r hr).1 ?_
  obtain ⟨s, ⟨a, b, he, _⟩, hall⟩ := ((C119_renders_iff lower corpora stats).1 ⟨p, hp⟩).2.2.2.2 n hn
  obtain ⟨l', hl', hr'⟩ := forall2_mem_right hst (b := (n, s)) (by rw [he]; simp)
  have hname : l'.setup.layout.name = n := by
    simp only [LayoutRuns.layoutFile, bind_ok_iff, Except.ok.injEq, Prod.mk.injEq] at hr'
    obtain ⟨_, _, _, _, h, _⟩ := hr'
    exact h
  have hll : l' = l := List.inj_on_of_nodup_map hnd hl' hl (hname.trans h1.symm)
  subst hll
  rw [hr'] at hlx'
  simp only [Except.ok.injEq, Prod.mk.injEq] at hlx'
  rw [← hlx'.2]
  exact hall

/-- **C122** (plot of efforts): if all corpora are typed on all shipped layouts without failure, and there is no backspace in
them, there is a plot of the efforts, which shows all layouts. -/
theorem C122_plot (set3 : Nat → Option (List String)) (hp : PaletteOk set3) (layouts : List LayoutRuns)
    (hs : List.Forall₂ (fun n (l : LayoutRuns) => ShippedFor n l.setup) genLayouts layouts)
    (ht : ∀ l ∈ layouts, AllTyped l) (hb : ∀ l ∈ layouts, ∀ t ∈ LayoutRuns.texts l, '\x08' ∉ t) :
    ∃ data p, List.Forall₂ (fun (l : LayoutRuns) c => ∃ names t kb d' f,
        PhysicalKeyboard.deserialize (tableAfter names) Data.ibmpc105 = .ok (t, kb, d') ∧ allPickle l.setup l.runs = .ok f ∧
        triadEffortCurve l.setup.layout (shippedEnv Data.mod01 t kb) f.triads.triads = .ok c) layouts data ∧
      triadEffortPlot set3 data = .ok p ∧ seen p.initial = genLayouts := by
  have hcurve : ∀ n (l : LayoutRuns), n ∈ genLayouts → l ∈ layouts → ShippedFor n l.setup → ∃ c, c.layout = n ∧ ∃ names t kb d' f,
      PhysicalKeyboard.deserialize (tableAfter names) Data.ibmpc105 = .ok (t, kb, d') ∧ allPickle l.setup l.runs = .ok f ∧
      triadEffortCurve l.setup.layout (shippedEnv Data.mod01 t kb) f.triads.triads = .ok c := by
    rintro n l hn hl hsh
    have hsh' := hsh
    obtain ⟨letter, names, t, kb, d', d, L, fresh, hk, hd, rfl, hL, hf, hsu⟩ := hsh
    obtain ⟨_, layers, hu, _⟩ := shippedFor_usable hn hsh'
    obtain ⟨f, hf', hw⟩ := C122_whole_partial _ _ hu l.runs (ht l hl).built (ht l hl).done
    have hnn : d ≠ Data.nullLayout := by
      rintro rfl
      revert hn
      decide +kernel
    obtain ⟨fresh', hfr, hall⟩ := C122_shipped letter names t kb d' hk d hd hnn L hL
    rw [hf] at hfr
    simp only [Except.ok.injEq] at hfr
    subst hfr
    rw [hsu] at hw
    obtain ⟨c, hc, hcn⟩ := (hall _ f hw).2.2 Data.mod01 (by decide +kernel) (hb l hl)
    exact ⟨c, hcn, names, t, kb, d', f, hk, hf', by rw [hsu]; exact hc⟩
  have hdata : ∃ data, data.map Curve.layout = genLayouts ∧ List.Forall₂ (fun (l : LayoutRuns) c => ∃ names t kb d' f,
        PhysicalKeyboard.deserialize (tableAfter names) Data.ibmpc105 = .ok (t, kb, d') ∧ allPickle l.setup l.runs = .ok f ∧
        triadEffortCurve l.setup.layout (shippedEnv Data.mod01 t kb) f.triads.triads = .ok c) layouts data := by
    clear ht hb
    generalize genLayouts = gs at hs hcurve
    induction hs with
    | nil => exact ⟨[], rfl, .nil⟩
    | cons h _ ih =>
      obtain ⟨data, h1, h2⟩ := ih (fun n l hn hl => hcurve n l (List.mem_cons_of_mem _ hn) (List.mem_cons_of_mem _ hl))
      obtain ⟨c, h3, h4⟩ := hcurve _ _ List.mem_cons_self List.mem_cons_self h
      exact ⟨c :: data, by rw [List.map_cons, h1, h3], .cons h4 h2⟩
  obtain ⟨data, h1, h2⟩ := hdata
  have hlen : data.length = 12 := by
    rw [← List.length_map (f := Curve.layout), h1]; exact genLayouts_names.1
  obtain ⟨p, h⟩ := (C121_works_partial set3 hp data).2 ⟨by omega, by omega, h1 ▸ genLayouts_names.2.1⟩
  exact ⟨data, p, h2, h, by rw [(C121_buttons set3 hp data p h).2.2.1, h1]⟩

/-! ### Examples -/

/-- The statistics of the corpus with one line are those of its texts. -/
example : ∃ f, allPickle demoSetup [demoRunOk] = .ok f ∧ Whole demoSetup [['a', 'b', ' '], ['a', ' ']] f :=
  C122_whole_partial demoSetup demoLayers demo_usable [demoRunOk] (by simpa using demoRunOk_built) (by simp [demoRunOk])

/-- Its letters, with counts, and its words. -/
example : ((allPickle demoSetup [demoRunOk]).bind fun f => (letterfreq demoSetup.layout (fun c => decide ('a' ≤ c)) f.simple.combinations).bind
    fun rows => .ok (rows.map fun r => (r.letter, r.abs), f.words.words)) =
    .ok ([(.str ['a', 'b'], 1), (.str ['a'], 1)], [(['a', 'b'], 1), (['a'], 1)]) := by decide +kernel

end Lulua.Props
