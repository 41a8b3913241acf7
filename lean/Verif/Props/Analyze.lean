import Verif.Proofs.Analyze
import Verif.Proofs.LatinIme
import Verif.Proofs.OptArgs
import Verif.Props.Stats
import Verif.Props.Render
import Verif.Props.Shipped

/-!
# C87–C91: evaluating statistics
-/

namespace Lulua.Props
open Lulua Spec

/-! ### C87 -/

/-- Figures of the events `evs` on a layout. -/
def hamzaOf (L : KeyboardLayout) (evs : List Event) : Py (Rat × Rat) :=
  hamzaStats L (evs.foldl SimpleStats.process .init).combinations

/-- **C87**: the impact of the hamza is the share of letters with hamza in everything typed, and the other figure is
the share of forms with hamza in all forms of alef. -/
theorem C87_hamza_figures (name : String) (layers : List Layer) (kb : PhysicalKeyboard)
    (hU : UnambiguousModifiers layers) (hd : ∀ l ∈ layers, Dict.WF l.layout) (hm : DistinctModifiers layers)
    (evs : List Event) (ht : TypedWith layers evs) (impact onAlef : Rat)
    (h : hamzaOf (KeyboardLayout.mk' name layers kb) evs = .ok (impact, onAlef)) :
    let T := typedTexts evs
    impact * T.length = T.countP (fun t => decide (t ∈ hamzaLetters)) ∧
    onAlef * (T.count alefLetter + T.count alefAbove + T.count alefBelow) = T.count alefAbove + T.count alefBelow ∧
    0 ≤ impact ∧ impact ≤ 1 ∧ 0 ≤ onAlef ∧ onAlef ≤ 1 ∧
    0 < T.length ∧ 0 < T.count alefLetter + T.count alefAbove + T.count alefBelow := by
  intro T
  by_cases hl : ∃ l ∈ alefLetter :: hamzaLetters, NoMatch layers l
  · have := hamzaLoop_error (name := name) (kb := kb) (evs.foldl SimpleStats.process .init).combinations
      (alefLetter :: hamzaLetters) [] hl
    unfold hamzaOf hamzaStats at h
    rw [alef_eq, letterWithHamza_eq, this] at h
    simp [bind, Except.bind] at h
  · have hl' : ∀ l ∈ alefLetter :: hamzaLetters, ¬ NoMatch layers l := fun l h1 h2 => hl ⟨l, h1, h2⟩
    unfold hamzaOf at h
    rw [hamzaStats_eq hU hd hm ht hl'] at h
    change (if T = [] then _ else if T.count alefAbove + T.count alefBelow + T.count alefLetter = 0 then _ else _) = _ at h
    split at h
    · cases h
    · rename_i h0
      split at h
      · cases h
      · rename_i h1
        simp only [Except.ok.injEq, Prod.mk.injEq] at h
        obtain ⟨rfl, rfl⟩ := h
        have hlen : 0 < T.length := List.length_pos_iff.2 h0
        have hlenQ : (0 : Rat) < (T.length : Nat) := by exact_mod_cast hlen
        have hsum : 0 < T.count alefAbove + T.count alefBelow + T.count alefLetter := Nat.pos_of_ne_zero h1
        have hsumQ : (0 : Rat) < (T.count alefAbove + T.count alefBelow + T.count alefLetter : Nat) := by
          exact_mod_cast hsum
        refine ⟨div_mul_cancel₀ _ hlenQ.ne', ?_, by positivity, ?_, by positivity, ?_, hlen, by omega⟩
        · have e : ((T.count alefLetter : Rat) + T.count alefAbove + T.count alefBelow) =
              ((T.count alefAbove + T.count alefBelow + T.count alefLetter : Nat) : Rat) := by push_cast; ring
          rw [e, div_mul_cancel₀ _ hsumQ.ne']
          push_cast; ring
        · rw [div_le_one hlenQ]
          exact_mod_cast List.countP_le_length
        · rw [div_le_one hsumQ]
          exact_mod_cast Nat.le_add_right _ _

/-- **C87** (exceptions): there are no figures exactly if the layout has nothing to type one of the letters with, or
no form of alef was typed. -/
theorem C87_raises_iff (name : String) (layers : List Layer) (kb : PhysicalKeyboard)
    (hU : UnambiguousModifiers layers) (hd : ∀ l ∈ layers, Dict.WF l.layout) (hm : DistinctModifiers layers)
    (evs : List Event) (ht : TypedWith layers evs) :
    (∃ e, hamzaOf (KeyboardLayout.mk' name layers kb) evs = .error e) ↔
      (∃ l ∈ alefLetter :: hamzaLetters, NoMatch layers l) ∨
      ∀ t ∈ typedTexts evs, t ≠ alefLetter ∧ t ≠ alefAbove ∧ t ≠ alefBelow := by
  by_cases hl : ∃ l ∈ alefLetter :: hamzaLetters, NoMatch layers l
  · have := hamzaLoop_error (name := name) (kb := kb) (evs.foldl SimpleStats.process .init).combinations
      (alefLetter :: hamzaLetters) [] hl
    refine ⟨fun _ => .inl hl, fun _ => ⟨.keyError, ?_⟩⟩
    unfold hamzaOf hamzaStats
    rw [alef_eq, letterWithHamza_eq, this]
    rfl
  · have hl' : ∀ l ∈ alefLetter :: hamzaLetters, ¬ NoMatch layers l := fun l h1 h2 => hl ⟨l, h1, h2⟩
    unfold hamzaOf
    rw [hamzaStats_eq hU hd hm ht hl']
    have e : (typedTexts evs).count alefAbove + (typedTexts evs).count alefBelow + (typedTexts evs).count alefLetter = 0 ↔
        ∀ t ∈ typedTexts evs, t ≠ alefLetter ∧ t ≠ alefAbove ∧ t ≠ alefBelow := by
      rw [Nat.add_eq_zero_iff, Nat.add_eq_zero_iff, List.count_eq_zero, List.count_eq_zero, List.count_eq_zero]
      constructor
      · rintro ⟨⟨h1, h2⟩, h3⟩ t ht
        exact ⟨fun h => h3 (h ▸ ht), fun h => h1 (h ▸ ht), fun h => h2 (h ▸ ht)⟩
      · intro h
        exact ⟨⟨fun hh => (h _ hh).2.1 rfl, fun hh => (h _ hh).2.2 rfl⟩, fun hh => (h _ hh).1 rfl⟩
    constructor
    · rintro ⟨x, hx⟩
      right
      split at hx
      · rename_i h0; rw [h0]; simp
      · split at hx
        · rename_i h1; exact e.1 h1
        · cases hx
    · rintro (h | h)
      · exact absurd h hl
      · split
        · exact ⟨_, rfl⟩
        · rw [if_pos (e.2 h)]; exact ⟨_, rfl⟩

/-- **C87** (typed texts): every press of a typed text produces what it was made for. -/
theorem C87_typed_texts (hf : HandFinger) (name : String) (layers : List Layer) (kb : PhysicalKeyboard)
    (last : Option Comb) (text : Text) :
    TypedWith layers (typeText hf (KeyboardLayout.mk' name layers kb) last text).1 :=
  fun _ _ h => mem_producers.1 (typed_mem_producers h)

/-- **C87** (a text without alef): then `layoutstats` always fails. -/
theorem C87_no_alef_fails (hf : HandFinger) (name : String) (layers : List Layer) (kb : PhysicalKeyboard)
    (hU : UnambiguousModifiers layers) (hd : ∀ l ∈ layers, Dict.WF l.layout) (hm : DistinctModifiers layers)
    (last : Option Comb) (text : Text) (h : Char.ofNat 0x627 ∉ text) :
    ∃ e, layoutstats hf (KeyboardLayout.mk' name layers kb)
      ((typeText hf (KeyboardLayout.mk' name layers kb) last text).1.foldl SimpleStats.process .init) = .error e := by
  obtain ⟨e, he⟩ := (C87_raises_iff name layers kb hU hd hm _ (C87_typed_texts hf name layers kb last text)).2 (.inr (by
    intro t ht
    have hsub : ∀ c ∈ t, c ∈ text := by
      obtain ⟨c, hc⟩ := mem_typedTexts.1 ht
      intro x hx
      refine (C01_typing_prefix hf (KeyboardLayout.mk' name layers kb) last text).subset ?_
      exact List.mem_flatMap.2 ⟨_, hc, hx⟩
    refine ⟨?_, ?_, ?_⟩ <;> rintro rfl <;> exact h (hsub _ (by decide))))
  unfold layoutstats
  cases layoutHandStats hf _ with
  | error x => exact ⟨x, rfl⟩
  | ok r =>
    unfold hamzaOf at he
    simp only [bind, Except.bind, he]
    exact ⟨e, rfl⟩

/-- A layout with alef, alef with hamza above (with shift), yah, waw and ba. -/
def hamzaLayers : List Layer :=
  [ { modifier := [[]], layout := [(0, .str ['ا']), (1, .str ['ي']), (2, .str ['و']), (3, .str ['ب'])] },
    { modifier := [[10], [11]], layout := [(0, .str ['ا', 'ٔ'])] } ]

def hamzaLayout : KeyboardLayout := KeyboardLayout.mk' "hamza" hamzaLayers demoKeyboard

example : (UnambiguousModifiers hamzaLayers ∧ (∀ l ∈ hamzaLayers, Dict.WF l.layout) ∧ DistinctModifiers hamzaLayers) ∧
    hamzaOf hamzaLayout (typeText demoHf hamzaLayout none "باأبا".toList).1 = .ok (0, 0) ∧
    hamzaOf hamzaLayout (typeText demoHf hamzaLayout none ['ب', 'ا', 'ا', 'ٔ', 'ا', 'و', 'ا']).1 = .ok (1 / 6, 1 / 4) ∧
    hamzaOf hamzaLayout (typeText demoHf hamzaLayout none "بيو".toList).1 = .error .zeroDivision ∧
    hamzaOf demoLayout (typeText demoHf demoLayout none "ab".toList).1 = .error .keyError := by
  refine ⟨⟨?_, by decide, by unfold DistinctModifiers; decide⟩, by decide +kernel, by decide +kernel, by decide +kernel,
    by decide +kernel⟩
  intro i j hi hj m h1 h2
  simp only [hamzaLayers, List.length_cons, List.length_nil] at hi hj
  have : i = 0 ∨ i = 1 := by omega
  have : j = 0 ∨ j = 1 := by omega
  rcases ‹i = 0 ∨ i = 1› with rfl | rfl <;> rcases ‹j = 0 ∨ j = 1› with rfl | rfl <;>
    simp_all [hamzaLayers]

/-- **C87** (proviso): a layer that lists a set of modifiers twice has its letters counted twice, to the point that more
than everything carries a hamza. -/
theorem C87_duplicate_modifiers : ∃ (layers : List Layer) (i a : Rat),
    UnambiguousModifiers layers ∧ (∀ l ∈ layers, Dict.WF l.layout) ∧
    hamzaOf (KeyboardLayout.mk' "" layers demoKeyboard)
      (typeText demoHf (KeyboardLayout.mk' "" layers demoKeyboard) none ['ا', 'ٔ']).1 = .ok (i, a) ∧ 1 < i := by
  refine ⟨[{ modifier := [[], []], layout := [(0, .str ['ا', 'ٔ']), (1, .str ['ا']), (2, .str ['ي']), (3, .str ['و'])] }],
    2, 1, ?_, by decide, by decide +kernel, by norm_num⟩
  intro i j hi hj m _ _
  simp only [List.length_cons, List.length_nil] at hi hj
  omega

/-- Every shipped layout but the empty one has alef, yah and waw, and no layer with a modifier set listed twice. -/
theorem shipped_hamza : ∀ d ∈ Data.layouts, d = Data.nullLayout ∨
    ((∀ c ∈ [Char.ofNat 0x627, Char.ofNat 0x64a, Char.ofNat 0x648], ∃ g ∈ d.layout, ∃ n, (n, LVal.str [c]) ∈ g.layout) ∧
      ∀ g ∈ d.layout, distinctModifiers (g.modifier.map fun m => { g with modifier := [m] }) = true) := by
  have h : (Data.layouts.all fun d => d == Data.nullLayout ||
      (([Char.ofNat 0x627, Char.ofNat 0x64a, Char.ofNat 0x648].all fun c => d.layout.any fun g => g.layout.any fun e =>
        decide (e.2 = LVal.str [c])) &&
      d.layout.all fun g => distinctModifiers (g.modifier.map fun m => { g with modifier := [m] }))) = true := by
    decide +kernel
  intro d hd
  have := List.all_eq_true.1 h d hd
  simp only [Bool.or_eq_true, beq_iff_eq, Bool.and_eq_true] at this
  rcases this with h1 | ⟨h1, h2⟩
  · exact .inl h1
  · refine .inr ⟨fun c hc => ?_, fun g hg => List.all_eq_true.1 h2 g hg⟩
    obtain ⟨g, hg, h3⟩ := List.any_eq_true.1 (List.all_eq_true.1 h1 c hc)
    obtain ⟨e, he, h4⟩ := List.any_eq_true.1 h3
    exact ⟨g, hg, e.1, by rw [← of_decide_eq_true h4]; exact he⟩

/-- A shipped layout has what is needed for each of the letters with hamza and for alef, and no layer twice in the same way. -/
theorem shipped_matches {t : InternTable} {kb : PhysicalKeyboard} (h2 : LoadedAs t kb Data.ibmpc105) {d : LayoutData}
    (hd : d ∈ Data.layouts) (hnn : d ≠ Data.nullLayout) {ls : List Layer}
    (h4 : SpecializedAs t kb (boardNames Data.ibmpc105) d ls) :
    (∀ l ∈ alefLetter :: hamzaLetters, ¬ NoMatch ls l) ∧ DistinctModifiers ls := by
  have hg := shipped_good d hd
  have hgood := hg
  simp only [goodLayout, Bool.and_eq_true, List.all_eq_true] at hgood
  rcases shipped_hamza d hd with h5 | ⟨h5, h6⟩
  · exact absurd h5 hnn
  have htext : ∀ c ∈ [Char.ofNat 0x627, Char.ofNat 0x64a, Char.ofNat 0x648], HasText ls [c] := by
    intro c hc
    obtain ⟨g, hg', n, hx⟩ := h5 c hc
    obtain ⟨l, hl, htr⟩ := forall2_mem_left h4.layers hg'
    have hgl := goodLayer_iff (hgood.1 g hg')
    obtain ⟨b, hb⟩ := h2.called (hgl.2.2.2 n (by
      simp only [layerNames, List.mem_append, List.mem_map]; exact .inl ⟨_, hx, rfl⟩))
    have hget := htr.texts n b hb
    rw [Dict.get?_of_mem hgl.1 hx] at hget
    exact ⟨l, hl, b, Dict.mem_of_get? hget⟩
  have hall : ∀ l ∈ alefLetter :: hamzaLetters, ¬ NoMatch ls l := by
    intro l hl hno
    simp only [hamzaLetters, alefLetter, List.mem_cons, List.not_mem_nil, or_false] at hl
    rcases hl with rfl | rfl | rfl | rfl | rfl
    · exact hno _ (htext _ (by simp)) List.prefix_rfl
    · exact hno _ (htext _ (by simp)) ⟨_, rfl⟩
    · exact hno _ (htext _ (by simp)) ⟨_, rfl⟩
    · exact hno _ (htext (Char.ofNat 0x64a) (by simp)) ⟨_, rfl⟩
    · exact hno _ (htext (Char.ofNat 0x648) (by simp)) ⟨_, rfl⟩
  have hdm : DistinctModifiers ls := by
    intro l hl
    obtain ⟨g, hg', htr⟩ := forall2_mem_right h4.layers hl
    have hp := distinctModifiers_iff (h6 g hg')
    rw [List.pairwise_map] at hp
    have hmods := htr.modifiers
    simp only [List.forall₂_map_left_iff] at hmods
    have hlen := hmods.length_eq
    rw [List.Nodup, List.pairwise_iff_getElem]
    intro i j hi hj hij heq
    have g1 := (List.forall₂_iff_get.1 hmods).2 i (by omega) hi
    have g2 := (List.forall₂_iff_get.1 hmods).2 j (by omega) hj
    simp only [List.get_eq_getElem] at g1 g2
    rw [← heq] at g2
    have hpw := List.pairwise_iff_getElem.1 hp i j (by omega) (by omega) hij _ (List.mem_singleton.2 rfl) _
      (List.mem_singleton.2 rfl)
    apply hpw
    have hb1 := g1.2
    have hb2 := g2.2
    simp only [mem_nameSet] at hb1 hb2
    have name_of : ∀ x ∈ g.modifier, ∀ n ∈ x, n ∈ boardNames Data.ibmpc105 := by
      intro x hx n hn
      refine (goodLayer_iff (hgood.1 g hg')).2.2.2 n ?_
      simp only [layerNames, List.mem_append, List.mem_flatten]
      exact .inr ⟨x, hx, hn⟩
    have dir : ∀ (m : FSet) (x y : List String), (∀ b, b ∈ m ↔ ∃ n ∈ x, Called t kb n b) →
        (∀ b, b ∈ m ↔ ∃ n ∈ y, Called t kb n b) → (∀ n ∈ x, n ∈ boardNames Data.ibmpc105) → ∀ n ∈ x, n ∈ y := by
      intro m x y hx hy hxb n hn
      obtain ⟨b, hb⟩ := h2.called (hxb n hn)
      obtain ⟨n', hn', hb'⟩ := (hy b).1 ((hx b).2 ⟨n, hn, hb⟩)
      have e := hb.2.symm.trans hb'.2
      simp only [Except.ok.injEq] at e
      rw [e]; exact hn'
    intro n
    exact ⟨dir _ _ _ hb1 hb2 (name_of _ (List.getElem_mem _)) n, dir _ _ _ hb2 hb1 (name_of _ (List.getElem_mem _)) n⟩
  exact ⟨hall, hdm⟩

/-- **C87** (shipped layouts): with every shipped layout but the empty one there are figures exactly if a form of alef
was typed. -/
theorem C87_shipped (names : List String) (t : InternTable) (kb : PhysicalKeyboard) (d' : KeyboardData)
    (hk : PhysicalKeyboard.deserialize (tableAfter names) Data.ibmpc105 = .ok (t, kb, d'))
    (d : LayoutData) (hd : d ∈ Data.layouts) (hnn : d ≠ Data.nullLayout) (L : KeyboardLayout)
    (hL : (GenericLayout.deserialize d).specialize t kb = .ok L) (text : Text) :
    let evs := (typeText (getHandFinger Data.fingermap t) L none text).1
    (∃ r, hamzaOf L evs = .ok r) ↔
      ∃ x ∈ typedTexts evs, x = alefLetter ∨ x = alefAbove ∨ x = alefBelow := by
  have h2 := shipped_loaded hk
  have hg := shipped_good d hd
  obtain ⟨ls, h3, h4⟩ := load_layout h2 hg
  rw [hL] at h3
  simp only [Except.ok.injEq] at h3
  subst h3
  obtain ⟨hall, hdm⟩ := shipped_matches h2 hd hnn h4
  intro evs
  have key := C87_raises_iff d.name ls kb (h4.unambiguous hg (fun n hn => h2.called hn)) h4.wf hdm evs
    (C87_typed_texts _ _ _ _ _ _)
  constructor
  · rintro ⟨r, hr⟩
    by_contra hno
    obtain ⟨e, he⟩ := key.2 (.inr fun x hx => ⟨fun h => hno ⟨x, hx, .inl h⟩, fun h => hno ⟨x, hx, .inr (.inl h)⟩,
      fun h => hno ⟨x, hx, .inr (.inr h)⟩⟩)
    rw [he] at hr
    cases hr
  · rintro ⟨x, hx, hcase⟩
    cases hr : hamzaOf (KeyboardLayout.mk' d.name ls kb) evs with
    | ok r => exact ⟨r, rfl⟩
    | error e =>
      rcases key.1 ⟨e, hr⟩ with ⟨l, hl, hno⟩ | h7
      · exact absurd hno (hall l hl)
      · obtain ⟨h8, h9, h10⟩ := h7 x hx
        rcases hcase with h | h | h
        · exact absurd h h8
        · exact absurd h h9
        · exact absurd h h10

/-! ### C88 -/

/-- **C88** (lines): the dictionary has every word once, words that are more frequent before others, and each with the
exponent that brings the power of 1.15 nearest to its share of all words, on the logarithmic scale. -/
theorem C88_lines (words : Dict Text Nat) (hp : ∀ e ∈ words, 0 < e.2) :
    let total : Rat := (words.map Prod.snd).sum
    ∃ sorted : List (Text × Nat), sorted.Perm words ∧ sorted.Pairwise (fun a b => b.2 ≤ a.2) ∧
      List.Forall₂ (fun (e : Text × Nat) (line : Text × Int) => line.1 = e.1 ∧
        ((23 : Rat) / 20) ^ (2 * (line.2 - 255) - 1) < (e.2 / total) ^ 2 ∧
        (e.2 / total) ^ 2 < ((23 : Rat) / 20) ^ (2 * (line.2 - 255) + 1)) sorted (latinImeDict words) := by
  intro total
  refine ⟨words.insertionSort fun a b => b.2 ≤ a.2, List.perm_insertionSort _ _, ?_, ?_⟩
  · have : Std.Total (fun a b : Text × Nat => b.2 ≤ a.2) := ⟨fun a b => Nat.le_total _ _⟩
    have : IsTrans (Text × Nat) (fun a b => b.2 ≤ a.2) := ⟨fun a b c h1 h2 => h2.trans h1⟩
    exact List.pairwise_insertionSort _ _
  · unfold latinImeDict
    rw [List.forall₂_map_right_iff, List.forall₂_same]
    intro e he
    have he' := (List.perm_insertionSort (fun a b : Text × Nat => b.2 ≤ a.2) words).subset he
    have hn := hp e he'
    have hle : e.2 ≤ (words.map Prod.snd).sum :=
      List.single_le_sum (fun x _ => Nat.zero_le x) _ (List.mem_map.2 ⟨e, he', rfl⟩)
    have hpos : (0 : Rat) < (e.2 : Rat) / ((words.map Prod.snd).sum : Nat) := by
      have h1 : (0 : Rat) < e.2 := by exact_mod_cast hn
      have h2 : (0 : Rat) < ((words.map Prod.snd).sum : Nat) := by exact_mod_cast hn.trans_le hle
      positivity
    exact ⟨rfl, imeF_spec _ hpos⟩

/-- **C88** (the number is the best one): no other exponent is as near. -/
theorem C88_unique (p : Rat) (hp : 0 < p) (n : Int) : imeF p = n ↔
    ((23 : Rat) / 20) ^ (2 * (n - 255) - 1) < p ^ 2 ∧ p ^ 2 < ((23 : Rat) / 20) ^ (2 * (n - 255) + 1) := imeF_iff p hp n

/-- **C88** (range): the number never exceeds 255, never falls with the share, and is not negative as long as a word
is at least every 3·10¹⁵th. -/
theorem C88_range (p q : Rat) (hp : 0 < p) (hpq : p ≤ q) (hq : q ≤ 1) : imeF p ≤ imeF q ∧ imeF q ≤ 255 ∧
    (1 / (3 * 10 ^ 15) ≤ p → 0 ≤ imeF p) := by
  refine ⟨imeF_mono hp hpq, imeF_le (hp.trans_le hpq) hq, fun h => ?_⟩
  rw [le_imeF_iff p hp]
  have h1 : (1 / (3 * 10 ^ 15) : Rat) ^ 2 ≤ p ^ 2 := by gcongr
  refine lt_of_lt_of_le ?_ h1
  have e : (2 * ((0 : Int) - 255) - 1) = -(511 : Nat) := by norm_num
  rw [e, zpow_neg, zpow_natCast, one_div, inv_pow]
  apply inv_strictAnti₀ (by positivity)
  decide +kernel

/-- **C88** (negative numbers): a word that is every 4·10¹⁵th or rarer gets a negative number. -/
theorem C88_negative (p : Rat) (hp : 0 < p) (h : p ≤ 1 / (4 * 10 ^ 15)) : imeF p < 0 := by
  by_contra hn
  push Not at hn
  rw [le_imeF_iff p hp] at hn
  have h1 : p ^ 2 ≤ (1 / (4 * 10 ^ 15) : Rat) ^ 2 := by gcongr
  have h2 := hn.trans_le h1
  have e : (2 * ((0 : Int) - 255) - 1) = -(511 : Nat) := by norm_num
  rw [e, zpow_neg, zpow_natCast, one_div, inv_pow] at h2
  have h3 := (inv_lt_inv₀ (by positivity) (by positivity)).1 h2
  exact absurd h3 (by decide +kernel)

/-- **C88** (the file can be read back): a line tells its word and its number, as no word contains a comma. -/
theorem C88_line_injective (w w' : Text) (f f' : Int) (hw : ',' ∉ w) (hw' : ',' ∉ w')
    (h : imeLine w f = imeLine w' f') : w = w' ∧ f = f' := by
  unfold imeLine at h
  simp only [List.append_assoc, List.append_cancel_left_eq] at h
  have key : ∀ (a b x y : Text), ',' ∉ a → ',' ∉ b → a ++ (",f=".toList ++ x) = b ++ (",f=".toList ++ y) →
      a = b ∧ x = y := by
    intro a
    induction a with
    | nil =>
      intro b x y _ hb h
      cases b with
      | nil => exact ⟨rfl, by simpa using h⟩
      | cons c b =>
        simp only [List.nil_append, List.cons_append] at h
        have : ',' = c := by
          have := congrArg List.head? h
          simpa using this
        exact absurd List.mem_cons_self (this ▸ hb)
    | cons c a ih =>
      intro b x y ha hb h
      cases b with
      | nil =>
        have : c = ',' := by
          have := congrArg List.head? h
          simpa using this
        simp [this] at ha
      | cons d b =>
        simp only [List.cons_append, List.cons.injEq] at h
        simp only [List.mem_cons, not_or] at ha hb
        obtain ⟨h1, h2⟩ := ih b x y ha.2 hb.2 h.2
        exact ⟨by rw [h.1, h1], h2⟩
  obtain ⟨h1, h2⟩ := key w w' _ _ hw hw' h
  exact ⟨h1, decimal_injective h2⟩

/-- **C88** (words of a text): what the statistics count as a word is not empty and consists of letters only. -/
theorem C88_words_are_letters (letter : Char → Bool) (evs : List Event) (w : Text) (h : 0 < wordCount letter evs w) :
    w ≠ [] ∧ ∀ c ∈ w, letter c := by
  unfold wordCount at h
  obtain ⟨n, hn, hpos⟩ : ∃ n ∈ (stretches evs).map fun s => (delimitedWords letter (eventsText s)).count w, 0 < n := by
    by_contra hno
    push Not at hno
    have := List.sum_eq_zero (fun x hx => Nat.le_zero.1 (hno x hx))
    omega
  obtain ⟨s, _, rfl⟩ := List.mem_map.1 hn
  have hw := List.count_pos_iff.1 hpos
  unfold delimitedWords at hw
  rw [List.mem_filter] at hw
  refine ⟨by simpa using hw.2, fun c hc => ?_⟩
  have := List.dropLast_subset _ hw.1
  by_contra hl
  have h2 := splitOnP_mem _ _ _ this c hc
  simp [hl] at h2

example : (∀ e ∈ [("ab".toList, 3), ("b".toList, 9)], 0 < e.2) ∧
    ((23 : Rat) / 20) ^ (2 * ((245 : Int) - 255) - 1) < (3 / 12) ^ 2 ∧
    (3 / 12 : Rat) ^ 2 < ((23 : Rat) / 20) ^ (2 * ((245 : Int) - 255) + 1) := by
  refine ⟨by decide, ?_, ?_⟩ <;> norm_num

example : imeF (3 / 12) = 245 ∧ imeF (9 / 12) = 253 := by
  constructor <;> rw [imeF_iff _ (by norm_num)] <;> constructor <;> norm_num

/-! ### C89 -/

/-- **C89** (exceptions): a heat map cannot be made exactly if a button is called `total` or `buttons`. -/
theorem C89_works_iff (name : Button → String) (buttons : Dict Button Nat) (hw : buttons.WF)
    (hi : ∀ e ∈ buttons, ∀ e' ∈ buttons, name e.1 = name e'.1 → e.1 = e'.1) :
    (∃ r, keyHeatmap name buttons = .ok r) ↔ ∀ e ∈ buttons, name e.1 ≠ "total" ∧ name e.1 ≠ "buttons" := by
  have hperm := List.perm_insertionSort (fun a b : Button × Nat => a.2 ≤ b.2) buttons
  unfold keyHeatmap
  constructor
  · rintro ⟨r, hr⟩ e he
    by_contra hno
    rw [heatLoop_error _ [] ⟨e, hperm.symm.subset he, by tauto⟩] at hr
    simp [bind, Except.bind] at hr
  · intro h
    rw [heatLoop_ok _ (fun e he e' he' => hi e (hperm.subset he) e' (hperm.subset he'))
      ((hperm.map Prod.fst).nodup_iff.2 hw) [] (by simp) (fun e he => h e (hperm.subset he))]
    exact ⟨_, rfl⟩

/-- **C89**: the heat map has the total of all presses and, under the name of every button that was pressed, how often
it was, rarest first; and nothing else. -/
theorem C89_heatmap (name : Button → String) (evs : List Event)
    (hn : ∀ t c, Event.typed t c ∈ evs → (c.modifier ++ c.buttons).Nodup)
    (hi : ∀ c ∈ presses evs, ∀ b ∈ c.modifier ++ c.buttons, ∀ c' ∈ presses evs, ∀ b' ∈ c'.modifier ++ c'.buttons,
      name b = name b' → b = b') (total : Nat) (d : Dict String Nat)
    (h : keyHeatmap name (evs.foldl SimpleStats.process .init).buttons = .ok (total, d)) :
    total = ((presses evs).map fun c => (c.modifier ++ c.buttons).length).sum ∧ d.WF ∧
    d.Pairwise (fun a b => a.2 ≤ b.2) ∧
    ∀ n k, d.get? n = some k ↔ ∃ b, name b = n ∧ 0 < k ∧
      k = (presses evs).countP (fun c => decide (b ∈ c.modifier ∨ b ∈ c.buttons)) := by
  obtain ⟨⟨w1, _, _⟩, _, _, _, _, _, h7, _⟩ := simple_fold evs .init Dict.wf_nil Dict.wf_nil Dict.wf_nil
  obtain ⟨_, h3, _, _, h4, _⟩ := C17_counts evs hn
  set s := evs.foldl SimpleStats.process .init with hs
  have hperm := List.perm_insertionSort (fun a b : Button × Nat => a.2 ≤ b.2) s.buttons
  have hkey : ∀ e ∈ s.buttons, ∃ c ∈ presses evs, e.1 ∈ c.modifier ++ c.buttons := by
    intro e he
    obtain ⟨c, hc, hb⟩ := (h4 e.1).1 (List.mem_map.2 ⟨e, he, rfl⟩)
    exact ⟨c, hc, List.mem_append.2 hb⟩
  have hi' : ∀ e ∈ s.buttons, ∀ e' ∈ s.buttons, name e.1 = name e'.1 → e.1 = e'.1 := by
    intro e he e' he' hh
    obtain ⟨c, hc, hb⟩ := hkey e he
    obtain ⟨c', hc', hb'⟩ := hkey e' he'
    exact hi c hc _ hb c' hc' _ hb' hh
  have hok := (C89_works_iff name s.buttons w1 hi').1 ⟨_, h⟩
  unfold keyHeatmap at h
  rw [heatLoop_ok _ (fun e he e' he' => hi' e (hperm.subset he) e' (hperm.subset he'))
      ((hperm.map Prod.fst).nodup_iff.2 w1) [] (by simp) (fun e he => hok e (hperm.subset he))] at h
  simp only [bind, Except.bind, Except.ok.injEq, Prod.mk.injEq, List.nil_append] at h
  obtain ⟨rfl, rfl⟩ := h
  have hwf : Dict.WF ((s.buttons.insertionSort fun a b => a.2 ≤ b.2).map fun e => (name e.1, e.2)) := by
    unfold Dict.WF
    rw [List.map_map]
    have : (Prod.fst ∘ fun e : Button × Nat => (name e.1, e.2)) = name ∘ Prod.fst := rfl
    rw [this, ← List.map_map]
    refine List.Nodup.map_on ?_ ((hperm.map Prod.fst).nodup_iff.2 w1)
    intro x hx y hy hxy
    obtain ⟨e, he, rfl⟩ := List.mem_map.1 hx
    obtain ⟨e', he', rfl⟩ := List.mem_map.1 hy
    exact hi' e (hperm.subset he) e' (hperm.subset he') hxy
  refine ⟨?_, hwf, ?_, fun n k => ?_⟩
  · rw [h7, List.length_flatMap]
    simp [SimpleStats.init, Comb.iter]
  · have : Std.Total (fun a b : Button × Nat => a.2 ≤ b.2) := ⟨fun a b => Nat.le_total _ _⟩
    have : IsTrans (Button × Nat) (fun a b => a.2 ≤ b.2) := ⟨fun a b c h1 h2 => h1.trans h2⟩
    rw [List.pairwise_map]
    exact List.pairwise_insertionSort (fun a b : Button × Nat => a.2 ≤ b.2) s.buttons
  · rw [Dict.get?_eq_some_iff hwf]
    simp only [List.mem_map, Prod.mk.injEq]
    constructor
    · rintro ⟨e, he, rfl, rfl⟩
      have he' := hperm.subset he
      have hc : s.buttons.count e.1 = e.2 := by
        rw [Dict.count, Dict.get?_of_mem w1 (k := e.1) (v := e.2) he']; rfl
      rw [h3] at hc
      refine ⟨e.1, rfl, ?_, hc.symm⟩
      rw [← hc, List.countP_pos_iff]
      obtain ⟨c, hc, hb⟩ := hkey e he'
      exact ⟨c, hc, by simpa using hb⟩
    · rintro ⟨b, rfl, hpos, hk⟩
      rw [← h3] at hk
      refine ⟨(b, k), hperm.symm.subset ?_, rfl, rfl⟩
      unfold Dict.count at hk
      cases hg : s.buttons.get? b with
      | none => simp [hg] at hk; omega
      | some v =>
        rw [hg] at hk
        have := Dict.mem_of_get? hg
        rw [hk]; exact this

/-- **C89** (drawing): after any press the heat map can be drawn, and the heat of a button is its share of the presses
of the most used one. -/
theorem C89_drawn (name : Button → String) (evs : List Event)
    (hn : ∀ t c, Event.typed t c ∈ evs → (c.modifier ++ c.buttons).Nodup)
    (hi : ∀ c ∈ presses evs, ∀ b ∈ c.modifier ++ c.buttons, ∀ c' ∈ presses evs, ∀ b' ∈ c'.modifier ++ c'.buttons,
      name b = name b' → b = b') (total : Nat) (d : Dict String Nat)
    (h : keyHeatmap name (evs.foldl SimpleStats.process .init).buttons = .ok (total, d))
    (b₀ : Button) (hb₀ : ∃ c ∈ presses evs, b₀ ∈ c.modifier ++ c.buttons) :
    let used := fun b => (presses evs).countP (fun c => decide (b ∈ c.modifier ∨ b ∈ c.buttons))
    ∃ heat m, keyHeat d = .ok heat ∧ 0 < used m ∧ (∀ b, used b ≤ used m) ∧
      ∀ b, 0 < used b → heat.get? (name b) = some ((used b : Rat) / used m) := by
  intro used
  obtain ⟨_, hwf, _, hget⟩ := C89_heatmap name evs hn hi total d h
  have husedpos : ∀ b, 0 < used b → d.get? (name b) = some (used b) := fun b hb => (hget _ _).2 ⟨b, rfl, hb, rfl⟩
  have h0 : 0 < used b₀ := by
    obtain ⟨c, hc, hb⟩ := hb₀
    exact List.countP_pos_iff.2 ⟨c, hc, by simpa using hb⟩
  obtain ⟨heat, hheat⟩ := (C65_works d).2 ⟨_, Dict.mem_of_get? (husedpos b₀ h0), h0⟩
  obtain ⟨q, hq, hqpos, hmax, rfl⟩ := C65_heat d hwf heat hheat
  obtain ⟨m, hm, _, hqk⟩ := (hget q.1 q.2).1 (Dict.get?_of_mem hwf hq)
  have hqk' : q.2 = used m := hqk
  refine ⟨_, m, hheat, by omega, fun b => ?_, fun b hb => ?_⟩
  · by_cases hb : 0 < used b
    · have := hmax _ (Dict.mem_of_get? (husedpos b hb))
      rw [← hqk']; exact this
    · omega
  · have hwf2 : Dict.WF (d.map fun p => (p.1, (p.2 : Rat) / q.2)) := by
      unfold Dict.WF at hwf ⊢; rw [List.map_map]; exact hwf
    refine Dict.get?_of_mem hwf2 (List.mem_map.2 ⟨_, Dict.mem_of_get? (husedpos b hb), ?_⟩)
    rw [hqk']

example : keyHeatmap (fun b => toString b) (demoEvents.foldl SimpleStats.process .init).buttons =
    .ok (16, [("2", 2), ("1", 3), ("11", 4), ("0", 7)]) ∧
    keyHeatmap (fun _ => "total") (demoEvents.foldl SimpleStats.process .init).buttons = .error .assertionError := by
  decide +kernel

/-! ### C90 -/

/-- **C90** (refuted): what is reported as the number of characters of a corpus need not be that: a text of three
characters, one of which cannot be typed while the two others are on one button, is said to have one. -/
theorem C90_characters_refuted : ∃ (L : KeyboardLayout) (text : Text) (s : AllStats),
    AllStats.processAll demoHf demoLetter L demoFresh (typeText demoHf L none text).1 = .ok s ∧
    text.length = 3 ∧ (corpusTotals s).1 = 1 := by
  refine ⟨demoLayout, "abx".toList, _, rfl, by decide, by decide +kernel⟩

/-- **C90** (what holds): it is the number of combinations pressed. So it is at most the number of characters of the
text, and equal to it exactly if every character was typed on its own. -/
theorem C90_characters_partial (hf : HandFinger) (letter : Char → Bool) (name : String) (layers : List Layer)
    (kb : PhysicalKeyboard) (last : Option Comb) (text : Text) (fresh s : AllStats) (hfr : Fresh fresh)
    (hne : ∃ t, t ≠ [] ∧ HasText layers t)
    (hfin : (typeText hf (KeyboardLayout.mk' name layers kb) last text).2 = .finished)
    (h : AllStats.processAll hf letter (KeyboardLayout.mk' name layers kb) fresh
      (typeText hf (KeyboardLayout.mk' name layers kb) last text).1 = .ok s) :
    let evs := (typeText hf (KeyboardLayout.mk' name layers kb) last text).1
    (corpusTotals s).1 = (presses evs).length ∧ (corpusTotals s).1 ≤ text.length ∧
      ((corpusTotals s).1 = text.length ↔ ∀ e ∈ evs, ∃ ch c, e = .typed [ch] c) := by
  intro evs
  have hs := ((processAll_ok_iff hf letter _ _ _ _).1 h).1
  rw [hfr.simple] at hs
  obtain ⟨_, _, _, _, h5, _⟩ := simple_fold evs .init Dict.wf_nil Dict.wf_nil Dict.wf_nil
  have e1 : (corpusTotals s).1 = (presses evs).length := by
    unfold corpusTotals
    simp only
    rw [hs, h5]
    simp [SimpleStats.init]
  have htext := C01_typing_lossless name layers kb hf last text hne hfin
  obtain ⟨h1, h2⟩ := typed_length evs (by
    intro t c hc
    obtain ⟨pre, post, hsplit⟩ := List.append_of_mem hc
    exact (C02_match_is_longest name layers kb hf last text pre post t c hsplit).1)
  rw [length_typedTexts, htext] at h1 h2
  rw [e1]
  exact ⟨rfl, h1, h2⟩

/-- **C90** (words): the number of words is that of all words typed and delimited. -/
theorem C90_words (hf : HandFinger) (letter : Char → Bool) (L : KeyboardLayout) (evs : List Event)
    (ht : TextsOf L evs) (fresh s : AllStats) (hfr : Fresh fresh)
    (h : AllStats.processAll hf letter L fresh evs = .ok s) :
    (corpusTotals s).2 = ((stretches evs).map fun x => (delimitedWords letter (eventsText x)).length).sum := by
  have hs := ((processAll_ok_iff hf letter _ _ _ _).1 h).2.2.2
  rw [hfr.words] at hs
  obtain ⟨s', h1, h2, _, h4⟩ := words_fold letter L evs ht
  rw [hs] at h1
  simp only [Except.ok.injEq] at h1
  subst h1
  unfold corpusTotals
  simp only
  rw [sum_values_eq h2 (M := (stretches evs).flatMap fun x => delimitedWords letter (eventsText x))
    (fun w => by rw [h4, wordCount_eq]; congr!), List.length_flatMap]

/-- **C90** (report): the report adds up the figures of all corpora, and fails exactly if one has none. -/
theorem C90_report_total (docs : List (Option (Nat × Nat))) :
    (∀ fs : List (Nat × Nat), docs = fs.map some → corpusTotal docs = .ok ((fs.map Prod.fst).sum, (fs.map Prod.snd).sum)) ∧
    ((∃ e, corpusTotal docs = .error e) ↔ none ∈ docs) := by
  have ok : ∀ fs : List (Nat × Nat), corpusTotal (fs.map some) = .ok ((fs.map Prod.fst).sum, (fs.map Prod.snd).sum) := by
    intro fs
    simp only [corpusTotal, bind_ok_iff, Except.ok.injEq, mapM_ok_iff, List.forall₂_map_left_iff]
    refine ⟨fs.map Prod.snd, ?_, fs.map Prod.fst, ?_, rfl⟩ <;>
    · rw [List.forall₂_map_right_iff, List.forall₂_same]; intro _ _; rfl
  refine ⟨fun fs h => h ▸ ok fs, ?_, ?_⟩
  · rintro ⟨e, he⟩
    by_contra hno
    obtain ⟨fs, rfl⟩ : ∃ fs : List (Nat × Nat), docs = fs.map some := by
      refine ⟨docs.filterMap id, ?_⟩
      clear he
      induction docs with
      | nil => rfl
      | cons x docs ih =>
        simp only [List.mem_cons, not_or] at hno
        cases x with
        | none => exact absurd rfl hno.1
        | some x =>
          exact congrArg (some x :: ·) (ih hno.2)
    rw [ok] at he
    cases he
  · intro hm
    cases hc : corpusTotal docs with
    | error e => exact ⟨e, rfl⟩
    | ok r =>
      simp only [corpusTotal, bind_ok_iff, mapM_ok_iff] at hc
      obtain ⟨ws, h1, _⟩ := hc
      obtain ⟨b, _, hb⟩ := forall₂_left_mem h1 hm
      cases hb

example : corpusTotal [some (10, 2), some (5, 1)] = .ok (15, 3) ∧ corpusTotal [some (10, 2), none] = .error .keyError := by
  decide +kernel

/-! ### C91 -/

/-- **C91** (the numbers): if the table can be made, the percentages of the hands add up to 100, those of the fingers to
that of their hand, and the widths of a hand's fingers to 100. Fingers are listed from left to right. -/
theorem C91_table (hf : HandFinger) (L : KeyboardLayout) (s : SimpleStats) (r : LayoutStats)
    (h : layoutstats hf L s = .ok r) (bars : List HandBar) (hb : fingerHandStats r.toHandStats = .ok bars) :
    bars.map HandBar.hand = [.left, .right] ∧ (bars.map HandBar.pct).sum = 100 ∧
    (∀ b ∈ bars, b.fingers.map FingerBar.finger = (match b.hand with
        | .left => [.little, .ring, .middle, .index, .thumb]
        | .right => [.thumb, .index, .middle, .ring, .little]) ∧
      (b.fingers.map FingerBar.pct).sum = b.pct ∧ (b.fingers.map FingerBar.width).sum = 100 ∧
      b.pct * (s.buttons.map Prod.snd).sum = 100 * pressesWhere hf (fun p => decide (p.1 = b.hand)) s.buttons ∧
      ∀ f ∈ b.fingers, f.pct * (s.buttons.map Prod.snd).sum =
        100 * pressesWhere hf (fun p => decide (p = (b.hand, f.finger))) s.buttons ∧
        f.width * pressesWhere hf (fun p => decide (p.1 = b.hand)) s.buttons =
          100 * pressesWhere hf (fun p => decide (p = (b.hand, f.finger))) s.buttons) := by
  simp only [layoutstats, bind_ok_iff, Except.ok.injEq] at h
  obtain ⟨q, hq, z, _, rfl⟩ := h
  obtain ⟨h1, h2, _, _, h5, h6, h7, _⟩ := C28_totals hf s.buttons q hq
  rw [fingerHandStats_ok] at hb
  obtain ⟨hall, rfl⟩ := hb
  have hcount : ∀ d, ((q.hands.bump .left 0).bump .right 0).count d = q.hands.count d := by
    intro d; rw [Dict.count_bump, Dict.count_bump]; cases d <;> simp
  have hbp : (q.buttonPresses : Rat) ≠ 0 := by exact_mod_cast (hall .left).1
  have hhand : ∀ d, (q.hands.count d : Rat) ≠ 0 := by
    intro d
    have := (hall d).2.2.1
    simp only [hcount] at this
    exact_mod_cast this
  have hsum : ∀ d, (q.fingers.count (d, .little) : Rat) + q.fingers.count (d, .ring) + q.fingers.count (d, .middle) +
      q.fingers.count (d, .index) + q.fingers.count (d, .thumb) = q.hands.count d := by
    intro d
    have := h5 d
    simp only [List.map_cons, List.map_nil, List.sum_cons, List.sum_nil] at this
    rw [← this]
    push_cast
    ring
  have h2' : (q.hands.count .left : Rat) + q.hands.count .right = q.buttonPresses := by exact_mod_cast h2
  rw [← h1]
  simp only [← h6, ← h7]
  have key : ∀ (r : HandStats) (d : Direction), ((barOf r d).fingers.map FingerBar.finger = (match d with
        | .left => [.little, .ring, .middle, .index, .thumb]
        | .right => [.thumb, .index, .middle, .ring, .little])) := by
    intro r d; cases d <;> rfl
  refine ⟨rfl, ?_, ?_⟩
  · simp only [barOf, hcount, List.map_cons, List.map_nil, List.sum_cons, List.sum_nil]
    rw [add_zero, ← add_mul, ← add_div, h2', div_self hbp, one_mul]
  · intro b hb
    obtain ⟨d, rfl⟩ : ∃ d, b = barOf ⟨(q.hands.bump .left 0).bump .right 0, q.fingers, q.buttonPresses, q.asymmetry⟩ d := by
      simp only [List.mem_cons, List.not_mem_nil, or_false] at hb
      rcases hb with rfl | rfl
      · exact ⟨.left, rfl⟩
      · exact ⟨.right, rfl⟩
    refine ⟨key _ d, ?_, ?_, ?_, ?_⟩
    · have e : ∀ a b c d e : Rat, a + (b + (c + (d + (e + 0)))) = a + b + c + d + e := by intros; ring
      cases d with
      | left =>
        simp only [barOf, hcount, fingerOrder, Finger.all, List.map_cons, List.map_nil, List.sum_cons, List.sum_nil]
        rw [e, ← add_mul, ← add_mul, ← add_mul, ← add_mul, ← add_div, ← add_div, ← add_div, ← add_div, hsum]
      | right =>
        simp only [barOf, hcount, fingerOrder, Finger.all, List.reverse_cons, List.reverse_nil, List.nil_append,
          List.cons_append, List.map_cons, List.map_nil, List.sum_cons, List.sum_nil]
        rw [e, ← add_mul, ← add_mul, ← add_mul, ← add_mul, ← add_div, ← add_div, ← add_div, ← add_div, ← hsum]
        ring
    · have e : ∀ a b c d e : Rat, a + (b + (c + (d + (e + 0)))) = a + b + c + d + e := by intros; ring
      cases d with
      | left =>
        simp only [barOf, hcount, fingerOrder, Finger.all, List.map_cons, List.map_nil, List.sum_cons, List.sum_nil]
        rw [e, ← add_mul, ← add_mul, ← add_mul, ← add_mul, ← add_div, ← add_div, ← add_div, ← add_div, hsum,
          div_self (hhand _), one_mul]
      | right =>
        simp only [barOf, hcount, fingerOrder, Finger.all, List.reverse_cons, List.reverse_nil, List.nil_append,
          List.cons_append, List.map_cons, List.map_nil, List.sum_cons, List.sum_nil]
        have e2 : (q.fingers.count (.right, .thumb) : Rat) + q.fingers.count (.right, .index) +
            q.fingers.count (.right, .middle) + q.fingers.count (.right, .ring) + q.fingers.count (.right, .little) =
            q.hands.count .right := by rw [← hsum]; ring
        rw [e, ← add_mul, ← add_mul, ← add_mul, ← add_mul, ← add_div, ← add_div, ← add_div, ← add_div, e2,
          div_self (hhand _), one_mul]
    · simp only [barOf, hcount]
      field_simp
    · intro f hf'
      simp only [barOf, List.mem_map] at hf'
      obtain ⟨x, _, rfl⟩ := hf'
      have := hhand d
      simp only [barOf, hcount]
      constructor <;> field_simp

/-- **C91** (the figures kept): what is written per layout are the totals of C28, with an entry for both hands, and the
asymmetry is the difference of the shares of the left and the right hand. -/
theorem C91_figures (hf : HandFinger) (L : KeyboardLayout) (s : SimpleStats) (r : LayoutStats)
    (h : layoutstats hf L s = .ok r) :
    r.buttonPresses = (s.buttons.map Prod.snd).sum ∧
    (∀ d, r.hands.get? d = some (pressesWhere hf (fun p => decide (p.1 = d)) s.buttons)) ∧
    (∀ d f, r.fingers.count (d, f) = pressesWhere hf (fun p => decide (p = (d, f))) s.buttons) ∧
    r.asymmetry = (pressesWhere hf (fun p => decide (p.1 = .left)) s.buttons : Rat) / r.buttonPresses -
      (pressesWhere hf (fun p => decide (p.1 = .right)) s.buttons : Rat) / r.buttonPresses := by
  simp only [layoutstats, bind_ok_iff, Except.ok.injEq] at h
  obtain ⟨q, hq, z, _, rfl⟩ := h
  obtain ⟨h1, _, _, _, _, h6, h7, _⟩ := C28_totals hf s.buttons q hq
  refine ⟨h1, ?_, h7, ?_⟩
  · intro d
    rw [← h6 d]
    cases d <;> simp [Dict.bump, Dict.get?_set, Dict.count]
  · rw [← h6, ← h6]
    unfold layoutHandStats at hq
    cases hl : handFingerLoop hf s.buttons [] [] with
    | error e => simp [hl, bind, Except.bind] at hq
    | ok p =>
      simp only [hl, bind, Except.bind] at hq
      split at hq
      · simp at hq
      · simp only [Except.ok.injEq] at hq
        rw [← hq]

/-- **C91** (what is needed): after any press the table can be made exactly if each of the ten fingers has pressed
some button. -/
theorem C91_needs_all_fingers (hf : HandFinger) (L : KeyboardLayout) (evs : List Event) (r : LayoutStats)
    (h : layoutstats hf L (evs.foldl SimpleStats.process .init) = .ok r) :
    (∃ bars, fingerHandStats r.toHandStats = .ok bars) ↔
      ∀ d f, ∃ c ∈ presses evs, ∃ b ∈ c.modifier ++ c.buttons, hf b = .ok (d, f) := by
  obtain ⟨z1, _⟩ := simple_noZero evs .init ⟨by intro k; simp [SimpleStats.init],
    by intro k; simp [SimpleStats.init], by intro k; simp [SimpleStats.init]⟩
  obtain ⟨⟨w1, _, _⟩, _, h3, _⟩ := simple_fold evs .init Dict.wf_nil Dict.wf_nil Dict.wf_nil
  set s := evs.foldl SimpleStats.process .init with hs
  have hmem : ∀ b, b ∈ s.buttons.map Prod.fst ↔ ∃ c ∈ presses evs, b ∈ c.modifier ++ c.buttons := by
    intro b
    have := z1.keys (k := b)
    rw [show s.buttons.map Prod.fst = s.buttons.keys from rfl, this, h3]
    simp only [SimpleStats.init, Dict.count_nil, Nat.zero_add, List.count_pos_iff, List.mem_flatMap, Comb.iter]
  simp only [layoutstats, bind_ok_iff, Except.ok.injEq] at h
  obtain ⟨q, hq, z, _, rfl⟩ := h
  obtain ⟨_, _, _, _, _, h6, _, _⟩ := C28_totals hf s.buttons q hq
  have hq' := hq
  unfold layoutHandStats at hq
  cases hl : handFingerLoop hf s.buttons [] [] with
  | error e => simp [hl, bind, Except.bind] at hq
  | ok p =>
    obtain ⟨hands, fingers⟩ := p
    simp only [hl, bind, Except.bind] at hq
    split at hq
    · simp at hq
    · rename_i hpos
      simp only [Except.ok.injEq] at hq
      have hfk : ∀ p, p ∈ q.fingers.map Prod.fst ↔ ∃ c ∈ presses evs, ∃ b ∈ c.modifier ++ c.buttons, hf b = .ok p := by
        intro p
        rw [← hq]
        rw [handFingerLoop_keys hl p]
        simp only [List.map_nil, List.not_mem_nil, false_or]
        constructor
        · rintro ⟨e, he, hp⟩
          obtain ⟨c, hc, hb⟩ := (hmem e.1).1 (List.mem_map.2 ⟨e, he, rfl⟩)
          exact ⟨c, hc, _, hb, hp⟩
        · rintro ⟨c, hc, b, hb, hp⟩
          obtain ⟨e, he, rfl⟩ := List.mem_map.1 ((hmem b).2 ⟨c, hc, hb⟩)
          exact ⟨e, he, hp⟩
      have hbp : q.buttonPresses ≠ 0 := by rw [← hq]; exact hpos
      constructor
      · rintro ⟨bars, hb⟩ d f
        rw [fingerHandStats_ok] at hb
        exact (hfk _).1 ((hb.1 d).2.2.2 f)
      · intro hall
        refine ⟨_, fingerHandStats_ok.2 ⟨fun d => ⟨hbp, ?_, ?_, fun f => (hfk _).2 (hall d f)⟩, rfl⟩⟩
        · simp only [Dict.bump, Dict.mem_keys_set]
          cases d <;> simp
        · have hc : ((q.hands.bump .left 0).bump .right 0).count d = q.hands.count d := by
            rw [Dict.count_bump, Dict.count_bump]; cases d <;> simp
          change ((q.hands.bump .left 0).bump .right 0).count d ≠ 0
          rw [hc, h6]
          obtain ⟨c, hc, b, hb, hp⟩ := hall d .index
          obtain ⟨e, he, rfl⟩ := List.mem_map.1 ((hmem b).2 ⟨c, hc, hb⟩)
          have h2 : 0 < e.2 := by
            have := (z1.keys (k := e.1)).1 (List.mem_map.2 ⟨e, he, rfl⟩)
            rwa [Dict.count, Dict.get?_of_mem w1 (k := e.1) (v := e.2) he] at this
          unfold pressesWhere
          refine Nat.pos_iff_ne_zero.1 (lt_of_lt_of_le h2 (List.single_le_sum (fun x _ => Nat.zero_le x) _ ?_))
          exact List.mem_map.2 ⟨e, List.mem_filter.2 ⟨he, by simp [hp]⟩, rfl⟩

/-- **C91** (refuted): a report cannot be made of every corpus that statistics can be made of. In particular it needs
presses by both thumbs. -/
theorem C91_refuted : ∃ (text : Text) (r : LayoutStats),
    layoutstats demoHf hamzaLayout ((typeText demoHf hamzaLayout none text).1.foldl SimpleStats.process .init) = .ok r ∧
    fingerHandStats r.toHandStats = .error .otherError := by
  refine ⟨['ا', 'ي'], _, rfl, ?_⟩
  decide +kernel

/-- A finger for every one of ten buttons, and a layout with a letter on each. -/
def tenHf : HandFinger := fun b => match [Finger.little, .ring, .middle, .index, .thumb][b % 5]? with
  | some f => .ok (if b < 5 then .left else .right, f)
  | none => .error .keyError

def tenLetters : List Char := ['ا', 'ي', 'و', 'ب', 'ت', 'ث', 'ج', 'ح', 'خ', 'د']

def tenLayout : KeyboardLayout :=
  KeyboardLayout.mk' "ten" [{ modifier := [[]], layout := tenLetters.zipIdx.map fun p => (p.2, .str [p.1]) }] demoKeyboard

example : ((layoutstats tenHf tenLayout ((typeText tenHf tenLayout none (tenLetters ++ ['ا', 'ا', 'ي', 'د'])).1.foldl
      SimpleStats.process .init)).bind fun r => (fingerHandStats r.toHandStats).map fun bars =>
        bars.map fun b => (b.pct, b.fingers.map FingerBar.width)) =
    .ok [(400 / 7, [75 / 2, 25, 25 / 2, 25 / 2, 25 / 2]), (300 / 7, [100 / 3, 50 / 3, 50 / 3, 50 / 3, 50 / 3])] := by
  decide +kernel

end Lulua.Props
