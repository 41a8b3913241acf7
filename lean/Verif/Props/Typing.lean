import Verif.Proofs.Writer
import Verif.Proofs.Choose

/-!
# C01–C09: typing a text

`demoLayers` is a small layout used to show that the hypotheses of the theorems are met: layer 0
has a, ab and a space on two buttons, layer 1 (left or right shift, buttons 10 and 11) has b and A.
-/

namespace Lulua.Props
open Lulua Spec

/-- Demonstration layout: buttons 0–4 are keys, 10/11 the left/right shift. -/
def demoLayers : List Layer :=
  [ { modifier := [[]]
      layout := [(0, .str ['a']), (1, .str ['a', 'b']), (2, .str [' ']), (3, .str [' ']), (4, .other 0)] },
    { modifier := [[10], [11]], layout := [(0, .str ['A']), (1, .str ['b', 'c', 'd'])] } ]

def demoKeyboard : PhysicalKeyboard := PhysicalKeyboard.mk' "demo" "" []
def demoLayout : KeyboardLayout := KeyboardLayout.mk' "demo" demoLayers demoKeyboard

/-- Even buttons and the left shift are on the left hand; every button below 12 has a finger. -/
def demoHf : HandFinger := fun b =>
  if b < 12 then .ok (if b % 2 = 0 then .left else .right, .index) else .error .keyError

/-- `demoHf` only ever raises `KeyError`. -/
theorem demoHf_keyError : ∀ b e, demoHf b = .error e → e = .keyError := by
  intro b e h
  unfold demoHf at h
  split at h <;> simp_all

/-! ### C01 -/

/-- **C01**: the events of a finished run account for the text, exactly and in order, if the layout
has any non-empty text. -/
theorem C01_typing_lossless (name : String) (layers : List Layer) (kb : PhysicalKeyboard)
    (hf : HandFinger) (last : Option Comb) (text : Text)
    (hne : ∃ t, t ≠ [] ∧ HasText layers t)
    (hfin : (typeText hf (KeyboardLayout.mk' name layers kb) last text).2 = .finished) :
    eventsText (typeText hf (KeyboardLayout.mk' name layers kb) last text).1 = text := by
  rw [typeText_eq] at hfin ⊢
  refine (absLoop_text _ _ _ _ _).2 ?_ hfin
  obtain ⟨t, ht, hh⟩ := hne
  exact lt_of_lt_of_le (List.length_pos_iff.2 ht) (length_le_bufferLen hh)

/-- **C01** (interrupted run): whatever happens, the events account for a prefix of the text. -/
theorem C01_typing_prefix (hf : HandFinger) (L : KeyboardLayout) (last : Option Comb) (text : Text) :
    eventsText (typeText hf L last text).1 <+: text := by
  rw [typeText_eq]; exact (absLoop_text _ _ _ _ _).1

/-- **C01** (proviso): a layout without any non-empty text yields nothing at all. -/
theorem C01_no_text_no_events (name : String) (layers : List Layer) (kb : PhysicalKeyboard)
    (hf : HandFinger) (last : Option Comb) (text : Text) (h : ∀ t, HasText layers t → t = []) :
    typeText hf (KeyboardLayout.mk' name layers kb) last text = ([], .finished) := by
  have : (KeyboardLayout.mk' name layers kb).bufferLen = 0 :=
    Nat.le_zero.1 ((bufferLen_le_iff name layers kb 0).2 fun t ht => by simp [h t ht])
  rw [typeText_eq, absLoop]
  simp [this]

example : (∃ t, t ≠ [] ∧ HasText demoLayers t) ∧
    (typeText demoHf demoLayout none "aabA bcdbx ab".toList).2 = .finished ∧
    (typeText demoHf demoLayout none "aabA bcdbx ab".toList).1.length = 9 := by
  refine ⟨⟨['a'], by simp, _, List.mem_cons_self, 0, by decide⟩, by decide +kernel, by decide +kernel⟩

example : (∀ t, HasText ([] : List Layer) t → t = []) := by
  rintro t ⟨l, hl, _⟩; simp at hl

/-! ### C02 -/

/-- **C02** (typed): what is typed at some point is the longest match in the whole remaining text. -/
theorem C02_match_is_longest (name : String) (layers : List Layer) (kb : PhysicalKeyboard)
    (hf : HandFinger) (last : Option Comb) (text : Text) (pre post : List Event) (m : Text) (c : Comb)
    (h : (typeText hf (KeyboardLayout.mk' name layers kb) last text).1 = pre ++ .typed m c :: post) :
    m ≠ [] ∧ LongestMatch layers (text.drop (eventsText pre).length) m := by
  rw [typeText_eq] at h
  obtain ⟨fuel', w', rfl, _, h'⟩ := absLoop_split h
  rw [List.drop_left]
  rcases absLoop_cases hf (KeyboardLayout.mk' name layers kb) fuel' w' (lastAfter last pre) with
    ⟨_, h1⟩ | ⟨m', comb, hm, _, h1⟩ | ⟨c', cs, rfl, hm, _, h1⟩ | ⟨e, _, _, _, h1⟩
  · rw [h1] at h'; simp at h'
  · rw [h1] at h'
    simp only [List.cons.injEq, Event.typed.injEq] at h'
    obtain ⟨⟨rfl, rfl⟩, _⟩ := h'
    exact ⟨(typed_head hm).1, (typed_head hm).2.1⟩
  · rw [h1] at h'; simp at h'
  · rw [h1] at h'; simp at h'

/-- **C02** (skipped): a character is skipped only if nothing the layout can type is a prefix of the
remaining text, given that every button has a finger. -/
theorem C02_skip_only_untypeable (name : String) (layers : List Layer) (kb : PhysicalKeyboard)
    (hf : HandFinger) (last : Option Comb) (text : Text) (pre post : List Event) (ch : Char)
    (hF : Fingered hf layers) (hl : ∀ p, last = some p → CombFingered hf p)
    (h : (typeText hf (KeyboardLayout.mk' name layers kb) last text).1 = pre ++ .skip ch :: post) :
    (text.drop (eventsText pre).length).head? = some ch ∧
      NoMatch layers (text.drop (eventsText pre).length) := by
  rw [typeText_eq] at h
  have hla : ∀ p, lastAfter last pre = some p → CombFingered hf p := by
    intro p hp
    rcases lastAfter_some hp with hp | ⟨m, hp⟩
    · exact hl p hp
    · exact typed_fingered hF m p (by rw [h]; simp [hp])
  obtain ⟨fuel', w', rfl, _, h'⟩ := absLoop_split h
  rw [List.drop_left]
  rcases absLoop_cases hf (KeyboardLayout.mk' name layers kb) fuel' w' (lastAfter last pre) with
    ⟨_, h1⟩ | ⟨m', comb, hm, _, h1⟩ | ⟨c', cs, rfl, hm, _, h1⟩ | ⟨e, _, _, _, h1⟩
  · rw [h1] at h'; simp at h'
  · rw [h1] at h'; simp at h'
  · rw [h1] at h'
    simp only [List.cons.injEq, Event.skip.injEq] at h'
    obtain ⟨rfl, _⟩ := h'
    exact ⟨rfl, skip_head hF hla hm⟩
  · rw [h1] at h'; simp at h'

/-- **C02** (proviso): if a button lacks a finger, text the layout can type may be skipped. -/
theorem C02_skip_without_finger : ∃ (layers : List Layer) (hf : HandFinger) (kb : PhysicalKeyboard),
    (typeText hf (KeyboardLayout.mk' "" layers kb) none ['a']).1 = [.skip 'a'] ∧
      HasText layers ['a'] := by
  refine ⟨[{ modifier := [[]], layout := [(20, .str ['a']), (21, .str ['a'])] }], demoHf, demoKeyboard,
    by decide +kernel, _, List.mem_cons_self, 20, by simp⟩

example : Fingered demoHf demoLayers := by
  intro l hl
  simp only [demoLayers, List.mem_cons, List.not_mem_nil, or_false] at hl
  rcases hl with rfl | rfl <;> simp [demoHf]

example : (typeText demoHf demoLayout none "ab xab".toList).1 =
    [.typed ['a', 'b'] ⟨[], [1]⟩, .typed [' '] ⟨[], [2]⟩] ++ .skip 'x' :: [.typed ['a', 'b'] ⟨[], [1]⟩] := by
  decide +kernel

/-! ### C03 -/

/-- **C03**: looking up the pressed combination gives the text it was pressed for. -/
theorem C03_combination_types_match (name : String) (layers : List Layer) (kb : PhysicalKeyboard)
    (hf : HandFinger) (last : Option Comb) (text m : Text) (c : Comb)
    (hU : UnambiguousModifiers layers) (hd : ∀ l ∈ layers, Dict.WF l.layout)
    (h : Event.typed m c ∈ (typeText hf (KeyboardLayout.mk' name layers kb) last text).1) :
    (KeyboardLayout.mk' name layers kb).getText c = .ok (.str m) := by
  obtain ⟨pre, post, h⟩ := List.append_of_mem h
  rw [typeText_eq] at h
  obtain ⟨fuel', w', _, _, h'⟩ := absLoop_split h
  have hp : c ∈ producers layers m := by
    rcases absLoop_cases hf (KeyboardLayout.mk' name layers kb) fuel' w' (lastAfter last pre) with
      ⟨_, h1⟩ | ⟨m', comb, hm, _, h1⟩ | ⟨c', cs, rfl, hm, _, h1⟩ | ⟨e, _, _, _, h1⟩
    · rw [h1] at h'; simp at h'
    · rw [h1] at h'
      simp only [List.cons.injEq, Event.typed.injEq] at h'
      obtain ⟨⟨rfl, rfl⟩, _⟩ := h'
      exact (typed_head hm).2.2
    · rw [h1] at h'; simp at h'
    · rw [h1] at h'; simp at h'
  obtain ⟨md, b, rfl, l, hl, hm, hb⟩ := mem_producers.1 hp
  obtain ⟨j, hj, rfl⟩ := List.mem_iff_getElem.1 hl
  have hmod : (KeyboardLayout.mk' name layers kb).modToLayer.get? md = some (0 + j, layers[j]) := by
    refine modToLayer_addLayers 0 layers ⟨[], 0, []⟩ md j hj hm ?_
    intro k hk hjk hmk
    have := hU j k hj hk md hm hmk
    omega
  unfold KeyboardLayout.getText KeyboardLayout.modifierToLayer
  rw [Dict.getItem_eq_ok.2 hmod]
  simp only [bind, Except.bind, first]
  exact Dict.getItem_eq_ok.2 (Dict.get?_of_mem (hd _ hl) hb)

/-- **C03** (proviso): with a modifier set shared by two layers the text may be another one. -/
theorem C03_ambiguous_modifiers : ∃ (layers : List Layer) (m : Text) (c : Comb) (t : Text),
    Event.typed m c ∈ (typeText demoHf (KeyboardLayout.mk' "" layers demoKeyboard) none ['a']).1 ∧
      (KeyboardLayout.mk' "" layers demoKeyboard).getText c = .ok (.str t) ∧ t ≠ m := by
  refine ⟨[{ modifier := [[]], layout := [(0, .str ['a'])] },
           { modifier := [[]], layout := [(0, .str ['b'])] }], ['a'], ⟨[], [0]⟩, ['b'],
    by decide +kernel, by decide +kernel, by decide⟩

example : UnambiguousModifiers demoLayers ∧ ∀ l ∈ demoLayers, Dict.WF l.layout := by
  refine ⟨?_, by decide⟩
  intro i j hi hj m h1 h2
  simp only [demoLayers, List.length_cons, List.length_nil] at hi hj
  have : i = 0 ∨ i = 1 := by omega
  have : j = 0 ∨ j = 1 := by omega
  rcases ‹i = 0 ∨ i = 1› with rfl | rfl <;> rcases ‹j = 0 ∨ j = 1› with rfl | rfl <;>
    simp_all [demoLayers]

example : Event.typed ['A'] ⟨[11], [0]⟩ ∈ (typeText demoHf demoLayout none ['a', 'A']).1 := by
  decide +kernel

/-! ### C04 -/

/-- **C04**: a lookup returns the longest layout text the buffer starts with and exactly the
combinations producing it, or a `KeyError` if there is none. -/
theorem C04_lookup_exact (name : String) (layers : List Layer) (kb : PhysicalKeyboard) (buf : Text) :
    match (KeyboardLayout.mk' name layers kb).call buf with
    | .ok (m, combs) => LongestMatch layers buf m ∧
        ∀ c, c ∈ combs ↔ ∃ md b, c = { modifier := md, buttons := [b] } ∧ Produces layers md b m
    | .error e => e = .keyError ∧ NoMatch layers buf := by
  cases h : (KeyboardLayout.mk' name layers kb).call buf with
  | ok r =>
    obtain ⟨m, combs⟩ := r
    obtain ⟨h1, rfl⟩ := call_ok h
    exact ⟨h1, fun c => mem_producers⟩
  | error e => exact call_error h

/-- **C04** (order): the combinations are listed in the order of layers, buttons and modifiers. -/
theorem C04_lookup_order (name : String) (layers : List Layer) (kb : PhysicalKeyboard)
    (buf m : Text) (combs : List Comb)
    (h : (KeyboardLayout.mk' name layers kb).call buf = .ok (m, combs)) :
    combs = producers layers m := (call_ok h).2

example : demoLayout.call "abc".toList = .ok (['a', 'b'], [⟨[], [1]⟩]) ∧
    demoLayout.call "bcde".toList = .ok (['b', 'c', 'd'], [⟨[10], [1]⟩, ⟨[11], [1]⟩]) ∧
    demoLayout.call "bca".toList = .error .keyError := by
  refine ⟨by decide +kernel, by decide +kernel, by decide +kernel⟩

/-! ### C05 -/

/-- **C05** (termination): the generator stops by itself after at most `len (text)` events. -/
theorem C05_terminates (hf : HandFinger) (L : KeyboardLayout) (last : Option Comb) (text : Text) :
    (typeText hf L last text).2 ≠ .outOfFuel ∧
      (typeText hf L last text).1.length ≤ text.length := by
  rw [typeText_eq]
  exact ⟨absLoop_ending _ _ _ _ _ (by omega), absLoop_length _ _ _ _ _⟩

/-- **C05** (no exception): if every layer has a modifier entry and no text is empty, typing any
text ends without exception. -/
theorem C05_no_exception (name : String) (layers : List Layer) (kb : PhysicalKeyboard)
    (hf : HandFinger) (last : Option Comb) (text : Text)
    (hk : ∀ b e, hf b = .error e → e = .keyError)
    (hR : Reachable layers) (hE : NoEmptyText layers) :
    (typeText hf (KeyboardLayout.mk' name layers kb) last text).2 = .finished := by
  rw [typeText_eq]
  exact absLoop_finished hk hR hE (by omega)

/-- **C05** (`ValueError`): a text found only in layers without modifier entry makes typing raise. -/
theorem C05_unreachable_layer_raises (name : String) (layers : List Layer) (kb : PhysicalKeyboard)
    (hf : HandFinger) (last : Option Comb) (text m : Text) (hm : m ≠ [])
    (hlm : LongestMatch layers text m)
    (hun : ∀ l ∈ layers, (∃ b, (b, LVal.str m) ∈ l.layout) → l.modifier = []) :
    typeText hf (KeyboardLayout.mk' name layers kb) last text = ([], .raised .valueError) := by
  have hp : producers layers m = [] := by
    by_contra hne
    obtain ⟨c, hc⟩ := List.exists_mem_of_ne_nil _ hne
    obtain ⟨md, b, rfl, l, hl, hmd, hb⟩ := mem_producers.1 hc
    rw [hun l hl ⟨b, hb⟩] at hmd
    simp at hmd
  have hlm' := (longestMatch_take (hasText_le (name := name) (kb := kb))).2 hlm
  have htry : tryMatch hf (KeyboardLayout.mk' name layers kb) last
      (text.take (KeyboardLayout.mk' name layers kb).bufferLen) = .error .valueError := by
    rw [tryMatch_longest hlm' hm, hp]; rfl
  rw [typeText_eq]
  rcases absLoop_cases hf (KeyboardLayout.mk' name layers kb) text.length text last with
    ⟨h0, h1⟩ | ⟨m', comb, hm', _, h1⟩ | ⟨c', cs, rfl, hm', _, h1⟩ | ⟨e, _, hm', _, h1⟩
  · rw [h0] at hlm'
    exact absurd (List.prefix_nil.1 hlm'.2.1) hm
  · rw [htry] at hm'; simp at hm'
  · rw [htry] at hm'; simp at hm'
  · rw [htry] at hm'
    simp only [Except.error.injEq] at hm'
    rw [h1, hm']

/-- **C05** (`AssertionError`): an empty text in the layout makes typing fail its assertion at the
first character nothing else matches. -/
theorem C05_empty_text_asserts (name : String) (layers : List Layer) (kb : PhysicalKeyboard)
    (hf : HandFinger) (last : Option Comb) (text : Text) (hne : text ≠ [])
    (hB : ∃ t, t ≠ [] ∧ HasText layers t) (hlm : LongestMatch layers text []) :
    typeText hf (KeyboardLayout.mk' name layers kb) last text = ([], .raised .assertionError) := by
  have hlm' := (longestMatch_take (hasText_le (name := name) (kb := kb))).2 hlm
  have htry : tryMatch hf (KeyboardLayout.mk' name layers kb) last
      (text.take (KeyboardLayout.mk' name layers kb).bufferLen) = .error .assertionError := by
    unfold tryMatch
    rw [call_eq_ok hlm']
    simp [bind, Except.bind]
  have hpos : 0 < (KeyboardLayout.mk' name layers kb).bufferLen := by
    obtain ⟨t, ht, hh⟩ := hB
    exact lt_of_lt_of_le (List.length_pos_iff.2 ht) (length_le_bufferLen hh)
  rw [typeText_eq]
  rcases absLoop_cases hf (KeyboardLayout.mk' name layers kb) text.length text last with
    ⟨h0, h1⟩ | ⟨m', comb, hm', _, h1⟩ | ⟨c', cs, rfl, hm', _, h1⟩ | ⟨e, _, hm', _, h1⟩
  · rcases List.take_eq_nil_iff.1 h0 with h | h
    · omega
    · exact absurd h hne
  · rw [htry] at hm'; simp at hm'
  · rw [htry] at hm'; simp at hm'
  · rw [htry] at hm'
    simp only [Except.error.injEq] at hm'
    rw [h1, hm']

example : Reachable demoLayers ∧ NoEmptyText demoLayers := by
  refine ⟨by unfold Reachable; decide, ?_⟩
  rw [NoEmptyText, ← layersHit_iff]
  decide

example : typeText demoHf (KeyboardLayout.mk' "" [{ modifier := [], layout := [(0, .str ['a'])] }]
    demoKeyboard) none ['a'] = ([], .raised .valueError) := by decide +kernel

example : typeText demoHf (KeyboardLayout.mk' ""
    [{ modifier := [[]], layout := [(0, .str ['a']), (1, .str [])] }] demoKeyboard) none ['b'] =
      ([], .raised .assertionError) := by decide +kernel

/-! ### C06 -/

/-- **C06**: the combination chosen has the best rank, and is the first of those listed. -/
theorem C06_choice_is_best (hf : HandFinger) (dir : Button → Direction) (prev : Option Comb)
    (combs : List Comb) (hne : combs ≠ []) (ha : ∀ c ∈ combs, AllAssigned hf dir prev c)
    (hs : ∀ c ∈ combs, Small prev c) :
    ∃ pre c post, combs = pre ++ c :: post ∧ chooseCombination hf prev combs = .ok c ∧
      (∀ d ∈ pre, Better (rank dir prev c) (rank dir prev d)) ∧
      ∀ d ∈ post, ¬ Better (rank dir prev d) (rank dir prev c) :=
  choose_best hne ha hs

def demoDir (b : Button) : Direction := if b % 2 = 0 then .left else .right

example : ∀ c ∈ [Comb.mk [10] [0], Comb.mk [11] [0], Comb.mk [] [2], Comb.mk [] [3]],
    AllAssigned demoHf demoDir (some ⟨[10], [1]⟩) c ∧ Small (some ⟨[10], [1]⟩) c := by
  intro c hc
  simp only [List.mem_cons, List.not_mem_nil, or_false] at hc
  rcases hc with rfl | rfl | rfl | rfl <;>
    simp [AllAssigned, Assigned, demoHf, demoDir, prevButtons, Small, prevSize]

example : chooseCombination demoHf (some ⟨[10], [1]⟩)
    [⟨[10], [0]⟩, ⟨[11], [0]⟩, ⟨[], [2]⟩, ⟨[], [3]⟩] = .ok ⟨[], [3]⟩ := by decide +kernel

theorem previousPress_eq (last : Option Comb) (evs : List Event) : previousPress last evs = lastAfter last evs := by
  induction evs generalizing last with
  | nil => rfl
  | cons e evs ih =>
    cases e with
    | skip c => exact ih last
    | typed t c =>
      rw [lastAfter, ← ih]
      simp only [previousPress, List.filterMap_cons]
      cases h : evs.filterMap (fun | .typed _ c => some c | .skip _ => none) with
      | nil => rfl
      | cons x xs => simp [List.getLast?_cons_cons]; cases hh : (x :: xs).getLast? <;> simp_all

/-- **C06** (while typing): whatever was typed before, each press is the best one for its text after the previous
press, and the first such listed. -/
theorem C06_typed_is_best (name : String) (layers : List Layer) (kb : PhysicalKeyboard) (hf : HandFinger)
    (dir : Button → Direction) (last : Option Comb) (text : Text) (pre post : List Event) (m : Text) (c : Comb)
    (ha : ∀ t, ∀ d ∈ producers layers t, Assigned hf dir (d.modifier ++ d.buttons))
    (hs : ∀ l ∈ layers, ∀ md ∈ l.modifier, md.length < 255)
    (hla : ∀ p, last = some p → Assigned hf dir (prevButtons p) ∧ (prevButtons p).length < 255)
    (h : (typeText hf (KeyboardLayout.mk' name layers kb) last text).1 = pre ++ .typed m c :: post) :
    let r := rank dir (previousPress last pre)
    (∃ md b, c = ⟨md, [b]⟩ ∧ Produces layers md b m) ∧
    (∀ md b, Produces layers md b m → ¬ Better (r ⟨md, [b]⟩) (r c)) ∧
    ∃ before after, producers layers m = before ++ c :: after ∧ ∀ d ∈ before, Better (r c) (r d) := by
  intro r
  have hrun := h
  rw [typeText_eq] at h
  obtain ⟨fuel', w', rfl, _, h'⟩ := absLoop_split h
  have hprev : ∀ p, previousPress last pre = some p →
      Assigned hf dir (prevButtons p) ∧ (prevButtons p).length < 255 := by
    intro p hp
    rw [previousPress_eq] at hp
    rcases lastAfter_some hp with hp | ⟨t, hp⟩
    · exact hla p hp
    · obtain ⟨pre', post', hsplit⟩ := List.append_of_mem hp
      have hmem : p ∈ producers layers t := by
        have h2 : (absLoop hf (KeyboardLayout.mk' name layers kb) ((eventsText pre ++ w').length + 1)
            (eventsText pre ++ w') last).1 = pre' ++ .typed t p :: (post' ++ .typed m c :: post) := by
          rw [h, hsplit]; simp
        obtain ⟨f2, w2, _, _, h3⟩ := absLoop_split h2
        rcases absLoop_cases hf (KeyboardLayout.mk' name layers kb) f2 w2 (lastAfter last pre') with
          ⟨_, h1⟩ | ⟨m', comb, hm, _, h1⟩ | ⟨c', cs, rfl, hm, _, h1⟩ | ⟨e, _, _, _, h1⟩
        · rw [h1] at h3; simp at h3
        · rw [h1] at h3
          simp only [List.cons.injEq, Event.typed.injEq] at h3
          obtain ⟨⟨rfl, rfl⟩, _⟩ := h3
          exact (typed_head hm).2.2
        · rw [h1] at h3; simp at h3
        · rw [h1] at h3; simp at h3
      have hA := ha t p hmem
      obtain ⟨md, b, rfl, l, hl, hmd, _⟩ := mem_producers.1 hmem
      refine ⟨fun x hx => hA x ?_, ?_⟩
      · simp only [prevButtons] at hx
        split at hx
        · exact List.mem_append_right _ hx
        · exact List.mem_append_left _ hx
      · simp only [prevButtons]
        split
        · simp
        · exact hs l hl md hmd
  rcases absLoop_cases hf (KeyboardLayout.mk' name layers kb) fuel' w' (lastAfter last pre) with
    ⟨_, h1⟩ | ⟨m', comb, hm, _, h1⟩ | ⟨c', cs, rfl, hm, _, h1⟩ | ⟨e, _, _, _, h1⟩
  · rw [h1] at h'; simp at h'
  · rw [h1] at h'
    simp only [List.cons.injEq, Event.typed.injEq] at h'
    obtain ⟨⟨rfl, rfl⟩, _⟩ := h'
    have hmem := (typed_head hm).2.2
    obtain ⟨cs, hc, hp, hch⟩ := tryMatch_ok hm
    obtain ⟨_, rfl⟩ := call_ok hc
    rw [← previousPress_eq] at hch
    have hall : ∀ d ∈ producers layers m', AllAssigned hf dir (previousPress last pre) d :=
      fun d hd => ⟨ha m' d hd, fun p hp => (hprev p hp).1⟩
    have hsm : ∀ d ∈ producers layers m', Small (previousPress last pre) d := by
      intro d hd
      obtain ⟨md, b, rfl, l, hl, hmd, _⟩ := mem_producers.1 hd
      have := hs l hl md hmd
      refine ⟨by simp; omega, ?_⟩
      cases hp : previousPress last pre with
      | none => simp [prevSize]
      | some p => have := (hprev p hp).2; simp only [prevSize, List.length_singleton]; omega
    obtain ⟨before, c', after, h2, h3, h4, _⟩ := choose_best (List.ne_nil_of_mem hmem) hall hsm
    rw [hch] at h3
    simp only [Except.ok.injEq] at h3
    subst h3
    exact ⟨mem_producers.1 hmem, fun md b hP => choose_not_worse hch hall hsm _ (mem_producers.2 ⟨md, b, rfl, hP⟩),
      before, after, h2, h4⟩
  · rw [h1] at h'; simp at h'
  · rw [h1] at h'; simp at h'

example : (∀ t, ∀ d ∈ producers demoLayers t, Assigned demoHf demoDir (d.modifier ++ d.buttons)) ∧
    ∀ l ∈ demoLayers, ∀ md ∈ l.modifier, md.length < 255 := by
  refine ⟨fun t d hd => ?_, by decide⟩
  obtain ⟨md, b, rfl, l, hl, hmd, hb⟩ := mem_producers.1 hd
  simp only [demoLayers, List.mem_cons, List.not_mem_nil, or_false] at hl
  have key : ∀ x, x < 12 → ∃ f, demoHf x = .ok (demoDir x, f) := by
    intro x hx
    exact ⟨.index, by simp [demoHf, demoDir, hx]⟩
  intro x hx
  apply key
  rcases hl with rfl | rfl
  · simp only [List.mem_singleton] at hmd
    subst hmd
    simp only [List.nil_append, List.mem_singleton] at hx
    subst hx
    simp at hb
    rcases hb with ⟨rfl, _⟩ | ⟨rfl, _⟩ | ⟨rfl, _⟩ | ⟨rfl, _⟩ <;> decide
  · simp only [List.mem_cons, List.not_mem_nil, or_false] at hmd
    simp only [List.mem_append, List.mem_singleton] at hx
    simp at hb
    rcases hx with hx | rfl
    · rcases hmd with rfl | rfl <;> simp at hx <;> subst hx <;> decide
    · rcases hb with ⟨rfl, _⟩ | ⟨rfl, _⟩ <;> decide

/-- The space is typed with the other hand each time, also after a character that is left out. -/
example : (typeText demoHf demoLayout none "a x ".toList).1 =
      [.typed ['a'] ⟨[], [0]⟩, .typed [' '] ⟨[], [3]⟩, .skip 'x', .typed [' '] ⟨[], [2]⟩] ∧
    previousPress none [.typed ['a'] ⟨[], [0]⟩, .typed [' '] ⟨[], [3]⟩, .skip 'x'] = some ⟨[], [3]⟩ ∧
    (typeText demoHf demoLayout (some ⟨[], [0]⟩) [' ']).1 = [.typed [' '] ⟨[], [3]⟩] := by
  decide +kernel

/-! ### C07 -/

/-- **C07**: of several one-button modifiers for the same key, one on the hand opposite to the key is
chosen if there is any, whatever was typed before and however the alternatives are listed. -/
theorem C07_shift_opposite_hand (hf : HandFinger) (dir : Button → Direction) (prev : Option Comb)
    (combs : List Comb) (b : Button)
    (hshape : ∀ c ∈ combs, ∃ m, c = { modifier := [m], buttons := [b] })
    (hopp : ∃ m, Comb.mk [m] [b] ∈ combs ∧ dir m ≠ dir b)
    (ha : ∀ c ∈ combs, AllAssigned hf dir prev c) (hprev : prevSize prev < 255) :
    ∃ m, chooseCombination hf prev combs = .ok { modifier := [m], buttons := [b] } ∧
      Comb.mk [m] [b] ∈ combs ∧ dir m ≠ dir b := by
  obtain ⟨m0, hm0, hd0⟩ := hopp
  have hs : ∀ c ∈ combs, Small prev c := by
    intro c hc
    obtain ⟨m, rfl⟩ := hshape c hc
    exact ⟨by simp, by simp; omega⟩
  obtain ⟨pre, c, post, hsplit, hch, _, _⟩ := choose_best (List.ne_nil_of_mem hm0) ha hs
  have hmem := choose_mem hch
  obtain ⟨m, rfl⟩ := hshape c hmem
  refine ⟨m, hch, hmem, ?_⟩
  have hnb := choose_not_worse hch ha hs _ hm0
  intro heq
  apply hnb
  have h0 : handDiff dir ([m0] ++ [b]) = 0 := by
    unfold handDiff
    cases h1 : dir m0 <;> cases h2 : dir b <;> simp_all
  have h1 : handDiff dir ([m] ++ [b]) = 2 := by
    unfold handDiff
    cases h2 : dir b <;> simp [heq, h2]
  right
  refine ⟨rfl, Or.inl ?_⟩
  simp only [rank, h0, h1]
  omega

example : chooseCombination demoHf (some ⟨[], [1]⟩) [⟨[10], [0]⟩, ⟨[11], [0]⟩] = .ok ⟨[11], [0]⟩ ∧
    chooseCombination demoHf none [⟨[11], [1]⟩, ⟨[10], [1]⟩] = .ok ⟨[10], [1]⟩ := by
  decide +kernel

/-! ### C08 -/

/-- **C08**: of several single buttons one on the hand not used by the previous press is chosen if
there is any; the hand of the previous press is that of its modifiers if it had any. -/
theorem C08_space_other_hand (hf : HandFinger) (dir : Button → Direction) (prev : Comb) (h : Direction)
    (combs : List Comb)
    (hshape : ∀ c ∈ combs, ∃ b, c = { modifier := [], buttons := [b] })
    (hprev : prevButtons prev ≠ []) (hhand : ∀ b ∈ prevButtons prev, dir b = h)
    (hopp : ∃ b, Comb.mk [] [b] ∈ combs ∧ dir b ≠ h)
    (ha : ∀ c ∈ combs, AllAssigned hf dir (some prev) c) (hsize : (prevButtons prev).length < 255) :
    ∃ b, chooseCombination hf (some prev) combs = .ok { modifier := [], buttons := [b] } ∧
      Comb.mk [] [b] ∈ combs ∧ dir b ≠ h := by
  obtain ⟨b0, hb0, hd0⟩ := hopp
  have hs : ∀ c ∈ combs, Small (some prev) c := by
    intro c hc
    obtain ⟨m, rfl⟩ := hshape c hc
    exact ⟨by simp, by simp [prevSize]; omega⟩
  obtain ⟨pre, c, post, hsplit, hch, _, _⟩ := choose_best (List.ne_nil_of_mem hb0) ha hs
  have hmem := choose_mem hch
  obtain ⟨b, rfl⟩ := hshape c hmem
  refine ⟨b, hch, hmem, ?_⟩
  have hnb := choose_not_worse hch ha hs _ hb0
  intro heq
  apply hnb
  have hlen := List.length_pos_iff.2 hprev
  have hcount : (prevButtons prev).countP (fun x => decide (dir x = h)) = (prevButtons prev).length :=
    List.countP_eq_length.2 (fun x hx => by simp [hhand x hx])
  have hcount' : ∀ h', h' ≠ h → (prevButtons prev).countP (fun x => decide (dir x = h')) = 0 :=
    fun h' hne => List.countP_eq_zero.2 (fun x hx => by simp [hhand x hx, Ne.symm hne])
  have hsingle : ∀ x : Button, handDiff dir ([] ++ [x]) = 1 := by
    intro x; unfold handDiff; cases hx : dir x <;> simp [hx]
  have h0 : handDiff dir (prevButtons prev ++ [b0]) < handDiff dir (prevButtons prev ++ [b]) := by
    unfold handDiff
    simp only [List.countP_append, List.countP_singleton]
    cases h with
    | left =>
      have e1 : dir b0 = .right := by cases hx : dir b0 <;> simp_all
      rw [hcount, hcount' .right (by simp)]
      simp only [e1, heq]; simp
      omega
    | right =>
      have e1 : dir b0 = .left := by cases hx : dir b0 <;> simp_all
      rw [hcount, hcount' .left (by simp)]
      simp only [e1, heq]; simp
      omega
  right
  refine ⟨rfl, Or.inr ⟨?_, h0⟩⟩
  simp only [rank, hsingle]

/-- **C08** (no previous press): of several single buttons the first one listed is chosen, on
whichever hand it is. -/
theorem C08_no_previous_takes_first (hf : HandFinger) (dir : Button → Direction) (b : Button)
    (combs : List Comb) (hshape : ∀ c ∈ combs, ∃ b, c = { modifier := [], buttons := [b] })
    (ha : ∀ c ∈ Comb.mk [] [b] :: combs, AllAssigned hf dir none c) :
    chooseCombination hf none ({ modifier := [], buttons := [b] } :: combs) =
      .ok { modifier := [], buttons := [b] } := by
  have hsh : ∀ c ∈ Comb.mk [] [b] :: combs, ∃ b, c = { modifier := [], buttons := [b] } := by
    intro c hc
    rcases List.mem_cons.1 hc with rfl | hc
    · exact ⟨b, rfl⟩
    · exact hshape c hc
  have hs : ∀ c ∈ Comb.mk [] [b] :: combs, Small none c := by
    intro c hc
    obtain ⟨m, rfl⟩ := hsh c hc
    exact ⟨by simp, by simp [prevSize]⟩
  obtain ⟨pre, c, post, hsplit, hch, h1, _⟩ := choose_best (by simp) ha hs
  cases pre with
  | nil =>
    simp only [List.nil_append, List.cons.injEq] at hsplit
    rw [hch, hsplit.1]
  | cons p pre =>
    exfalso
    simp only [List.cons_append, List.cons.injEq] at hsplit
    have hb := h1 p (by simp)
    obtain ⟨x, rfl⟩ := hsh c (choose_mem hch)
    rw [← hsplit.1] at hb
    have hsingle : ∀ x : Button, handDiff dir ([] ++ [x]) = 1 := by
      intro x; unfold handDiff; cases hx : dir x <;> simp [hx]
    have e1 : handDiff dir [x] = 1 := hsingle x
    have e2 : handDiff dir [b] = 1 := hsingle b
    simp [Better, rank, e1, e2] at hb

/-- **C08** (refuted part): the announced preference for the left side does not exist. -/
theorem C08_left_not_preferred : ∃ l r : Button, demoHf l = .ok (.left, .index) ∧
    demoHf r = .ok (.right, .index) ∧
    chooseCombination demoHf none [⟨[], [r]⟩, ⟨[], [l]⟩] = .ok ⟨[], [r]⟩ :=
  ⟨2, 3, by decide +kernel, by decide +kernel, by decide +kernel⟩

example : chooseCombination demoHf (some ⟨[10], [1]⟩) [⟨[], [2]⟩, ⟨[], [3]⟩] = .ok ⟨[], [3]⟩ ∧
    chooseCombination demoHf (some ⟨[], [1]⟩) [⟨[], [3]⟩, ⟨[], [2]⟩] = .ok ⟨[], [2]⟩ := by
  decide +kernel

/-! ### C09 -/

/-- **C09**: an event is determined by the text up to `bufferLen` characters from its start. -/
theorem C09_bounded_lookahead (hf : HandFinger) (L : KeyboardLayout) (last : Option Comb)
    (x y : Text) (pre post : List Event) (ev : Event)
    (h : (typeText hf L last x).1 = pre ++ ev :: post)
    (hxy : x.take ((eventsText pre).length + L.bufferLen) =
      y.take ((eventsText pre).length + L.bufferLen)) :
    ∃ post', (typeText hf L last y).1 = pre ++ ev :: post' := by
  rw [typeText_eq] at h ⊢
  exact absLoop_agree h (by omega) hxy

/-- **C09** (`bufferLen`): it is the length of the longest text of the layout (0 if there is none). -/
theorem C09_bufferLen_is_longest (name : String) (layers : List Layer) (kb : PhysicalKeyboard) :
    (∀ t, HasText layers t → t.length ≤ (KeyboardLayout.mk' name layers kb).bufferLen) ∧
      ∀ n, (∀ t, HasText layers t → t.length ≤ n) → (KeyboardLayout.mk' name layers kb).bufferLen ≤ n :=
  ⟨fun _ h => length_le_bufferLen h, fun n h => (bufferLen_le_iff name layers kb n).2 h⟩

example : (typeText demoHf demoLayout none "aab aA".toList).1 =
      [.typed ['a'] ⟨[], [0]⟩] ++ .typed ['a', 'b'] ⟨[], [1]⟩ ::
        [.typed [' '] ⟨[], [2]⟩, .typed ['a'] ⟨[], [0]⟩, .typed ['A'] ⟨[11], [0]⟩] ∧
    "aab aA".toList.take (1 + demoLayout.bufferLen) = "aab x".toList.take (1 + demoLayout.bufferLen) := by
  decide +kernel

end Lulua.Props
