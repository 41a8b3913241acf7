import Verif.Props.Keyboard
import Verif.Proofs.Carpalx
import Verif.Props.Typing

/-!
# C92, C93: comparing and enumerating layouts
-/

namespace Lulua.Props
open Lulua Spec

/-! ### C92 -/

/-- Two dictionaries have the same entries. -/
def SameEntries (a b : Dict Button LVal) : Prop := ∀ k v, (k, v) ∈ a ↔ (k, v) ∈ b

/-- Two lists of layers say the same, apart from the order of entries. -/
def SameLayers (ls ms : List Layer) : Prop :=
  List.Forall₂ (fun l m => l.modifier = m.modifier ∧ SameEntries l.layout m.layout) ls ms

theorem eqDict_iff {a b : Dict Button LVal} (ha : a.WF) (hb : b.WF) : eqDict a b = true ↔ SameEntries a b := by
  simp only [eqDict, Bool.and_eq_true, beq_iff_eq, List.all_eq_true]
  have hna : a.Nodup := List.Nodup.of_map _ ha
  have hnb : b.Nodup := List.Nodup.of_map _ hb
  constructor
  · rintro ⟨hlen, hall⟩
    have hsub : a ⊆ b := fun e he => Dict.mem_of_get? (hall e he)
    have hperm := (List.subperm_of_subset hna hsub).perm_of_length_le hlen.ge
    exact fun k v => hperm.mem_iff
  · intro h
    have hperm := (List.perm_ext_iff_of_nodup hna hnb).2 fun e => h e.1 e.2
    exact ⟨hperm.length_eq, fun e he => Dict.get?_of_mem hb (hperm.mem_iff.1 he)⟩

/-- **C92** (meaning of `==`): layouts are equal exactly if they have the same modifiers and entries, layer by layer;
name, keyboard and the order of entries do not matter. -/
theorem C92_eq_iff (n n' : String) (ls ms : List Layer) (kb kb' : PhysicalKeyboard)
    (hl : ∀ l ∈ ls, Dict.WF l.layout) (hm : ∀ l ∈ ms, Dict.WF l.layout) :
    (KeyboardLayout.mk' n ls kb).eq (KeyboardLayout.mk' n' ms kb') = true ↔ SameLayers ls ms := by
  show eqLayers ls ms = true ↔ _
  induction ls generalizing ms with
  | nil => cases ms <;> simp [eqLayers, SameLayers]
  | cons l ls ih =>
    cases ms with
    | nil => simp [eqLayers, SameLayers]
    | cons m ms =>
      have := ih ms (fun x hx => hl x (by simp [hx])) (fun x hx => hm x (by simp [hx]))
      simp only [eqLayers, Bool.and_eq_true, beq_iff_eq, SameLayers, List.forall₂_cons,
        eqDict_iff (hl l (by simp)) (hm m (by simp))] at this ⊢
      rw [this]

theorem SameLayers.hasText {ls ms : List Layer} (h : SameLayers ls ms) (t : Text) : HasText ls t ↔ HasText ms t := by
  induction h with
  | nil => rfl
  | cons h _ ih =>
    simp only [HasText, List.mem_cons, exists_eq_or_imp, h.2 _ _] at ih ⊢
    rw [ih]

theorem SameLayers.longestMatch {ls ms : List Layer} (h : SameLayers ls ms) (w t : Text) :
    LongestMatch ls w t ↔ LongestMatch ms w t := by
  simp only [LongestMatch, h.hasText]

theorem SameLayers.noMatch {ls ms : List Layer} (h : SameLayers ls ms) (w : Text) : NoMatch ls w ↔ NoMatch ms w := by
  simp only [NoMatch, h.hasText]

theorem SameLayers.bufferLen {ls ms : List Layer} (h : SameLayers ls ms) (n n' : String) (kb kb' : PhysicalKeyboard) :
    (KeyboardLayout.mk' n ls kb).bufferLen = (KeyboardLayout.mk' n' ms kb').bufferLen := by
  apply Nat.le_antisymm
  · exact (bufferLen_le_iff _ _ _ _).2 fun t ht => length_le_bufferLen ((h.hasText t).1 ht)
  · exact (bufferLen_le_iff _ _ _ _).2 fun t ht => length_le_bufferLen ((h.hasText t).2 ht)

/-- In every layer a text is on one button at most. -/
def OneButtonPerText (ls : List Layer) : Prop :=
  ∀ l ∈ ls, ∀ t b b', (b, LVal.str t) ∈ l.layout → (b', LVal.str t) ∈ l.layout → b = b'

theorem flatMap_single {α β : Type} (f : α → List β) : ∀ (l : List α) (a : α), l.Nodup → a ∈ l →
    (∀ x ∈ l, f x ≠ [] → x = a) → l.flatMap f = f a
  | [], a, _, h, _ => by simp at h
  | x :: l, a, hn, h, hu => by
    rw [List.flatMap_cons]
    have hn' := List.nodup_cons.1 hn
    by_cases hx : x = a
    · subst hx
      have : l.flatMap f = [] := List.flatMap_eq_nil_iff.2 fun y hy => by
        by_contra hne
        exact hn'.1 (hu y (by simp [hy]) hne ▸ hy)
      rw [this, List.append_nil]
    · have : f x = [] := by
        by_contra hne
        exact hx (hu x (by simp) hne)
      rw [this, List.nil_append]
      refine flatMap_single f l a hn'.2 ?_ fun y hy => hu y (by simp [hy])
      rcases List.mem_cons.1 h with h | h
      · exact absurd h.symm hx
      · exact h

theorem SameLayers.producers {ls ms : List Layer} (h : SameLayers ls ms) (hl : ∀ l ∈ ls, Dict.WF l.layout)
    (hm : ∀ l ∈ ms, Dict.WF l.layout) (h1 : OneButtonPerText ls) (t : Text) : producers ls t = producers ms t := by
  induction h with
  | nil => rfl
  | @cons l m ls ms h _ ih =>
    have := ih (fun x hx => hl x (by simp [hx])) (fun x hx => hm x (by simp [hx])) (fun x hx => h1 x (by simp [hx]))
    unfold Spec.producers at this ⊢
    rw [List.flatMap_cons, List.flatMap_cons, this, h.1]
    congr 1
    have hnl : l.layout.Nodup := List.Nodup.of_map _ (hl l (by simp))
    have hnm : m.layout.Nodup := List.Nodup.of_map _ (hm m (by simp))
    by_cases hex : ∃ b, (b, LVal.str t) ∈ l.layout
    · obtain ⟨b, hb⟩ := hex
      have hval : ∀ x : Button × LVal, (if x.2 = LVal.str t then m.modifier.map fun md => Comb.mk md [x.1] else []) ≠ [] →
          x.2 = LVal.str t := by
        intro x hx
        by_contra hne
        rw [if_neg hne] at hx
        exact hx rfl
      rw [flatMap_single _ l.layout (b, LVal.str t) hnl hb, flatMap_single _ m.layout (b, LVal.str t) hnm ((h.2 _ _).1 hb)]
      · intro x hx hne
        have e := hval x hne
        obtain ⟨b', v⟩ := x
        simp only at e
        subst e
        rw [h1 l (by simp) t b' b ((h.2 _ _).2 hx) hb]
      · intro x hx hne
        have e := hval x hne
        obtain ⟨b', v⟩ := x
        simp only at e
        subst e
        rw [h1 l (by simp) t b' b hx hb]
    · have e1 : ∀ x ∈ l.layout, ¬ x.2 = LVal.str t := fun x hx he => hex ⟨x.1, by rw [← he]; exact hx⟩
      have e2 : ∀ x ∈ m.layout, ¬ x.2 = LVal.str t := fun x hx he =>
        hex ⟨x.1, by rw [← he]; exact (h.2 _ _).2 hx⟩
      rw [List.flatMap_eq_nil_iff.2 fun x hx => if_neg (e1 x hx), List.flatMap_eq_nil_iff.2 fun x hx => if_neg (e2 x hx)]

/-- **C92** (what holds): equal layouts in which no text is on two buttons of a layer press the same for every text. -/
theorem C92_same_presses_partial (hf : HandFinger) (n n' : String) (ls ms : List Layer) (kb kb' : PhysicalKeyboard)
    (hl : ∀ l ∈ ls, Dict.WF l.layout) (hm : ∀ l ∈ ms, Dict.WF l.layout) (h1 : OneButtonPerText ls)
    (h : (KeyboardLayout.mk' n ls kb).eq (KeyboardLayout.mk' n' ms kb') = true) (last : Option Comb) (text : Text) :
    typeText hf (KeyboardLayout.mk' n ls kb) last text = typeText hf (KeyboardLayout.mk' n' ms kb') last text := by
  have hs := (C92_eq_iff n n' ls ms kb kb' hl hm).1 h
  have hcall : ∀ w, (KeyboardLayout.mk' n ls kb).call w = (KeyboardLayout.mk' n' ms kb').call w := by
    intro w
    cases hc : (KeyboardLayout.mk' n ls kb).call w with
    | ok r =>
      obtain ⟨m, cs⟩ := r
      obtain ⟨h2, h3⟩ := call_ok hc
      rw [call_eq_ok ((hs.longestMatch _ _).1 h2), h3, hs.producers hl hm h1]
    | error e =>
      obtain ⟨rfl, h2⟩ := call_error hc
      rw [call_eq_error ((hs.noMatch _).1 h2)]
  have htry : ∀ last w, tryMatch hf (KeyboardLayout.mk' n ls kb) last w = tryMatch hf (KeyboardLayout.mk' n' ms kb') last w := by
    intro last w
    unfold tryMatch
    rw [hcall]
  rw [typeText_eq, typeText_eq]
  generalize text.length + 1 = fuel
  induction fuel generalizing text last with
  | zero => rfl
  | succ fuel ih =>
    rw [absLoop, absLoop, hs.bufferLen n n' kb kb']
    split
    · rfl
    · rw [htry]
      split
      · simp only [ih]
      · simp only [ih]
      · rfl

/-- What an event says about the text: typed or skipped. -/
def eventKind : Event → Bool × Text
  | .typed t _ => (true, t)
  | .skip c => (false, [c])

theorem sameTexts_bufferLen {ls ms : List Layer} (h : ∀ t, HasText ls t ↔ HasText ms t) (n n' : String)
    (kb kb' : PhysicalKeyboard) : (KeyboardLayout.mk' n ls kb).bufferLen = (KeyboardLayout.mk' n' ms kb').bufferLen := by
  apply Nat.le_antisymm
  · exact (bufferLen_le_iff _ _ _ _).2 fun t ht => length_le_bufferLen ((h t).1 ht)
  · exact (bufferLen_le_iff _ _ _ _).2 fun t ht => length_le_bufferLen ((h t).2 ht)

/-- Layouts with the same texts split every text into the same parts and leave out the same characters, if all their
buttons have a finger and nothing raises. -/
theorem sameTexts_typing (hf : HandFinger) (n n' : String) (ls ms : List Layer) (kb kb' : PhysicalKeyboard)
    (hF : Fingered hf ls) (hR : Reachable ls) (hE : NoEmptyText ls) (hF' : Fingered hf ms) (hR' : Reachable ms)
    (hs : ∀ t, HasText ls t ↔ HasText ms t) (text : Text) :
    ((typeText hf (KeyboardLayout.mk' n ls kb) none text).1.map eventKind =
      (typeText hf (KeyboardLayout.mk' n' ms kb') none text).1.map eventKind) := by
  have hlong : ∀ w t, LongestMatch ls w t ↔ LongestMatch ms w t := by
    intro w t; simp only [LongestMatch, hs]
  have hnone : ∀ w, NoMatch ls w ↔ NoMatch ms w := by
    intro w; simp only [NoMatch, hs]
  rw [typeText_eq, typeText_eq]
  generalize text.length + 1 = fuel
  suffices ∀ last last', (∀ p, last = some p → CombFingered hf p) → (∀ p, last' = some p → CombFingered hf p) →
      (absLoop hf (KeyboardLayout.mk' n ls kb) fuel text last).1.map eventKind =
        (absLoop hf (KeyboardLayout.mk' n' ms kb') fuel text last').1.map eventKind from
    this none none (by simp) (by simp)
  induction fuel generalizing text with
  | zero => intros; rfl
  | succ fuel ih =>
    intro last last' hla hla'
    have hB := sameTexts_bufferLen hs n n' kb kb'
    have hgood : ∀ m, LongestMatch ls text m → m ≠ [] := fun m h0 he => hE (he ▸ h0.1)
    have hstep : ∀ m, LongestMatch ls text m → ∃ c c', CombFingered hf c ∧ CombFingered hf c' ∧
        tryMatch hf (KeyboardLayout.mk' n ls kb) last (text.take (KeyboardLayout.mk' n ls kb).bufferLen) = .ok (m, c) ∧
        tryMatch hf (KeyboardLayout.mk' n' ms kb') last' (text.take (KeyboardLayout.mk' n ls kb).bufferLen) = .ok (m, c') := by
      intro m h0
      have h1 := (longestMatch_take (hasText_le (name := n) (kb := kb))).2 h0
      have h2 := (hlong _ _).1 h1
      obtain ⟨c, hc⟩ := choose_ok (producers_ne_nil hR h0.1) hla (fun c h => mem_producers_fingered hF h)
      obtain ⟨c', hc'⟩ := choose_ok (producers_ne_nil hR' ((hs _).1 h0.1)) hla'
        (fun c h => mem_producers_fingered hF' h)
      refine ⟨c, c', mem_producers_fingered hF (choose_mem hc), mem_producers_fingered hF' (choose_mem hc'), ?_, ?_⟩
      · rw [tryMatch_longest h1 (hgood m h0), hc]; rfl
      · rw [tryMatch_longest h2 (hgood m h0), hc']; rfl
    rcases match_or_not n ls kb text with ⟨m, h0⟩ | hno
    rotate_left
    · have h1 := (noMatch_take (hasText_le (name := n) (kb := kb))).2 hno
      have h2 := (hnone _).1 h1
      rw [absLoop, absLoop, ← hB]
      cases hbuf : text.take (KeyboardLayout.mk' n ls kb).bufferLen with
      | nil => rfl
      | cons c cs =>
        rw [hbuf] at h1 h2
        simp only [tryMatch, call_eq_error h1, call_eq_error h2, bind, Except.bind, List.map_cons, eventKind]
        rw [ih (text.drop 1) last last' hla hla']
    · obtain ⟨c, c', hcf, hcf', t1, t2⟩ := hstep m h0
      rw [absLoop, absLoop, ← hB]
      cases hbuf : text.take (KeyboardLayout.mk' n ls kb).bufferLen with
      | nil => rfl
      | cons x xs =>
        rw [hbuf] at t1 t2
        simp only [t1, t2, List.map_cons, eventKind]
        rw [ih (text.drop m.length) (some c) (some c') (by simpa using hcf) (by simpa using hcf')]

/-- **C92** (texts): equal layouts always split a text into the same parts and leave out the same characters, if all
their buttons have a finger and nothing raises. -/
theorem C92_same_texts (hf : HandFinger) (n n' : String) (ls ms : List Layer) (kb kb' : PhysicalKeyboard)
    (hl : ∀ l ∈ ls, Dict.WF l.layout) (hm : ∀ l ∈ ms, Dict.WF l.layout)
    (hF : Fingered hf ls) (hR : Reachable ls) (hE : NoEmptyText ls)
    (h : (KeyboardLayout.mk' n ls kb).eq (KeyboardLayout.mk' n' ms kb') = true) (text : Text) :
    ((typeText hf (KeyboardLayout.mk' n ls kb) none text).1.map eventKind =
      (typeText hf (KeyboardLayout.mk' n' ms kb') none text).1.map eventKind) := by
  have hs := (C92_eq_iff n n' ls ms kb kb' hl hm).1 h
  have hF' : Fingered hf ms := by
    intro m hm'
    obtain ⟨l, hl', h1, h2⟩ := forall2_mem_right hs hm'
    refine ⟨fun x hx => (hF l hl').1 x (h1 ▸ hx), fun e he => (hF l hl').2 e ((h2 _ _).2 he)⟩
  have hR' : Reachable ms := by
    intro m hm'
    obtain ⟨l, hl', h1, _⟩ := forall2_mem_right hs hm'
    rw [← h1]; exact hR l hl'
  exact sameTexts_typing hf n n' ls ms kb kb' hF hR hE hF' hR' hs.hasText text

/-- Two ways to list a layer with a space on two buttons. -/
def spaceLeft : List Layer := [{ modifier := [[]], layout := [(2, .str [' ']), (3, .str [' ']), (0, .str ['a'])] }]
def spaceRight : List Layer := [{ modifier := [[]], layout := [(3, .str [' ']), (2, .str [' ']), (0, .str ['a'])] }]

/-- **C92** (refuted): equal layouts need not press the same buttons. -/
theorem C92_refuted : ∃ (L M : KeyboardLayout) (text : Text), L.eq M = true ∧
    (∀ l ∈ L.layers ++ M.layers, Dict.WF l.layout) ∧ Fingered demoHf L.layers ∧
    typeText demoHf L none text ≠ typeText demoHf M none text := by
  refine ⟨KeyboardLayout.mk' "" spaceLeft demoKeyboard, KeyboardLayout.mk' "" spaceRight demoKeyboard, [' '],
    by decide +kernel, by decide +kernel, ?_, by decide +kernel⟩
  intro l hl
  simp only [KeyboardLayout.mk', spaceLeft, List.mem_singleton] at hl
  subst hl
  simp [demoHf]

example : (KeyboardLayout.mk' "x" spaceLeft demoKeyboard).eq (KeyboardLayout.mk' "y" spaceRight demoKeyboard) = true ∧
    (typeText demoHf (KeyboardLayout.mk' "" spaceLeft demoKeyboard) none "a ba".toList).1.map eventKind =
      [(true, ['a']), (true, [' ']), (false, ['b']), (true, ['a'])] ∧
    (KeyboardLayout.mk' "x" spaceLeft demoKeyboard).eq demoLayout = false := by
  decide +kernel

/-! ### C93 -/

/-- **C93**: `buttons` gives every entry once for each layer it is in, and `len` is how many it gives. -/
theorem C93_enumerates (g : GenericLayout) (hw : ∀ l ∈ g.layers, Dict.WF l.layout) :
    (∀ n v, g.buttons.count (n, v) = g.layers.countP fun l => decide (l.layout.get? n = some v)) ∧
    g.buttons.length = g.len := by
  refine ⟨fun n v => ?_, by simp [GenericLayout.buttons, GenericLayout.len, List.length_flatMap]⟩
  unfold GenericLayout.buttons
  revert hw
  generalize g.layers = gs
  intro hw
  induction gs with
  | nil => rfl
  | cons l ls ih =>
    have hl := hw l (by simp)
    have hnd : l.layout.Nodup := List.Nodup.of_map _ hl
    rw [List.flatMap_cons, List.count_append, ih fun x hx => hw x (by simp [hx]), List.countP_cons, Nat.add_comm]
    congr 1
    by_cases h : l.layout.get? n = some v
    · simp [h, List.count_eq_one_of_mem hnd (Dict.mem_of_get? h)]
    · have : (n, v) ∉ l.layout := fun hm => h (Dict.get?_of_mem hl hm)
      simp [h, List.count_eq_zero.2 this]

/-- **C93** (specialization): no entry gets lost when a layout is specialized to a keyboard. -/
theorem C93_specialize_keeps (t : InternTable) (g : GenericLayout) (kb : PhysicalKeyboard)
    (hw : ∀ l ∈ g.layers, Dict.WF l.layout) (L : KeyboardLayout) (h : g.specialize t kb = .ok L) :
    (L.layers.map fun l => l.layout.length) = g.layers.map (fun l => l.layout.length) ∧
    (L.layers.map fun l => l.layout.length).sum = g.len ∧
    L.layers.map (fun l => l.layout.map Prod.snd) = g.layers.map fun l => l.layout.map Prod.snd := by
  simp only [GenericLayout.specialize, bind_ok_iff, Except.ok.injEq] at h
  obtain ⟨ls, hls, rfl⟩ := h
  suffices hv : ls.map (fun l => l.layout.map Prod.snd) = g.layers.map fun l => l.layout.map Prod.snd by
    have hlen : (ls.map fun l => l.layout.length) = g.layers.map (fun l => l.layout.length) := by
      have := congrArg (List.map List.length) hv
      simpa [Function.comp_def] using this
    exact ⟨hlen, by show (ls.map fun l => l.layout.length).sum = _; rw [hlen]; rfl, hv⟩
  revert hls hw
  generalize g.layers = gs
  intro hw hls
  induction gs generalizing ls with
  | nil =>
    simp only [GenericLayout.specLayers, Except.ok.injEq] at hls
    subst hls; rfl
  | cons l gs ih =>
    simp only [GenericLayout.specLayers, GenericLayout.specLayer, bind_ok_iff, Except.ok.injEq] at hls
    obtain ⟨l', ⟨ms, _, es, hes, rfl⟩, ls', hls', rfl⟩ := hls
    have hfa := specEntries_mem hes
    have wfe := specEntries_wf hfa (hw l (by simp))
    rw [List.map_cons, List.map_cons, ih ls' (fun x hx => hw x (by simp [hx])) hls', Dict.ofPairs_of_wf wfe]
    congr 1
    have : List.Forall₂ (fun a b => a = b) (es.map Prod.snd) (l.layout.map Prod.snd) := by
      rw [List.forall₂_map_left_iff, List.forall₂_map_right_iff]
      exact hfa.flip.imp fun _ _ h => h.2.symm
    exact List.forall₂_eq_eq_eq ▸ this

example : demoGeneric.len = 2 ∧ demoGeneric.buttons = [("Bl1", .str ['a']), ("Bl1", .str ['A', 'b'])] := by
  decide +kernel

end Lulua.Props
