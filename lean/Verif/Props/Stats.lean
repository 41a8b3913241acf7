import Verif.Proofs.Stats2
import Verif.Props.Typing
import Mathlib.Algebra.Order.BigOperators.Group.List

/-!
# C17–C24, C28: statistics

`demoLayout`, `demoHf` are those of `Props/Typing.lean`; `demoEvents` is what typing a text with a
character the layout lacks yields.
-/

namespace Lulua.Props
open Lulua Spec

/-- Events of a text with two skipped characters (`x`). -/
def demoEvents : List Event := (typeText demoHf demoLayout none "aabA abxaAaA abAx".toList).1

/-- Letters for the demonstration. -/
def demoLetter (c : Char) : Bool := c ∈ ['a', 'b', 'A']

/-! ### C17 -/

/-- **C17** (counts): combinations, buttons and unknown characters are counted exactly, and exactly
what occurred is listed. -/
theorem C17_counts (evs : List Event)
    (hn : ∀ t c, Event.typed t c ∈ evs → (c.modifier ++ c.buttons).Nodup) :
    let s := evs.foldl SimpleStats.process SimpleStats.init
    (∀ c, s.combinations.count c = (presses evs).count c) ∧
    (∀ b, s.buttons.count b = (presses evs).countP (fun c => decide (b ∈ c.modifier ∨ b ∈ c.buttons))) ∧
    (∀ ch, s.unknown.count ch = (skips evs).count ch) ∧
    (∀ c, c ∈ s.combinations.keys ↔ c ∈ presses evs) ∧
    (∀ b, b ∈ s.buttons.keys ↔ ∃ c ∈ presses evs, b ∈ c.modifier ∨ b ∈ c.buttons) ∧
    (∀ ch, ch ∈ s.unknown.keys ↔ ch ∈ skips evs) := by
  obtain ⟨_, h2, h3, h4, _⟩ := simple_fold evs .init Dict.wf_nil Dict.wf_nil Dict.wf_nil
  obtain ⟨z1, z2, z3⟩ := simple_noZero evs .init ⟨by intro k; simp [SimpleStats.init],
    by intro k; simp [SimpleStats.init], by intro k; simp [SimpleStats.init]⟩
  have e0 : ∀ c ∈ presses evs, c.iter.Nodup := by
    intro c hc
    obtain ⟨t, ht⟩ := mem_presses.1 hc
    exact hn t c ht
  have b3 : ∀ b, (evs.foldl SimpleStats.process .init).buttons.count b =
      (presses evs).countP (fun c => decide (b ∈ c.modifier ∨ b ∈ c.buttons)) := by
    intro b
    rw [h3, count_flatMap_nodup _ e0]
    simp [SimpleStats.init]
  have b2 : ∀ c, (evs.foldl SimpleStats.process .init).combinations.count c = (presses evs).count c := by
    intro c; rw [h2]; simp [SimpleStats.init]
  have b4 : ∀ c, (evs.foldl SimpleStats.process .init).unknown.count c = (skips evs).count c := by
    intro c; rw [h4]; simp [SimpleStats.init]
  refine ⟨b2, b3, b4, fun c => ?_, fun b => ?_, fun c => ?_⟩
  · rw [z2.keys, b2]; exact List.count_pos_iff
  · rw [z1.keys, b3, List.countP_pos_iff]; simp
  · rw [z3.keys, b4]; exact List.count_pos_iff

/-- **C17** (number of events): all counts of combinations and unknown characters add up to the
number of events. -/
theorem C17_total (evs : List Event) :
    let s := evs.foldl SimpleStats.process SimpleStats.init
    (s.combinations.map Prod.snd).sum + (s.unknown.map Prod.snd).sum = evs.length := by
  obtain ⟨_, _, _, _, h5, h6, _, _⟩ := simple_fold evs .init Dict.wf_nil Dict.wf_nil Dict.wf_nil
  simp only [h5, h6]
  rw [← length_presses_skips evs]
  simp [SimpleStats.init]

/-- **C17** (length of the text): the counts weighted with the text lengths, plus the unknown
characters, give the length of the text. -/
theorem C17_text_length (name : String) (layers : List Layer) (kb : PhysicalKeyboard) (hf : HandFinger)
    (last : Option Comb) (text : Text) (hU : UnambiguousModifiers layers)
    (hd : ∀ l ∈ layers, Dict.WF l.layout) (hne : ∃ t, t ≠ [] ∧ HasText layers t)
    (hfin : (typeText hf (KeyboardLayout.mk' name layers kb) last text).2 = .finished) :
    let s := (typeText hf (KeyboardLayout.mk' name layers kb) last text).1.foldl SimpleStats.process
      SimpleStats.init
    (s.combinations.map fun e => e.2 * textLength (KeyboardLayout.mk' name layers kb) e.1).sum +
      (s.unknown.map Prod.snd).sum = text.length := by
  obtain ⟨_, _, _, _, _, h6, _, h8⟩ :=
    simple_fold (typeText hf (KeyboardLayout.mk' name layers kb) last text).1 .init Dict.wf_nil
      Dict.wf_nil Dict.wf_nil
  have h1 := C01_typing_lossless name layers kb hf last text hne hfin
  have h2 := eventsText_length (textLength (KeyboardLayout.mk' name layers kb))
    (typeText hf (KeyboardLayout.mk' name layers kb) last text).1 (by
      intro t c hc
      have := C03_combination_types_match name layers kb hf last text t c hU hd hc
      simp [textLength, this])
  simp only [h6, h8 (textLength (KeyboardLayout.mk' name layers kb))]
  rw [h1] at h2
  rw [h2]
  simp [SimpleStats.init]

example : (∀ t c, Event.typed t c ∈ demoEvents → (c.modifier ++ c.buttons).Nodup) := by
  intro t c h
  have : ∀ c ∈ presses demoEvents, (c.modifier ++ c.buttons).Nodup := by decide +kernel
  exact this c (mem_presses.2 ⟨t, h⟩)

example : (demoEvents.foldl SimpleStats.process .init).unknown = [('x', 2)] ∧
    (demoEvents.foldl SimpleStats.process .init).combinations.length = 4 ∧
    demoEvents.length = 14 := by decide +kernel

/-! ### C18 -/

/-- **C18**: a triad is counted as often as it occurs in the stretches between skipped characters,
presses of the ignored buttons left out; processing raises nothing. -/
theorem C18_triads (ig : List Button) (evs : List Event) (hs : SingleButtons evs) :
    ∃ s, evs.foldlM TriadStats.process ⟨[], [], ig⟩ = .ok s ∧
      ∀ k, s.triads.count k = triadCount ig evs k := by
  obtain ⟨s, h1, _, _, _, h5⟩ := triads_fold ig evs hs
  exact ⟨s, h1, h5⟩

/-- **C18** (what is ignored): the statistics of a writer start empty and ignore exactly the buttons
found under the names of the two spaces, return and tab. -/
theorem C18_ignored (t : InternTable) (kb : PhysicalKeyboard) (s : TriadStats)
    (h : TriadStats.init t kb = .ok s) :
    s.triad = [] ∧ s.triads = [] ∧
      List.Forall₂ (fun n i => ∃ b, kb.find t n = .ok b ∧ b.i = i)
        ["Fl_space", "Fr_space", "CD_ret", "Cl_tab"] s.ignored := by
  unfold TriadStats.init at h
  cases hg : GenericLayout.findAll t kb TriadStats.ignoredNames with
  | error e => simp [hg, bind, Except.bind] at h
  | ok ig =>
    simp only [hg, bind, Except.bind, Except.ok.injEq] at h
    subst h
    refine ⟨rfl, rfl, ?_⟩
    change List.Forall₂ _ TriadStats.ignoredNames ig
    generalize TriadStats.ignoredNames = ns at hg
    induction ns generalizing ig with
    | nil => simp only [GenericLayout.findAll, Except.ok.injEq] at hg; subst hg; exact .nil
    | cons n ns ih =>
      unfold GenericLayout.findAll at hg
      cases hf : kb.find t n with
      | error e => simp [hf, bind, Except.bind] at hg
      | ok b =>
        cases hr : GenericLayout.findAll t kb ns with
        | error e => simp [hf, hr, bind, Except.bind] at hg
        | ok bs =>
          simp only [hf, hr, bind, Except.bind, Except.ok.injEq] at hg
          subst hg
          exact .cons ⟨b, hf, rfl⟩ (ih bs hr)

/-- **C18** (typed texts): every press of a typed text is of a single button, so C18 applies. -/
theorem C18_typed_texts (hf : HandFinger) (name : String) (layers : List Layer) (kb : PhysicalKeyboard)
    (last : Option Comb) (text : Text) :
    SingleButtons (typeText hf (KeyboardLayout.mk' name layers kb) last text).1 :=
  typed_singleButtons hf name layers kb last text

example : SingleButtons demoEvents := typed_singleButtons _ _ _ _ _ _

example : triadCount [2, 3] demoEvents (⟨[], [0]⟩, ⟨[11], [0]⟩, ⟨[], [0]⟩) = 1 ∧
    triadCount [2, 3] demoEvents (⟨[11], [0]⟩, ⟨[], [1]⟩, ⟨[11], [0]⟩) = 1 ∧
    triadCount [2, 3] demoEvents (⟨[], [1]⟩, ⟨[11], [0]⟩, ⟨[], [1]⟩) = 1 := by decide +kernel

/-! ### C19 -/

/-- **C19**: the number recorded for a hand and a length is the number of completed runs of that
length by that hand. -/
theorem C19_hand_runs (hf : HandFinger) (pos : Comb → Direction × Finger) (evs : List Event)
    (hp : Presses hf pos evs) :
    ∃ s, evs.foldlM (RunlenStats.process hf) RunlenStats.init = .ok s ∧
      ∀ h n, recorded s.perHand h n = runCount (fun c => (pos c).1) evs h n := by
  obtain ⟨s, h1, _, _, _, h5, _⟩ := runlen_fold hf pos evs hp
  exact ⟨s, h1, h5⟩

/-- **C19** (typed texts): the hypothesis holds for every text typed with a layout whose buttons all
have fingers. -/
theorem C19_typed_texts (hf : HandFinger) (layers : List Layer) (hF : Fingered hf layers) (name : String)
    (kb : PhysicalKeyboard) (last : Option Comb) (text : Text) :
    ∃ pos, Presses hf pos (typeText hf (KeyboardLayout.mk' name layers kb) last text).1 :=
  typed_presses hF name kb last text

theorem demoFingered : Fingered demoHf demoLayers := by
  intro l hl
  simp only [demoLayers, List.mem_cons, List.not_mem_nil, or_false] at hl
  rcases hl with rfl | rfl <;> simp [demoHf]

example : ∃ pos, Presses demoHf pos demoEvents := typed_presses demoFingered _ _ _ _

/-- Left, left, right, left, left, left, right: two runs of the left hand are completed and one of the
right. -/
example : runCount (fun c => if c.buttons = [0] then Direction.left else .right)
      ([0, 0, 1, 0, 0, 0, 1].map fun b => Event.typed ['a'] ⟨[], [b]⟩) .left 3 = 1 ∧
    runCount (fun c => if c.buttons = [0] then Direction.left else .right)
      ([0, 0, 1, 0, 0, 0, 1].map fun b => Event.typed ['a'] ⟨[], [b]⟩) .right 1 = 1 := by
  decide +kernel

/-! ### C20 -/

/-- **C20** (what holds): every completed finger run is recorded once, with its length, under the
finger that comes after it. -/
theorem C20_finger_runs_partial (hf : HandFinger) (pos : Comb → Direction × Finger) (evs : List Event)
    (hp : Presses hf pos evs) :
    ∃ s, evs.foldlM (RunlenStats.process hf) RunlenStats.init = .ok s ∧
      (∀ f n, recorded s.fingerDist f n = runBefore pos evs f n) ∧
      ∀ n, (allFingers.map fun f => recorded s.fingerDist f n).sum = completedOfLength pos evs n := by
  obtain ⟨s, h1, _, _, _, _, h6⟩ := runlen_fold hf pos evs hp
  refine ⟨s, h1, h6, fun n => ?_⟩
  simp only [h6]
  exact sum_runBefore pos evs n

/-- **C20** (refuted): a run of one finger is booked on another. -/
theorem C20_attribution_refuted : ∃ (evs : List Event) (pos : Comb → Direction × Finger) (s : RunlenStats)
    (f : Direction × Finger), Presses demoHf pos evs ∧
      evs.foldlM (RunlenStats.process demoHf) RunlenStats.init = .ok s ∧
      recorded s.fingerDist f 2 ≠ runCount pos evs f 2 := by
  refine ⟨[.typed [] ⟨[], [0]⟩, .typed [] ⟨[], [0]⟩, .typed [] ⟨[], [1]⟩],
    fun c => (if c.buttons = [0] then .left else .right, .index), _, (.left, .index), ?_, rfl,
    by decide +kernel⟩
  intro t c h
  simp only [List.mem_cons, Event.typed.injEq, List.not_mem_nil, or_false] at h
  rcases h with ⟨_, rfl⟩ | ⟨_, rfl⟩ | ⟨_, rfl⟩
  · exact ⟨0, rfl, by decide⟩
  · exact ⟨0, rfl, by decide⟩
  · exact ⟨1, rfl, by decide⟩

/-- **C20** (refuted): combining statistics drops the finger runs of the second argument. -/
theorem C20_update_drops (s o : RunlenStats) : (s.update o).fingerDist = s.fingerDist := rfl

/-! ### C21 -/

/-- **C21**: a word is counted as often as it is typed and delimited. -/
theorem C21_words (letter : Char → Bool) (L : KeyboardLayout) (evs : List Event) (ht : TextsOf L evs) :
    ∃ s, evs.foldlM (WordStats.process letter L) WordStats.init = .ok s ∧
      ∀ w, s.words.count w = wordCount letter evs w := by
  obtain ⟨s, h1, _, _, h4⟩ := words_fold letter L evs ht
  exact ⟨s, h1, h4⟩

/-- **C21** (typed texts): the layout agrees with the events about the text. -/
theorem C21_typed_texts (name : String) (layers : List Layer) (kb : PhysicalKeyboard) (hf : HandFinger)
    (last : Option Comb) (text : Text) (hU : UnambiguousModifiers layers)
    (hd : ∀ l ∈ layers, Dict.WF l.layout) :
    TextsOf (KeyboardLayout.mk' name layers kb)
      (typeText hf (KeyboardLayout.mk' name layers kb) last text).1 :=
  fun t c h => C03_combination_types_match name layers kb hf last text t c hU hd h

/-- **C21** (no delimiter): without non-letters nothing is counted; in particular the last word of a
text is lost if nothing follows it. -/
theorem C21_undelimited_lost (letter : Char → Bool) (evs : List Event)
    (h : ∀ c ∈ eventsText evs, letter c) (hs : skips evs = []) (w : Text) : wordCount letter evs w = 0 := by
  have hst : stretches evs = [evs] := by
    unfold stretches
    apply List.splitOnP_eq_singleton
    intro e he
    cases e with
    | typed t c => simp [isSkip]
    | skip c =>
      have : c ∈ skips evs := List.mem_filterMap.2 ⟨_, he, rfl⟩
      rw [hs] at this
      simp at this
  unfold wordCount
  rw [hst]
  have : (eventsText evs).splitOnP (fun c => !letter c) = [eventsText evs] := by
    apply List.splitOnP_eq_singleton
    intro c hc; simp [h c hc]
  simp [delimitedWords, this]

example : wordCount demoLetter demoEvents "aabA".toList = 1 ∧
    wordCount demoLetter demoEvents "aAaA".toList = 1 ∧
    wordCount demoLetter demoEvents "ab".toList = 0 ∧ wordCount demoLetter demoEvents "abA".toList = 0 := by
  decide +kernel

/-! ### C22 -/

/-- **C22**: after a successful merge every place holds what the two dicts call for. -/
theorem C22_merge_pointwise {κ α : Type} [DecidableEq κ] (op : α → α → α) (a b r : List (κ × NVal κ α))
    (hb : DeepWF (.dict b)) (h : updateItems op a b = .ok r) (p : List κ) :
    MergedAt op (valueAt (.dict a) p) (valueAt (.dict b) p) (valueAt (.dict r) p) := by
  cases p with
  | nil => simp [valueAt, MergedAt]
  | cons k p =>
    have := updateItems_ok op b (itemsWF_of_deep hb) a r h k p
    simpa [valueAt] using this

/-- **C22** (exceptions): merging raises exactly if the shapes clash somewhere, or a list is met that
is in both. -/
theorem C22_merge_raises_iff {κ α : Type} [DecidableEq κ] (op : α → α → α) (a b : List (κ × NVal κ α))
    (hb : DeepWF (.dict b)) :
    (∃ r, updateItems op a b = .ok r) ↔ SameShape (.dict a) (.dict b) := by
  constructor
  · rintro ⟨r, h⟩ p x y hx hy
    have := C22_merge_pointwise op a b r hb h p
    rw [hx, hy] at this
    exact mergedAt_shape this
  · intro h
    refine updateItems_total op b (itemsWF_of_deep hb) a ?_
    intro k x v hx hv p u w hu hw
    exact h (k :: p) u w (by simp [valueAt, hx, hu]) (by simp [valueAt, hv, hw])

/-- **C22** (which exceptions): `AssertionError`, or the `TypeError` of adding a number to a
container. -/
theorem C22_merge_exceptions {κ α : Type} [DecidableEq κ] (op : α → α → α) (a b : List (κ × NVal κ α))
    (e : PyErr) (h : updateItems op a b = .error e) : e = .assertionError ∨ e = .typeError :=
  updateItems_err op b a e h

/-- **C22** (one level): the counters of the statistics are merged pointwise. -/
theorem C22_counts {κ : Type} [DecidableEq κ] (a b : Dict κ Nat) (hb : b.WF) (k : κ) :
    (updateCounts a b).get? k = addOpt (a.get? k) (b.get? k) := updateCounts_get? a b hb k

/-- A nested dict for demonstration. -/
def demoNested (n : Nat) : List (Nat × NVal Nat Nat) :=
  [(1, .leaf n), (2, .dict [(n, .leaf 5), (7, .leaf 1)])]

example : (updateItems (· + ·) (demoNested 3) (demoNested 4)).map (fun r => (valueAt (.dict r) [2, 7]).isSome) =
    .ok true := by decide +kernel

/-- The result of merging the two demonstration dicts. -/
example : updateItems (· + ·) (demoNested 3) (demoNested 4) =
    .ok [(1, .leaf 7), (2, .dict [(3, .leaf 5), (7, .leaf 2), (4, .leaf 5)])] := rfl

/-- Clashing shapes. -/
example : updateItems (· + ·) [(1, .leaf 1)] [(1, .dict (demoNested 3))] = .error .assertionError ∧
    updateItems (κ := Nat) (α := Nat) (· + ·) [(1, .list [1])] [(1, .list [2])] = .error .assertionError ∧
    updateItems (· + ·) [(1, .dict (demoNested 3))] [(1, .leaf 1)] = .error .typeError := ⟨rfl, rfl, rfl⟩

/-! ### C23 -/

/-- **C23** (flat): merging any number of dicts of numbers into `a` changes no other object. -/
theorem C23_flat_partial {κ : Type} [DecidableEq κ] (n a : Nat) (bs : List Nat) (h : Heap κ)
    (ha : FlatObj h a) (hne : a ∉ bs) (hwf : ∀ b ∈ bs, (h b).WF) (hb : ∀ b ∈ bs, FlatObj h b) :
    ∃ h', heapMerge (n + 1) a bs h = .ok h' ∧ ∀ x, x ≠ a → h' x = h x := by
  obtain ⟨h', h1, _, h3⟩ := heapMerge_flat n a bs h ha hne hwf hb
  exact ⟨h', h1, h3⟩

/-- **C23** (run lengths): merging dicts of dicts whose keys `a` all has changes only the inner dicts
of `a`. -/
theorem C23_nested_partial {κ : Type} [DecidableEq κ] (n a : Nat) (ca : κ → Nat)
    (bs : List (Nat × (κ → Nat))) (h : Heap κ)
    (hall : ∀ k, (h a).get? k = some (.ref (ca k))) (hflat : ∀ k, FlatObj h (ca k)) (hna : ∀ k, ca k ≠ a)
    (hb : ∀ b ∈ bs, TwoLevel h b.1 b.2) (hbne : ∀ b ∈ bs, ∀ k, b.1 ≠ ca k)
    (hdis : ∀ b ∈ bs, ∀ k k', ca k ≠ b.2 k') :
    ∃ h', heapMerge (n + 2) a (bs.map Prod.fst) h = .ok h' ∧ ∀ x, (∀ k, x ≠ ca k) → h' x = h x :=
  heapMerge_two n a ca bs h hall hflat hna hb hbne hdis

/-- Objects: 0 is `{}`, 1 is `{0: 3}` with 3 being `{5: 1}`, 2 is `{0: 4}` with 4 being `{5: 10}`. -/
def demoHeap : Heap Nat
  | 1 => [(0, .ref 3)]
  | 2 => [(0, .ref 4)]
  | 3 => [(5, .leaf 1)]
  | 4 => [(5, .leaf 10)]
  | _ => []

/-- **C23** (refuted): after merging 1 and then 2 into 0, the contents of 1 have changed. -/
theorem C23_shared_refuted : ∃ (κ : Type) (_ : DecidableEq κ) (h h' : Heap κ) (a b c inner : Nat) (k : κ),
    heapMerge 2 a [b, c] h = .ok h' ∧ (h b).get? k = some (.ref inner) ∧ inner ≠ a ∧ h' inner ≠ h inner := by
  refine ⟨Nat, inferInstance, demoHeap, _, 0, 1, 2, 3, 0, rfl, rfl, by decide, by decide⟩

/-- The hypotheses of `C23_flat_partial` are met by objects 4, 3. -/
example : FlatObj demoHeap 4 ∧ FlatObj demoHeap 3 ∧ (demoHeap 3).WF := by
  refine ⟨?_, ?_, by decide⟩ <;> intro k v h <;>
    simp only [demoHeap, Dict.get?] at h <;> split at h <;> simp at h
  · exact ⟨10, h.symm⟩
  · exact ⟨1, h.symm⟩

/-- The hypotheses of `C23_nested_partial` are met for merging 2 into 1, the keys being one-valued. -/
def demoHeap1 : Heap Unit
  | 1 => [((), .ref 3)]
  | 2 => [((), .ref 4)]
  | 3 => [((), .leaf 1)]
  | 4 => [((), .leaf 10)]
  | _ => []

example : (∀ k, (demoHeap1 1).get? k = some (.ref 3)) ∧ FlatObj demoHeap1 3 ∧
    TwoLevel demoHeap1 2 (fun _ => 4) := by
  refine ⟨fun _ => rfl, ?_, by decide, fun _ => rfl, ?_, fun _ => by decide⟩
  · intro k v h; exact ⟨1, by simpa [demoHeap1, Dict.get?] using h.symm⟩
  · intro _ k v h; exact ⟨10, by simpa [demoHeap1, Dict.get?] using h.symm⟩

/-! ### C24 -/

/-- **C24** (order): combining result files gives the same counts in every order. -/
theorem C24_order (fresh : AllStats) (hfr : Fresh fresh) (files files' : List AllStats)
    (hf : ∀ f ∈ files, StatsOk f) (hp : files.Perm files') :
    StatsEq (AllStats.combine fresh files) (AllStats.combine fresh files') := by
  obtain ⟨h1, h2⟩ := combine_sem hfr hf
  obtain ⟨h3, h4⟩ := combine_sem hfr (fun f hm => hf f (hp.mem_iff.2 hm))
  rw [statsEq_iff h1 h3]
  intro k
  rw [h2, h4]
  exact sumOpt_perm (hp.map _)

/-- **C24** (grouping): combining some of the files first makes no difference, however the groups are
nested. -/
theorem C24_grouping (fresh : AllStats) (hfr : Fresh fresh) (gs : List Grouping)
    (hf : ∀ f ∈ filesOf gs, StatsOk f) :
    StatsEq (AllStats.combine fresh (resultsOf fresh gs)) (AllStats.combine fresh (filesOf gs)) := by
  obtain ⟨g1, g2⟩ := groupings_sem hfr gs hf
  obtain ⟨h1, h2⟩ := combine_sem hfr g1
  obtain ⟨h3, h4⟩ := combine_sem hfr hf
  rw [statsEq_iff h1 h3]
  intro k
  rw [h2, h4, g2]

/-- **C24** (sums): the counts of the combined statistics are the sums of the counts. -/
theorem C24_sums (fresh : AllStats) (hfr : Fresh fresh) (files : List AllStats) (hf : ∀ f ∈ files, StatsOk f) :
    let r := AllStats.combine fresh files
    (∀ b, r.simple.buttons.count b = (files.map fun f => f.simple.buttons.count b).sum) ∧
    (∀ c, r.simple.combinations.count c = (files.map fun f => f.simple.combinations.count c).sum) ∧
    (∀ c, r.simple.unknown.count c = (files.map fun f => f.simple.unknown.count c).sum) ∧
    (∀ h n, recorded r.runlen.perHand h n = (files.map fun f => recorded f.runlen.perHand h n).sum) ∧
    (∀ k, r.triads.triads.count k = (files.map fun f => f.triads.triads.count k).sum) ∧
    (∀ w, r.words.words.count w = (files.map fun f => f.words.words.count w).sum) := by
  obtain ⟨h1, h2⟩ := combine_sem hfr hf
  have key : ∀ k, (sem (AllStats.combine fresh files) k).getD 0 = (files.map fun f => (sem f k).getD 0).sum := by
    intro k
    rw [h2]
    clear h1 h2 hf
    induction files with
    | nil => rfl
    | cons f files ih => rw [List.map_cons, sumOpt_cons, addOpt_getD, ih, List.map_cons, List.sum_cons]
  have run : ∀ (s : AllStats) h n, recorded s.runlen.perHand h n = (sem s (.run h n)).getD 0 := by
    intro s h n
    unfold recorded Dict.count
    simp only [sem]
    cases s.runlen.perHand.get? h <;> rfl
  refine ⟨fun b => key (.button b), fun c => key (.comb c), fun c => key (.unknown c), fun h n => ?_,
    fun k => key (.triad k), fun w => key (.word w)⟩
  simp only [run]
  exact key (.run h n)

/-- **C24** (nothing): combining no files gives empty statistics. -/
theorem C24_nothing (t : InternTable) (kb : PhysicalKeyboard) (fresh : AllStats)
    (h : AllStats.init t kb = .ok fresh) : AllStats.combine fresh [] = fresh ∧ Fresh fresh :=
  ⟨rfl, fresh_init h⟩

/-- **C24** (files): the statistics of every processed text, and of combinations, are such files. -/
theorem C24_processed_ok (hf : HandFinger) (letter : Char → Bool) (L : KeyboardLayout) (evs : List Event)
    (fresh s : AllStats) (hfr : Fresh fresh) (h : AllStats.processAll hf letter L fresh evs = .ok s) :
    StatsOk s := statsOk_processAll h (statsOk_fresh hfr)

/-- Fresh statistics ignoring the two space buttons. -/
def demoFresh : AllStats := ⟨.init, .init, ⟨[], [], [2, 3]⟩, .init⟩

/-- Two result files. -/
def demoFile (t : String) : Py AllStats :=
  AllStats.processAll demoHf demoLetter demoLayout demoFresh (typeText demoHf demoLayout none t.toList).1

example : Fresh demoFresh := ⟨rfl, rfl, rfl, rfl⟩

example : ((demoFile "aabA ab").bind fun a => (demoFile "xab aaA ").map fun b =>
    (AllStats.combine demoFresh [a, b]).words.words) = .ok [("aabA".toList, 1), ("ab".toList, 1), ("aaA".toList, 1)] := by
  decide +kernel

/-! ### C28 -/

/-- **C28**: hand totals add up to the presses, finger totals to those of their hand, and each total is
what the finger map says; the asymmetry is within its bounds and its sign tells the busier hand. -/
theorem C28_totals (hf : HandFinger) (buttons : Dict Button Nat) (r : HandStats)
    (h : layoutHandStats hf buttons = .ok r) :
    r.buttonPresses = (buttons.map Prod.snd).sum ∧
    r.hands.count .left + r.hands.count .right = r.buttonPresses ∧
    (r.hands.map Prod.snd).sum = r.buttonPresses ∧ (r.fingers.map Prod.snd).sum = r.buttonPresses ∧
    (∀ d, ([Finger.little, .ring, .middle, .index, .thumb].map fun f => r.fingers.count (d, f)).sum =
      r.hands.count d) ∧
    (∀ d, r.hands.count d = pressesWhere hf (fun p => decide (p.1 = d)) buttons) ∧
    (∀ d f, r.fingers.count (d, f) = pressesWhere hf (fun p => decide (p = (d, f))) buttons) ∧
    -1 ≤ r.asymmetry ∧ r.asymmetry ≤ 1 ∧
    (0 < r.asymmetry ↔ r.hands.count .right < r.hands.count .left) ∧
    (r.asymmetry < 0 ↔ r.hands.count .left < r.hands.count .right) := by
  unfold layoutHandStats at h
  cases hl : handFingerLoop hf buttons [] [] with
  | error e => simp [hl, bind, Except.bind] at h
  | ok q =>
    obtain ⟨hands, fingers⟩ := q
    simp only [hl, bind, Except.bind] at h
    split at h
    · simp at h
    · rename_i hpos
      simp only [Except.ok.injEq] at h
      subst h
      obtain ⟨_, _, a3, a4, a5, a6⟩ := handFingerLoop_ok hl Dict.wf_nil Dict.wf_nil
      have hok : ∀ q ∈ buttons, ∃ p, hf q.1 = .ok p := by
        intro q hq
        by_contra hne
        cases hh : hf q.1 with
        | ok p => exact hne ⟨p, hh⟩
        | error e =>
          obtain ⟨e', he'⟩ := (handFingerLoop_error (hands := []) (fingers := [])).2 ⟨q, hq, e, hh⟩
          rw [hl] at he'; simp at he'
      have hands_eq : ∀ d, hands.count d = pressesWhere hf (fun p => decide (p.1 = d)) buttons := by
        intro d; rw [a3]; simp
      have fingers_eq : ∀ q, fingers.count q = pressesWhere hf (fun p => decide (p = q)) buttons := by
        intro d; rw [a4]; simp
      have hsum : hands.count .left + hands.count .right = (buttons.map Prod.snd).sum := by
        rw [hands_eq, hands_eq]; exact pressesWhere_hands hf buttons hok
      have hpos' : (0 : Rat) < ((buttons.map Prod.snd).sum : Nat) := by
        have : 0 < (buttons.map Prod.snd).sum := Nat.pos_of_ne_zero hpos
        exact_mod_cast this
      have hsumQ : (hands.count .left : Rat) + hands.count .right = ((buttons.map Prod.snd).sum : Nat) := by
        exact_mod_cast hsum
      have l0 : (0 : Rat) ≤ hands.count .left := by positivity
      have r0 : (0 : Rat) ≤ hands.count .right := by positivity
      refine ⟨rfl, hsum, by simpa using a5, by simpa using a6, fun d => ?_, hands_eq,
        fun d f => fingers_eq (d, f), ?_, ?_, ?_, ?_⟩
      · simp only [fingers_eq]
        rw [hands_eq]
        exact pressesWhere_fingers hf buttons d
      · simp only [← sub_div]
        rw [le_div_iff₀ hpos']
        linarith
      · simp only [← sub_div]
        rw [div_le_iff₀ hpos']
        linarith
      · simp only [← sub_div]
        rw [lt_div_iff₀ hpos']
        rw [zero_mul, sub_pos]
        exact Nat.cast_lt
      · simp only [← sub_div]
        rw [div_lt_iff₀ hpos']
        rw [zero_mul, sub_neg]
        exact Nat.cast_lt

/-- **C28** (exceptions): the figures cannot be computed exactly if some button lacks a finger or
nothing was pressed. -/
theorem C28_raises_iff (hf : HandFinger) (buttons : Dict Button Nat) :
    (∃ e, layoutHandStats hf buttons = .error e) ↔
      (∃ q ∈ buttons, ∃ e, hf q.1 = .error e) ∨ ∀ q ∈ buttons, q.2 = 0 := by
  unfold layoutHandStats
  cases hl : handFingerLoop hf buttons [] [] with
  | error e =>
    simp only [bind, Except.bind]
    exact ⟨fun _ => Or.inl (handFingerLoop_error.1 ⟨e, hl⟩), fun _ => ⟨e, rfl⟩⟩
  | ok q =>
    obtain ⟨hands, fingers⟩ := q
    have hno : ¬ ∃ q ∈ buttons, ∃ e, hf q.1 = .error e := by
      intro h
      obtain ⟨e, he⟩ := (handFingerLoop_error (hands := []) (fingers := [])).2 h
      rw [hl] at he; simp at he
    have hz : (buttons.map Prod.snd).sum = 0 ↔ ∀ q ∈ buttons, q.2 = 0 := by
      constructor
      · intro h q hq
        have := List.single_le_sum (fun x _ => Nat.zero_le x) _ (List.mem_map.2 ⟨q, hq, rfl⟩ : q.2 ∈ buttons.map Prod.snd)
        omega
      · intro h
        apply List.sum_eq_zero
        intro x hx; obtain ⟨q, hq, rfl⟩ := List.mem_map.1 hx; exact h q hq
    simp only [bind, Except.bind]
    split
    · rename_i h0
      exact ⟨fun _ => Or.inr (hz.1 h0), fun _ => ⟨_, rfl⟩⟩
    · rename_i h0
      constructor
      · rintro ⟨e, he⟩; simp at he
      · rintro (h | h)
        · exact absurd h hno
        · exact absurd (hz.2 h) h0

example : (layoutHandStats demoHf [(0, 3), (1, 4), (2, 2), (11, 1)]).map (fun r => (r.hands, r.asymmetry)) =
    .ok ([(.left, 5), (.right, 5)], 0) := by decide +kernel

end Lulua.Props
