import Verif.Proofs.Stats2
import Verif.Proofs.Layout
import Verif.Proofs.Writer
import Verif.Proofs.Xmodmap
import Verif.Spec.Analyze
import Mathlib.Tactic.FieldSimp
import Mathlib.Tactic.Ring

/-!
# Proofs about the evaluation of statistics
-/

namespace Lulua
open Spec

/-! ### Hamza -/

theorem produces_unique {layers : List Layer} (hU : UnambiguousModifiers layers) (hd : ∀ l ∈ layers, Dict.WF l.layout)
    {m : FSet} {b : Button} {t t' : Text} (h : Produces layers m b t) (h' : Produces layers m b t') : t = t' := by
  obtain ⟨l, hl, hm, hb⟩ := h
  obtain ⟨l', hl', hm', hb'⟩ := h'
  obtain ⟨i, hi, rfl⟩ := List.mem_iff_getElem.1 hl
  obtain ⟨j, hj, rfl⟩ := List.mem_iff_getElem.1 hl'
  have := hU i j hi hj m hm hm'
  subst this
  have h1 := Dict.get?_of_mem (hd _ hl) hb
  rw [Dict.get?_of_mem (hd _ hl) hb'] at h1
  simpa using h1.symm

theorem nodup_flatMap_disjoint {α β : Type} {l : List α} {f : α → List β} (h1 : ∀ a ∈ l, (f a).Nodup)
    (h2 : l.Pairwise fun a b => List.Disjoint (f a) (f b)) : (l.flatMap f).Nodup := by
  rw [List.nodup_flatMap]
  exact ⟨h1, h2⟩

theorem producers_nodup {layers : List Layer} (hU : UnambiguousModifiers layers) (hd : ∀ l ∈ layers, Dict.WF l.layout)
    (hm : DistinctModifiers layers) (t : Text) : (producers layers t).Nodup := by
  unfold producers
  apply nodup_flatMap_disjoint
  · intro l hl
    apply nodup_flatMap_disjoint
    · intro e _
      by_cases h : e.2 = LVal.str t
      · simp only [h, if_true]
        refine List.Nodup.map ?_ (hm l hl)
        intro a b hab
        simpa using hab
      · simp [h]
    · have := hd l hl
      unfold Dict.WF at this
      rw [List.Nodup, List.pairwise_map] at this
      refine this.imp ?_
      intro a b hab c hc hc'
      by_cases h1 : a.2 = LVal.str t <;> by_cases h2 : b.2 = LVal.str t <;>
        simp only [h1, h2, if_true, if_false, List.mem_map, List.not_mem_nil] at hc hc'
      obtain ⟨m, _, rfl⟩ := hc
      obtain ⟨m', _, he⟩ := hc'
      simp only [Comb.mk.injEq, List.cons.injEq, and_true] at he
      exact hab he.2.symm
  · rw [List.pairwise_iff_getElem]
    intro i j hi hj hij c hc hc'
    simp only [List.mem_flatMap] at hc hc'
    obtain ⟨e, _, hc⟩ := hc
    obtain ⟨e', _, hc'⟩ := hc'
    by_cases h1 : e.2 = LVal.str t <;> by_cases h2 : e'.2 = LVal.str t <;>
      simp only [h1, h2, if_true, if_false, List.mem_map, List.not_mem_nil] at hc hc'
    obtain ⟨m, hm1, rfl⟩ := hc
    obtain ⟨m', hm2, he⟩ := hc'
    simp only [Comb.mk.injEq] at he
    rw [he.1] at hm2
    have := hU i j hi hj m hm1 hm2
    omega

theorem sum_count_nodup {α : Type} [DecidableEq α] (P l : List α) (hP : P.Nodup) :
    (P.map fun c => l.count c).sum = l.countP (fun c => decide (c ∈ P)) := by
  induction P with
  | nil => simp
  | cons p P ih =>
    rw [List.nodup_cons] at hP
    rw [List.map_cons, List.sum_cons, ih hP.2]
    clear ih
    induction l with
    | nil => rfl
    | cons x l ih =>
      rw [List.count_cons, List.countP_cons, List.countP_cons]
      have e1 : decide (x ∈ p :: P) = (decide (x = p) || decide (x ∈ P)) := by simp
      have e2 : (x == p) = decide (x = p) := by by_cases h : x = p <;> simp [h]
      rw [e1, e2, ← ih]
      by_cases h : x = p
      · subst h
        simp only [hP.1, decide_false, decide_true, Bool.true_or, if_true]
        simp
        omega
      · by_cases h2 : x ∈ P <;> simp [h, h2] <;> omega

theorem countP_presses {evs : List Event} {P : Comb → Bool} {t : Text}
    (h : ∀ t' c, Event.typed t' c ∈ evs → (P c = true ↔ t' = t)) :
    (presses evs).countP P = (typedTexts evs).count t := by
  induction evs with
  | nil => rfl
  | cons e evs ih =>
    have ih := ih (fun t' c hm => h t' c (List.mem_cons_of_mem _ hm))
    cases e with
    | skip x => simpa only [presses, typedTexts, List.filterMap_cons, press?] using ih
    | typed t' c =>
      have hh := h t' c (by simp)
      simp only [presses, typedTexts, List.filterMap_cons, press?] at ih ⊢
      rw [List.countP_cons, List.count_cons, ih]
      by_cases ht : t' = t
      · simp [hh.2 ht, ht]
      · have : P c = false := by
          cases hp : P c with
          | true => exact absurd (hh.1 hp) ht
          | false => rfl
        simp [this, ht]

theorem sum_producers {layers : List Layer} (hU : UnambiguousModifiers layers) (hd : ∀ l ∈ layers, Dict.WF l.layout)
    (hm : DistinctModifiers layers) {evs : List Event} (ht : TypedWith layers evs) (t : Text) :
    ((producers layers t).map fun c => (presses evs).count c).sum = (typedTexts evs).count t := by
  rw [sum_count_nodup _ _ (producers_nodup hU hd hm t)]
  apply countP_presses
  intro t' c hc
  obtain ⟨m, b, rfl, hp⟩ := ht t' c hc
  rw [decide_eq_true_iff, mem_producers]
  constructor
  · rintro ⟨m', b', he, hp'⟩
    simp only [Comb.mk.injEq, List.cons.injEq, and_true] at he
    obtain ⟨rfl, rfl⟩ := he
    exact produces_unique hU hd hp hp'
  · rintro rfl
    exact ⟨m, b, rfl, hp⟩

theorem count_typed_eq_zero {layers : List Layer} {evs : List Event} (ht : TypedWith layers evs) {t : Text}
    (h : ¬ HasText layers t) : (typedTexts evs).count t = 0 := by
  rw [List.count_eq_zero]
  intro hm
  unfold typedTexts at hm
  rw [List.mem_filterMap] at hm
  obtain ⟨e, he, hx⟩ := hm
  cases e with
  | skip x => simp at hx
  | typed t' c =>
    simp only [Option.some.injEq] at hx
    subst hx
    obtain ⟨m, b, _, l, hl, _, hb⟩ := ht _ c he
    exact h ⟨l, hl, b, hb⟩

theorem longestMatch_self {layers : List Layer} {t : Text} (h : HasText layers t) : LongestMatch layers t t :=
  ⟨h, List.prefix_rfl, fun _ _ hp => hp.length_le⟩

open scoped Classical in
/-- What the loop counts, and when it works. -/
theorem hamzaLoop_ok {name : String} {layers : List Layer} {kb : PhysicalKeyboard} (combStats : Dict Comb Nat)
    (ls : List Text) (hn : ls.Nodup) (g : Dict Text Nat) (hl : ∀ l ∈ ls, ¬ NoMatch layers l) :
    ∃ g', hamzaLoop (KeyboardLayout.mk' name layers kb) combStats ls g = .ok g' ∧
      ∀ t, g'.count t = g.count t +
        if t ∈ ls ∧ HasText layers t then ((producers layers t).map combStats.count).sum else 0 := by
  induction ls generalizing g with
  | nil => exact ⟨g, rfl, by simp⟩
  | cons x ls ih =>
    rw [List.nodup_cons] at hn
    have hx := hl x (by simp)
    unfold hamzaLoop
    cases hc : (KeyboardLayout.mk' name layers kb).call x with
    | error e => exact absurd (call_error hc).2 hx
    | ok r =>
      obtain ⟨m, cs⟩ := r
      obtain ⟨h1, rfl⟩ := call_ok hc
      simp only [bind, Except.bind]
      by_cases hmx : m = x
      · subst hmx
        obtain ⟨g', hg, hcount⟩ := ih hn.2 (g.bump m ((producers layers m).map combStats.count).sum)
          (fun l h => hl l (by simp [h]))
        refine ⟨g', by simpa using hg, fun t => ?_⟩
        rw [hcount, Dict.count_bump]
        by_cases h : t = m
        · subst h
          simp [hn.1, h1.1]
        · simp [h, Ne.symm h]
      · obtain ⟨g', hg, hcount⟩ := ih hn.2 g (fun l h => hl l (by simp [h]))
        refine ⟨g', by simpa [hmx] using hg, fun t => ?_⟩
        rw [hcount]
        by_cases h : t = x
        · subst h
          have hno : ¬ HasText layers t := fun hh => hmx (h1.unique (longestMatch_self hh))
          simp [hno]
        · simp [h]

theorem hamzaLoop_error {name : String} {layers : List Layer} {kb : PhysicalKeyboard} (combStats : Dict Comb Nat)
    (ls : List Text) (g : Dict Text Nat) (hl : ∃ l ∈ ls, NoMatch layers l) :
    hamzaLoop (KeyboardLayout.mk' name layers kb) combStats ls g = .error .keyError := by
  induction ls generalizing g with
  | nil => obtain ⟨l, h, _⟩ := hl; simp at h
  | cons x ls ih =>
    unfold hamzaLoop
    cases hc : (KeyboardLayout.mk' name layers kb).call x with
    | error e => rw [(call_error hc).1]; rfl
    | ok r =>
      obtain ⟨m, cs⟩ := r
      have h1 := (call_ok hc).1
      obtain ⟨l, hl1, hl2⟩ := hl
      have hne : l ≠ x := by rintro rfl; exact h1.not_noMatch hl2
      have hl' : ∃ l ∈ ls, NoMatch layers l := ⟨l, by simpa [hne] using hl1, hl2⟩
      simp only [bind, Except.bind]
      split
      · exact ih _ hl'
      · exact ih _ hl'

theorem alef_eq : [alef] = alefLetter := by decide
theorem alefAbove_eq : [alef, hamzaAbove] = alefAbove := by decide
theorem alefBelow_eq : [alef, hamzaBelow] = alefBelow := by decide
theorem letterWithHamza_eq : letterWithHamza = hamzaLetters := by decide
theorem letters_nodup : (alefLetter :: hamzaLetters).Nodup := by decide

theorem sum_map_eq_sum_map {α : Type} {l : List α} {f g : α → Nat} (h : ∀ a ∈ l, f a = g a) :
    (l.map f).sum = (l.map g).sum := by rw [List.map_congr_left h]

theorem length_typedTexts (evs : List Event) : (typedTexts evs).length = (presses evs).length := by
  induction evs with
  | nil => rfl
  | cons e evs ih => cases e <;> simpa only [typedTexts, presses, List.filterMap_cons, press?, List.length_cons, Nat.add_right_cancel_iff] using ih

/-- The figures, if there are any. -/
theorem hamzaStats_eq {name : String} {layers : List Layer} {kb : PhysicalKeyboard}
    (hU : UnambiguousModifiers layers) (hd : ∀ l ∈ layers, Dict.WF l.layout) (hm : DistinctModifiers layers)
    {evs : List Event} (ht : TypedWith layers evs) (hl : ∀ l ∈ alefLetter :: hamzaLetters, ¬ NoMatch layers l) :
    hamzaStats (KeyboardLayout.mk' name layers kb) (evs.foldl SimpleStats.process .init).combinations =
      if typedTexts evs = [] then .error .zeroDivision
      else if (typedTexts evs).count alefAbove + (typedTexts evs).count alefBelow +
        (typedTexts evs).count alefLetter = 0 then .error .zeroDivision
      else .ok (((typedTexts evs).countP (fun t => decide (t ∈ hamzaLetters)) : Nat) / ((typedTexts evs).length : Nat),
        ((typedTexts evs).count alefAbove + (typedTexts evs).count alefBelow : Nat) /
          ((typedTexts evs).count alefAbove + (typedTexts evs).count alefBelow +
            (typedTexts evs).count alefLetter : Nat)) := by
  obtain ⟨_, h2, _, _, h5, _, _, _⟩ := simple_fold evs .init Dict.wf_nil Dict.wf_nil Dict.wf_nil
  set s := evs.foldl SimpleStats.process .init with hs
  have hcnt : ∀ c, s.combinations.count c = (presses evs).count c := by intro c; rw [h2]; simp [SimpleStats.init]
  obtain ⟨g, hg, hgc⟩ := hamzaLoop_ok (name := name) (kb := kb) s.combinations (alefLetter :: hamzaLetters)
    letters_nodup [] hl
  have hgc' : ∀ t ∈ alefLetter :: hamzaLetters, g.count t = (typedTexts evs).count t := by
    intro t htm
    rw [hgc]
    by_cases hT : HasText layers t
    · simp only [htm, hT, and_self, if_true, Dict.count_nil, Nat.zero_add]
      rw [← sum_producers hU hd hm ht t]
      exact sum_map_eq_sum_map fun c _ => hcnt c
    · rw [if_neg (fun h => hT h.2), count_typed_eq_zero ht hT]; rfl
  have e1 : g.count alefLetter = (typedTexts evs).count alefLetter := hgc' _ (by simp)
  have e2 : g.count alefAbove = (typedTexts evs).count alefAbove := hgc' _ (by decide)
  have e3 : g.count alefBelow = (typedTexts evs).count alefBelow := hgc' _ (by decide)
  have e4 : (hamzaLetters.map g.count).sum = (typedTexts evs).countP (fun t => decide (t ∈ hamzaLetters)) := by
    have h6 := sum_count_nodup hamzaLetters (typedTexts evs) (by decide)
    rw [sum_map_eq_sum_map fun t h => hgc' t (by simp [h])]
    convert h6
  have e5 : (s.combinations.map Prod.snd).sum = (typedTexts evs).length := by
    rw [h5, length_typedTexts]; simp [SimpleStats.init]
  unfold hamzaStats
  rw [alef_eq, alefAbove_eq, alefBelow_eq, letterWithHamza_eq, hg]
  simp only [bind, Except.bind, e1, e2, e3, e4, e5]
  by_cases h0 : typedTexts evs = []
  · simp [h0]
  · have : (typedTexts evs).length ≠ 0 := by simpa using h0
    simp only [h0, this, if_false]

/-! ### The table of the report -/

theorem handFingerLoop_keys {hf : HandFinger} {l : List (Button × Nat)} {hands hands' : Dict Direction Nat}
    {fingers fingers' : Dict (Direction × Finger) Nat}
    (h : handFingerLoop hf l hands fingers = .ok (hands', fingers')) (p : Direction × Finger) :
    p ∈ fingers'.map Prod.fst ↔ p ∈ fingers.map Prod.fst ∨ ∃ e ∈ l, hf e.1 = .ok p := by
  induction l generalizing hands fingers with
  | nil =>
    simp only [handFingerLoop, Except.ok.injEq, Prod.mk.injEq] at h
    rw [h.2]; simp
  | cons e l ih =>
    obtain ⟨b, n⟩ := e
    unfold handFingerLoop at h
    cases hb : hf b with
    | error x => simp [hb, bind, Except.bind] at h
    | ok q =>
      simp only [hb, bind, Except.bind] at h
      rw [ih h, Dict.bump, Dict.mem_keys_set]
      simp only [List.mem_cons, exists_eq_or_imp, hb, Except.ok.injEq]
      constructor
      · rintro ((h | h) | h)
        · exact .inr (.inl h.symm)
        · exact .inl h
        · exact .inr (.inr h)
      · rintro (h | h | h)
        · exact .inl (.inr h)
        · exact .inl (.inl h.symm)
        · exact .inr h

theorem templateItem_ok {κ : Type} [DecidableEq κ] {d : Dict κ Nat} {k : κ} {v : Nat} :
    templateItem d k = .ok v ↔ k ∈ d.map Prod.fst ∧ v = d.count k := by
  unfold templateItem Dict.count
  cases h : d.get? k with
  | none =>
    have := Dict.get?_eq_none_iff.1 h
    simp [this]
  | some w =>
    have : k ∈ d.map Prod.fst := Dict.get?_isSome_iff.1 (by simp [h])
    simp only [Except.ok.injEq, Option.getD_some, this, true_and]
    exact eq_comm

theorem templateItem_error {κ : Type} [DecidableEq κ] {d : Dict κ Nat} {k : κ} (h : k ∉ d.map Prod.fst) :
    templateItem d k = .error .otherError := by
  unfold templateItem
  rw [Dict.get?_eq_none_iff.2 h]

theorem pyDiv_ok {a b : Nat} {r : Rat} : pyDiv a b = .ok r ↔ b ≠ 0 ∧ r = (a : Rat) / b := by
  unfold pyDiv
  split
  · simp [*]
  · rename_i h
    simp only [Except.ok.injEq, ne_eq, h, not_false_eq_true, true_and]
    exact eq_comm

theorem fingerBar_ok {s : HandStats} {h : Direction} {f : Finger} {r : FingerBar} :
    fingerBar s h f = .ok r ↔ (h, f) ∈ s.fingers.map Prod.fst ∧ s.buttonPresses ≠ 0 ∧ h ∈ s.hands.map Prod.fst ∧
      s.hands.count h ≠ 0 ∧ r = ⟨f, (s.fingers.count (h, f) : Rat) / s.hands.count h * 100,
        (s.fingers.count (h, f) : Rat) / s.buttonPresses * 100⟩ := by
  simp only [fingerBar, bind_ok_iff, templateItem_ok, pyDiv_ok, Except.ok.injEq]
  constructor
  · rintro ⟨k, ⟨h1, rfl⟩, p, ⟨h2, rfl⟩, n, ⟨h3, rfl⟩, w, ⟨h4, rfl⟩, rfl⟩
    exact ⟨h1, h2, h3, h4, rfl⟩
  · rintro ⟨h1, h2, h3, h4, rfl⟩
    exact ⟨_, ⟨h1, rfl⟩, _, ⟨h2, rfl⟩, _, ⟨h3, rfl⟩, _, ⟨h4, rfl⟩, rfl⟩

/-- The part of the table for one hand, in terms of the counts. -/
def barOf (s : HandStats) (h : Direction) : HandBar :=
  ⟨h, (s.hands.count h : Rat) / s.buttonPresses * 100, (fingerOrder h).map fun f =>
    ⟨f, (s.fingers.count (h, f) : Rat) / s.hands.count h * 100, (s.fingers.count (h, f) : Rat) / s.buttonPresses * 100⟩⟩

theorem forall₂_eq_map {α β : Type} {P : α → Prop} {g : α → β} {l : List α} {m : List β} :
    List.Forall₂ (fun a b => P a ∧ b = g a) l m ↔ (∀ a ∈ l, P a) ∧ m = l.map g := by
  induction l generalizing m with
  | nil => simp
  | cons a l ih =>
    cases m with
    | nil => simp
    | cons b m =>
      rw [List.forall₂_cons, ih]
      simp only [List.mem_cons, forall_eq_or_imp, List.map_cons, List.cons.injEq]
      tauto

theorem mem_fingerOrder (h : Direction) (f : Finger) : f ∈ fingerOrder h := by
  cases h <;> cases f <;> decide

theorem handBar_ok {s : HandStats} {h : Direction} {r : HandBar} :
    handBar s h = .ok r ↔ (s.buttonPresses ≠ 0 ∧ h ∈ s.hands.map Prod.fst ∧ s.hands.count h ≠ 0 ∧
      ∀ f, (h, f) ∈ s.fingers.map Prod.fst) ∧ r = barOf s h := by
  simp only [handBar, bind_ok_iff, templateItem_ok, pyDiv_ok, Except.ok.injEq, mapM_ok_iff]
  have e : ∀ fs : List FingerBar, List.Forall₂ (fun f b => fingerBar s h f = .ok b) (fingerOrder h) fs ↔
      (∀ f ∈ fingerOrder h, ((h, f) ∈ s.fingers.map Prod.fst ∧ s.buttonPresses ≠ 0 ∧ h ∈ s.hands.map Prod.fst ∧
        s.hands.count h ≠ 0)) ∧ fs = (barOf s h).fingers := by
    intro fs
    unfold barOf
    rw [← forall₂_eq_map]
    have : (fun f b => fingerBar s h f = .ok b) = fun (f : Finger) (b : FingerBar) =>
        ((h, f) ∈ s.fingers.map Prod.fst ∧ s.buttonPresses ≠ 0 ∧ h ∈ s.hands.map Prod.fst ∧ s.hands.count h ≠ 0) ∧
        b = ⟨f, (s.fingers.count (h, f) : Rat) / s.hands.count h * 100,
          (s.fingers.count (h, f) : Rat) / s.buttonPresses * 100⟩ := by
      funext f b
      rw [fingerBar_ok]
      apply propext
      tauto
    rw [this]
  simp only [e]
  constructor
  · rintro ⟨n, ⟨h1, rfl⟩, p, ⟨h2, rfl⟩, fs, ⟨h3, rfl⟩, rfl⟩
    have := h3 .index (mem_fingerOrder _ _)
    exact ⟨⟨h2, h1, this.2.2.2, fun f => (h3 f (mem_fingerOrder _ _)).1⟩, rfl⟩
  · rintro ⟨⟨h1, h2, h3, h4⟩, rfl⟩
    exact ⟨_, ⟨h2, rfl⟩, _, ⟨h1, rfl⟩, _, ⟨fun f _ => ⟨h4 f, h1, h2, h3⟩, rfl⟩, rfl⟩

theorem mem_directions (h : Direction) : h ∈ Direction.all := by cases h <;> decide

theorem fingerHandStats_ok {s : HandStats} {r : List HandBar} :
    fingerHandStats s = .ok r ↔ (∀ h, s.buttonPresses ≠ 0 ∧ h ∈ s.hands.map Prod.fst ∧ s.hands.count h ≠ 0 ∧
      ∀ f, (h, f) ∈ s.fingers.map Prod.fst) ∧ r = [barOf s .left, barOf s .right] := by
  unfold fingerHandStats
  rw [mapM_ok_iff]
  have : (fun h b => handBar s h = .ok b) = fun (h : Direction) (b : HandBar) =>
      (s.buttonPresses ≠ 0 ∧ h ∈ s.hands.map Prod.fst ∧ s.hands.count h ≠ 0 ∧
        ∀ f, (h, f) ∈ s.fingers.map Prod.fst) ∧ b = barOf s h := by
    funext h b; rw [handBar_ok]
  rw [this, forall₂_eq_map]
  constructor
  · rintro ⟨h1, rfl⟩; exact ⟨fun h => h1 h (mem_directions h), rfl⟩
  · rintro ⟨h1, rfl⟩; exact ⟨fun h _ => h1 h, rfl⟩

theorem fingerBar_error {s : HandStats} {h : Direction} {f : Finger} (hf : (h, f) ∉ s.fingers.map Prod.fst) :
    fingerBar s h f = .error .otherError := by
  simp [fingerBar, templateItem_error hf, bind, Except.bind]

/-! ### Heat map -/

theorem heatLoop_ok {name : Button → String} (l : List (Button × Nat))
    (hi : ∀ e ∈ l, ∀ e' ∈ l, name e.1 = name e'.1 → e.1 = e'.1)
    (hn : (l.map Prod.fst).Nodup) (d : Dict String Nat) (hd : ∀ e ∈ l, name e.1 ∉ d.map Prod.fst)
    (h : ∀ e ∈ l, name e.1 ≠ "total" ∧ name e.1 ≠ "buttons") :
    heatLoop name l d = .ok (d ++ l.map fun e => (name e.1, e.2)) := by
  induction l generalizing d with
  | nil => simp [heatLoop]
  | cons e l ih =>
    obtain ⟨b, n⟩ := e
    rw [List.map_cons, List.nodup_cons] at hn
    unfold heatLoop
    have h1 := h (b, n) (by simp)
    rw [if_neg (by tauto), Dict.set_of_not_mem (hd (b, n) (by simp))]
    rw [ih (fun e he e' he' => hi e (by simp [he]) e' (by simp [he'])) hn.2 _ _ (fun e he => h e (by simp [he]))]
    · simp
    · intro e he
      simp only [List.map_append, List.map_cons, List.map_nil, List.mem_append, List.mem_singleton, not_or]
      refine ⟨hd e (by simp [he]), fun hh => hn.1 ?_⟩
      rw [← hi e (by simp [he]) (b, n) (by simp) hh]
      exact List.mem_map.2 ⟨e, he, rfl⟩

theorem heatLoop_error {name : Button → String} (l : List (Button × Nat)) (d : Dict String Nat)
    (h : ∃ e ∈ l, name e.1 = "total" ∨ name e.1 = "buttons") : heatLoop name l d = .error .assertionError := by
  induction l generalizing d with
  | nil => simp at h
  | cons e l ih =>
    obtain ⟨b, n⟩ := e
    unfold heatLoop
    split
    · rfl
    · rename_i hb
      refine ih _ ?_
      obtain ⟨e, he, hh⟩ := h
      rcases List.mem_cons.1 he with rfl | he
      · exact absurd hh hb
      · exact ⟨e, he, hh⟩

/-! ### Typed texts -/

theorem typed_mem_producers {hf : HandFinger} {name : String} {layers : List Layer} {kb : PhysicalKeyboard}
    {last : Option Comb} {text m : Text} {c : Comb}
    (h : Event.typed m c ∈ (typeText hf (KeyboardLayout.mk' name layers kb) last text).1) : c ∈ producers layers m := by
  obtain ⟨pre, post, h⟩ := List.append_of_mem h
  rw [typeText_eq] at h
  obtain ⟨fuel', w', _, _, h'⟩ := absLoop_split h
  rcases absLoop_cases hf (KeyboardLayout.mk' name layers kb) fuel' w' (lastAfter last pre) with
    ⟨_, h1⟩ | ⟨m', comb, hm, _, h1⟩ | ⟨c', cs, rfl, hm, _, h1⟩ | ⟨e, _, _, _, h1⟩
  · rw [h1] at h'; simp at h'
  · rw [h1] at h'
    simp only [List.cons.injEq, Event.typed.injEq] at h'
    obtain ⟨⟨rfl, rfl⟩, _⟩ := h'
    exact (typed_head hm).2.2
  · rw [h1] at h'; simp at h'
  · rw [h1] at h'; simp at h'

theorem mem_typedTexts {evs : List Event} {t : Text} : t ∈ typedTexts evs ↔ ∃ c, Event.typed t c ∈ evs := by
  unfold typedTexts
  rw [List.mem_filterMap]
  constructor
  · rintro ⟨e, he, h⟩
    cases e with
    | skip x => simp at h
    | typed t' c =>
      simp only [Option.some.injEq] at h
      subst h
      exact ⟨c, he⟩
  · rintro ⟨c, h⟩
    exact ⟨_, h, rfl⟩

theorem count_eq_zero_of_forall {κ : Type} [DecidableEq κ] {d : Dict κ Nat} {k : κ} (h : k ∉ d.map Prod.fst) :
    d.count k = 0 := by
  unfold Dict.count
  rw [Dict.get?_eq_none_iff.2 h]
  rfl

/-! ### Totals -/

theorem sum_values_eq {κ : Type} [DecidableEq κ] {d : Dict κ Nat} (wf : d.WF) {M : List κ}
    (h : ∀ k, d.count k = M.count k) : (d.map Prod.snd).sum = M.length := by
  have h1 : d.map Prod.snd = (d.map Prod.fst).map fun k => M.count k := by
    rw [List.map_map]
    apply List.map_congr_left
    intro e he
    rw [Function.comp, ← h, Dict.count, Dict.get?_of_mem wf (k := e.1) (v := e.2) he]
    rfl
  rw [h1, sum_count_nodup _ _ wf, List.countP_eq_length]
  intro k hk
  rw [decide_eq_true_iff]
  by_contra hno
  have := count_eq_zero_of_forall hno
  rw [h] at this
  exact List.count_eq_zero.1 this hk

/-- Every word typed and delimited, in order. -/
theorem wordCount_eq (letter : Char → Bool) (evs : List Event) (w : Text) :
    wordCount letter evs w = ((stretches evs).flatMap fun s => delimitedWords letter (eventsText s)).count w := by
  unfold wordCount
  induction stretches evs with
  | nil => rfl
  | cons s ss ih => rw [List.map_cons, List.sum_cons, ih, List.flatMap_cons, List.count_append]

theorem typed_length (evs : List Event) (h : ∀ t c, Event.typed t c ∈ evs → t ≠ []) :
    (typedTexts evs).length ≤ (eventsText evs).length ∧
    ((typedTexts evs).length = (eventsText evs).length ↔ ∀ e ∈ evs, ∃ ch c, e = .typed [ch] c) := by
  induction evs with
  | nil => simp [typedTexts, eventsText]
  | cons e evs ih =>
    obtain ⟨h1, h2⟩ := ih (fun t c hm => h t c (List.mem_cons_of_mem _ hm))
    cases e with
    | skip x =>
      have e1 : typedTexts (.skip x :: evs) = typedTexts evs := rfl
      have e2 : (eventsText (.skip x :: evs)).length = (eventsText evs).length + 1 := by
        simp [eventsText, eventText]
      rw [e1, e2]
      refine ⟨by omega, fun hh => by omega, fun hh => ?_⟩
      obtain ⟨ch, c, hc⟩ := hh _ List.mem_cons_self
      cases hc
    | typed t c =>
      have e1 : (typedTexts (.typed t c :: evs)).length = (typedTexts evs).length + 1 := rfl
      have e2 : (eventsText (.typed t c :: evs)).length = (eventsText evs).length + t.length := by
        simp [eventsText, eventText]; omega
      have hne := h t c List.mem_cons_self
      have hpos : 0 < t.length := List.length_pos_iff.2 hne
      rw [e1, e2]
      refine ⟨by omega, fun hh => ?_, fun hh => ?_⟩
      · have ht : t.length = 1 := by omega
        obtain ⟨ch, rfl⟩ := List.length_eq_one_iff.1 ht
        intro e he
        rcases List.mem_cons.1 he with rfl | he
        · exact ⟨ch, c, rfl⟩
        · exact h2.1 (by simpa using hh) e he
      · obtain ⟨ch, c', hc⟩ := hh _ List.mem_cons_self
        cases hc
        have := h2.2 (fun e he => hh e (List.mem_cons_of_mem _ he))
        simp only [List.length_cons, List.length_nil]
        omega

end Lulua
