import Verif.Proofs.Optimize

/-!
# Proofs about the energy of the optimizer
-/

namespace Lulua
open Spec Optimizer

/-! ### Moving combinations -/

theorem listIndex_ok {α : Type} {l : List α} {i : Nat} {x : α} : listIndex l i = .ok x ↔ l[i]? = some x := by
  unfold listIndex
  cases h : l[i]? with
  | none => simp
  | some y => simp

theorem modifierToLayer_ok {name : String} {layers : List Layer} {kb : PhysicalKeyboard}
    (hu : UnambiguousModifiers layers) {m : FSet} {x : Nat × Layer} :
    (KeyboardLayout.mk' name layers kb).modifierToLayer m = .ok x ↔ layers[x.1]? = some x.2 ∧ m ∈ x.2.modifier := by
  have hsome : ∀ i (hi : i < layers.length), m ∈ layers[i].modifier →
      (KeyboardLayout.mk' name layers kb).modToLayer.get? m = some (i, layers[i]) := by
    intro i hi hm
    have := modToLayer_addLayers 0 layers ⟨[], 0, []⟩ m i hi hm (fun j hj hij hmj => absurd (hu j i hj hi m hmj hm) (by omega))
    rw [zero_add] at this
    exact this
  unfold KeyboardLayout.modifierToLayer
  rw [Dict.getItem_eq_ok]
  constructor
  · intro h
    by_cases hex : ∃ l ∈ layers, m ∈ l.modifier
    · obtain ⟨l, hl, hm⟩ := hex
      obtain ⟨i, hi, rfl⟩ := List.mem_iff_getElem.1 hl
      rw [hsome i hi hm] at h
      simp only [Option.some.injEq] at h
      subst h
      exact ⟨List.getElem?_eq_getElem hi, hm⟩
    · have := modToLayer_addLayers_none 0 layers ⟨[], 0, []⟩ m rfl (fun l hl hm => hex ⟨l, hl, hm⟩)
      have h' : (KeyboardLayout.mk' name layers kb).modToLayer.get? m = none := this
      rw [h'] at h
      simp at h
  · rintro ⟨h1, h2⟩
    obtain ⟨hi, h3⟩ := List.getElem?_eq_some_iff.1 h1
    rw [hsome x.1 hi (by rw [h3]; exact h2), h3]

theorem combPos_ok {L : KeyboardLayout} {c : Comb} {p : Pos} :
    combPos L c = .ok p ↔ ∃ l, L.modifierToLayer c.modifier = .ok (p.1, l) ∧ c.buttons = [p.2] := by
  simp only [combPos, bind_ok_iff]
  constructor
  · rintro ⟨l, h1, h2⟩
    split_ifs at h2 with h3
    obtain ⟨b, h4, h5⟩ := (bind_ok_iff _ _ _).1 h2
    simp only [ne_eq, not_not] at h3
    obtain ⟨b', hb⟩ := List.length_eq_one_iff.1 h3
    rw [hb] at h4
    simp only [first, Except.ok.injEq] at h4 h5
    subst h4
    subst h5
    exact ⟨l.2, h1, hb⟩
  · rintro ⟨l, h1, h2⟩
    refine ⟨(p.1, l), h1, ?_⟩
    rw [if_neg (by simp [h2]), bind_ok_iff]
    exact ⟨p.2, by rw [h2]; rfl, rfl⟩

theorem mapButton_iff {name : String} {layers : List Layer} {kb : PhysicalKeyboard} (hu : UnambiguousModifiers layers)
    {bm : ButtonMap} {c c' : Comb} :
    mapButton (KeyboardLayout.mk' name layers kb) bm c = .ok c' ↔ Moves layers bm c c' := by
  have hl : (KeyboardLayout.mk' name layers kb).layers = layers := rfl
  simp only [mapButton, bind_ok_iff, Except.ok.injEq, combPos_ok, modifierToLayer_ok hu, Dict.getItem_eq_ok, listIndex_ok,
    hl, frozenset_singleton, Moves, List.head?_eq_getElem?]
  constructor
  · rintro ⟨p, ⟨l, ⟨h1, h2⟩, h3⟩, q, h4, l', h5, m, h6, rfl⟩
    exact ⟨p.1, l, p.2, q.1, l', q.2, m, h1, h2, h3, h4, h5, h6, rfl⟩
  · rintro ⟨i, l, b, j, l', b', m, h1, h2, h3, h4, h5, h6, rfl⟩
    exact ⟨(i, b), ⟨l, ⟨h1, h2⟩, h3⟩, (j, b'), h4, l', h5, m, h6, rfl⟩

theorem mapTriad_iff {name : String} {layers : List Layer} {kb : PhysicalKeyboard} (hu : UnambiguousModifiers layers)
    {bm : ButtonMap} {t t' : Triad} :
    mapTriad (KeyboardLayout.mk' name layers kb) bm t = .ok t' ↔ MovesTriad layers bm t t' := by
  simp only [mapTriad, bind_ok_iff, Except.ok.injEq, mapButton_iff hu, MovesTriad]
  constructor
  · rintro ⟨a, h1, b, h2, c, h3, rfl⟩; exact ⟨h1, h2, h3⟩
  · rintro ⟨h1, h2, h3⟩; exact ⟨_, h1, _, h2, _, h3, rfl⟩

/-! ### Rating -/

/-- The effort of a moved triad. -/
def movedEffort (env : CarpalxEnv) (L : KeyboardLayout) (bm : ButtonMap) (t : Triad) : Py Rat :=
  (mapTriad L bm t).bind env.triadEffort

/-- It can be computed. -/
def Ok (env : CarpalxEnv) (L : KeyboardLayout) (bm : ButtonMap) (t : Triad) : Prop :=
  ∃ e, movedEffort env L bm t = .ok e

/-- Its value. -/
def val (env : CarpalxEnv) (L : KeyboardLayout) (bm : ButtonMap) (t : Triad) : Rat :=
  (movedEffort env L bm t).toOption.getD 0

theorem val_of_ok {env : CarpalxEnv} {L : KeyboardLayout} {bm : ButtonMap} {t : Triad} {e : Rat}
    (h : movedEffort env L bm t = .ok e) : val env L bm t = e := by simp [val, h, Except.toOption]

theorem movedEffort_ok {env : CarpalxEnv} {L : KeyboardLayout} {bm : ButtonMap} {t : Triad} {e : Rat} :
    movedEffort env L bm t = .ok e ↔ ∃ t', mapTriad L bm t = .ok t' ∧ env.triadEffort t' = .ok e := by
  have := bind_ok_iff (mapTriad L bm t) env.triadEffort e
  exact this

theorem rateAll_ok {L : KeyboardLayout} {bm : ButtonMap} {ts : List (Triad × Rat)} {r r' : Rater} :
    rateAll L bm ts r = .ok r' ↔ (∀ x ∈ ts, Ok r.env L bm x.1) ∧
      r' = ⟨r.env, r.absEffort + (ts.map fun x => x.2 * val r.env L bm x.1).sum, r.N + (ts.map Prod.snd).sum⟩ := by
  induction ts generalizing r with
  | nil =>
    simp only [rateAll, Except.ok.injEq, List.not_mem_nil, false_imp_iff, implies_true, List.map_nil, List.sum_nil,
      add_zero, true_and]
    exact eq_comm
  | cons x ts ih =>
    obtain ⟨t, v⟩ := x
    simp only [rateAll, bind_ok_iff, Rater.add, Except.ok.injEq, List.forall_mem_cons]
    constructor
    · rintro ⟨t', h1, r1, ⟨e, h2, rfl⟩, h3⟩
      obtain ⟨h4, rfl⟩ := ih.1 h3
      have hm := movedEffort_ok.2 ⟨t', h1, h2⟩
      refine ⟨⟨⟨e, hm⟩, h4⟩, ?_⟩
      simp only [List.map_cons, List.sum_cons, val_of_ok hm, add_assoc]
    · rintro ⟨⟨⟨e, hm⟩, h4⟩, rfl⟩
      obtain ⟨t', h1, h2⟩ := movedEffort_ok.1 hm
      refine ⟨t', h1, _, ⟨e, h2, rfl⟩, ih.2 ⟨h4, ?_⟩⟩
      simp only [List.map_cons, List.sum_cons, val_of_ok hm, add_assoc]

theorem resetEnergy_ok {O : Optimizer} {s s' : OptState} :
    O.resetEnergy s = .ok s' ↔ (∀ x ∈ O.triads, Ok s.carpalx.env O.layout s.buttonMap x.1) ∧
      s' = ⟨⟨s.carpalx.env, (O.triads.map fun x => x.2 * val s.carpalx.env O.layout s.buttonMap x.1).sum,
        (O.triads.map Prod.snd).sum⟩, s.buttonMap⟩ := by
  simp only [resetEnergy, bind_ok_iff, Except.ok.injEq, rateAll_ok, Rater.reset, zero_add]
  constructor
  · rintro ⟨r, ⟨h1, rfl⟩, rfl⟩; exact ⟨h1, rfl⟩
  · rintro ⟨h1, rfl⟩; exact ⟨_, ⟨h1, rfl⟩, rfl⟩

/-- Recomputing changes nothing. -/
def Exact (O : Optimizer) (s : OptState) : Prop := O.resetEnergy s = .ok s

theorem exact_iff {O : Optimizer} {s : OptState} :
    Exact O s ↔ (∀ x ∈ O.triads, Ok s.carpalx.env O.layout s.buttonMap x.1) ∧
      s.carpalx.absEffort = (O.triads.map fun x => x.2 * val s.carpalx.env O.layout s.buttonMap x.1).sum ∧
      s.carpalx.N = (O.triads.map Prod.snd).sum := by
  unfold Exact
  rw [resetEnergy_ok]
  obtain ⟨⟨env, a, n⟩, bm⟩ := s
  simp

theorem exact_of_reset {O : Optimizer} {s s' : OptState} (h : O.resetEnergy s = .ok s') : Exact O s' := by
  obtain ⟨h1, rfl⟩ := resetEnergy_ok.1 h
  exact exact_iff.2 ⟨h1, rfl, rfl⟩

/-! ### Affected triads -/

theorem noteComb_ok {L : KeyboardLayout} {i : Nat} {d d' : Dict Pos (List Nat)} {c : Comb}
    (h : noteComb L i d c = .ok d') : ∃ p, combPos L c = .ok p ∧
      ∀ q j, j ∈ (d'.get? q).getD [] ↔ j ∈ (d.get? q).getD [] ∨ (q = p ∧ j = i) := by
  simp only [noteComb, bind_ok_iff, Except.ok.injEq] at h
  obtain ⟨p, h1, rfl⟩ := h
  refine ⟨p, h1, fun q j => ?_⟩
  rw [Dict.get?_set]
  by_cases hq : q = p
  · subst hq
    simp only [if_true, Option.getD_some]
    split_ifs with hi
    · constructor
      · exact .inl
      · rintro (h | ⟨_, rfl⟩)
        · exact h
        · exact hi
    · simp
  · simp [hq, Ne.symm hq]

/-- One of the parts of triad `t` is at `p`. -/
def Touches (L : KeyboardLayout) (t : Triad) (p : Pos) : Prop :=
  combPos L t.1 = .ok p ∨ combPos L t.2.1 = .ok p ∨ combPos L t.2.2 = .ok p

theorem noteTriads_ok {L : KeyboardLayout} {i : Nat} {ts : List (Triad × Rat)} {d d' : Dict Pos (List Nat)}
    (h : noteTriads L i ts d = .ok d') (q : Pos) (j : Nat) :
    j ∈ (d'.get? q).getD [] ↔ j ∈ (d.get? q).getD [] ∨ ∃ k x, ts[k]? = some x ∧ j = i + k ∧ Touches L x.1 q := by
  induction ts generalizing i d with
  | nil =>
    simp only [noteTriads, Except.ok.injEq] at h
    subst h; simp
  | cons x ts ih =>
    obtain ⟨t, v⟩ := x
    simp only [noteTriads, bind_ok_iff] at h
    obtain ⟨d1, h1, d2, h2, d3, h3, h4⟩ := h
    obtain ⟨p1, hp1, e1⟩ := noteComb_ok h1
    obtain ⟨p2, hp2, e2⟩ := noteComb_ok h2
    obtain ⟨p3, hp3, e3⟩ := noteComb_ok h3
    rw [ih h4, e3, e2, e1]
    have ht : Touches L t q ↔ q = p1 ∨ q = p2 ∨ q = p3 := by
      simp only [Touches, hp1, hp2, hp3, Except.ok.injEq]
      constructor <;> rintro (h | h | h) <;> simp [h]
    constructor
    · rintro ((((h | ⟨h, rfl⟩) | ⟨h, rfl⟩) | ⟨h, rfl⟩) | ⟨k, x, hx, rfl, hq⟩)
      · exact .inl h
      · exact .inr ⟨0, (t, v), rfl, rfl, ht.2 (.inl h)⟩
      · exact .inr ⟨0, (t, v), rfl, rfl, ht.2 (.inr (.inl h))⟩
      · exact .inr ⟨0, (t, v), rfl, rfl, ht.2 (.inr (.inr h))⟩
      · exact .inr ⟨k + 1, x, by simpa using hx, by omega, hq⟩
    · rintro (h | ⟨k, x, hx, rfl, hq⟩)
      · exact .inl (.inl (.inl (.inl h)))
      · cases k with
        | zero =>
          simp only [List.getElem?_cons_zero, Option.some.injEq] at hx
          subst hx
          rcases ht.1 hq with h | h | h
          · exact .inl (.inl (.inl (.inr ⟨h, by simp⟩)))
          · exact .inl (.inl (.inr ⟨h, by simp⟩))
          · exact .inl (.inr ⟨h, by simp⟩)
        | succ k => exact .inr ⟨k, x, by simpa using hx, by omega, hq⟩

/-- The optimizer knows which triads are touched by which position, and enumerates sets. -/
structure Indexed (O : Optimizer) : Prop where
  touched : ∀ p i, i ∈ (O.stateToTriad.get? p).getD [] ↔ ∃ x, O.triads[i]? = some x ∧ Touches O.layout x.1 p
  enum : ∀ l, (O.enum l).Perm l

theorem init_indexed {bm : ButtonMap} {ts : List (Triad × Rat)} {L : KeyboardLayout} {pins : List (Nat × Option Button)}
    {env : CarpalxEnv} {enum : List Nat → List Nat} (he : ∀ l, (enum l).Perm l) {O : Optimizer} {s : OptState}
    (h : Optimizer.init bm ts L pins env enum = .ok (O, s)) :
    Indexed O ∧ O.triads = ts ∧ O.layout = L ∧ O.pins = pins ∧ O.allButtons = bm.map Prod.fst ∧
      s = ⟨⟨env, 0, 0⟩, bm⟩ := by
  simp only [Optimizer.init, bind_ok_iff, Except.ok.injEq, Prod.mk.injEq] at h
  obtain ⟨d, h1, rfl, rfl⟩ := h
  refine ⟨⟨fun p i => ?_, he⟩, rfl, rfl, rfl, rfl, rfl⟩
  have h2 := noteTriads_ok h1 p i
  simp only [zero_add] at h2
  have h3 : (Dict.get? ([] : Dict Pos (List Nat)) p).getD [] = [] := rfl
  rw [h3] at h2
  simp only [List.not_mem_nil, false_or] at h2
  change i ∈ (d.get? p).getD [] ↔ ∃ x, ts[i]? = some x ∧ Touches L x.1 p
  rw [h2]
  constructor
  · rintro ⟨k, x, h4, rfl, h5⟩; exact ⟨x, h4, h5⟩
  · rintro ⟨x, h4, h5⟩; exact ⟨i, x, h4, rfl, h5⟩

theorem mem_affected {O : Optimizer} (hO : Indexed O) {a b : Pos} {i : Nat} :
    i ∈ O.affected a b ↔ ∃ x, O.triads[i]? = some x ∧ (Touches O.layout x.1 a ∨ Touches O.layout x.1 b) := by
  unfold affected
  rw [(hO.enum _).mem_iff, List.mem_dedup, List.mem_append, hO.touched, hO.touched]
  constructor
  · rintro (⟨x, h1, h2⟩ | ⟨x, h1, h2⟩)
    · exact ⟨x, h1, .inl h2⟩
    · exact ⟨x, h1, .inr h2⟩
  · rintro ⟨x, h1, h2 | h2⟩
    · exact .inl ⟨x, h1, h2⟩
    · exact .inr ⟨x, h1, h2⟩

theorem nodup_affected {O : Optimizer} (hO : Indexed O) (a b : Pos) : (O.affected a b).Nodup :=
  (hO.enum _).nodup_iff.2 (List.nodup_dedup _)

theorem removeAll_ok {O : Optimizer} {bm : ButtonMap} {is : List Nat} {r r' : Rater}
    (h : O.removeAll bm is r = .ok r') : (∀ i ∈ is, ∃ x, O.triads[i]? = some x ∧ Ok r.env O.layout bm x.1) ∧
      r' = ⟨r.env, r.absEffort - (is.map fun i => (O.triads[i]?.map fun x => x.2 * val r.env O.layout bm x.1).getD 0).sum,
        r.N - (is.map fun i => (O.triads[i]?.map fun x => x.2).getD 0).sum⟩ := by
  induction is generalizing r with
  | nil =>
    simp only [removeAll, Except.ok.injEq] at h
    subst h; simp
  | cons i is ih =>
    simp only [removeAll, bind_ok_iff, Rater.remove, Except.ok.injEq, listIndex_ok] at h
    obtain ⟨x, h0, t', h1, r1, ⟨e, h2, rfl⟩, h3⟩ := h
    obtain ⟨h4, rfl⟩ := ih h3
    have hm := movedEffort_ok.2 ⟨t', h1, h2⟩
    refine ⟨?_, ?_⟩
    · intro j hj
      rcases List.mem_cons.1 hj with rfl | hj
      · exact ⟨x, h0, e, hm⟩
      · exact h4 j hj
    · simp only [List.map_cons, List.sum_cons, h0, Option.map_some, Option.getD_some, val_of_ok hm, sub_sub]

theorem addAll_ok {O : Optimizer} {bm : ButtonMap} {is : List Nat} {r r' : Rater}
    (h : O.addAll bm is r = .ok r') : (∀ i ∈ is, ∃ x, O.triads[i]? = some x ∧ Ok r.env O.layout bm x.1) ∧
      r' = ⟨r.env, r.absEffort + (is.map fun i => (O.triads[i]?.map fun x => x.2 * val r.env O.layout bm x.1).getD 0).sum,
        r.N + (is.map fun i => (O.triads[i]?.map fun x => x.2).getD 0).sum⟩ := by
  induction is generalizing r with
  | nil =>
    simp only [addAll, Except.ok.injEq] at h
    subst h; simp
  | cons i is ih =>
    simp only [addAll, bind_ok_iff, Rater.add, Except.ok.injEq, listIndex_ok] at h
    obtain ⟨x, h0, t', h1, r1, ⟨e, h2, rfl⟩, h3⟩ := h
    obtain ⟨h4, rfl⟩ := ih h3
    have hm := movedEffort_ok.2 ⟨t', h1, h2⟩
    refine ⟨?_, ?_⟩
    · intro j hj
      rcases List.mem_cons.1 hj with rfl | hj
      · exact ⟨x, h0, e, hm⟩
      · exact h4 j hj
    · simp only [List.map_cons, List.sum_cons, h0, Option.map_some, Option.getD_some, val_of_ok hm, add_assoc]

/-- A triad that is not touched keeps its effort. -/
theorem movedEffort_untouched {env : CarpalxEnv} {L : KeyboardLayout} {bm bm' : ButtonMap} {a b : Pos} {t : Triad}
    (hs : swap bm a b = .ok bm') (ha : ¬ Touches L t a) (hb : ¬ Touches L t b) :
    movedEffort env L bm' t = movedEffort env L bm t := by
  have hc : ∀ c, combPos L c ≠ .ok a → combPos L c ≠ .ok b → mapButton L bm' c = mapButton L bm c := by
    intro c h1 h2
    unfold mapButton
    cases hp : combPos L c with
    | error e => rfl
    | ok p =>
      have hpa : p ≠ a := by rintro rfl; exact h1 hp
      have hpb : p ≠ b := by rintro rfl; exact h2 hp
      simp only [bind, Except.bind, Dict.getItem, swap_get? hs, hpa, hpb, if_false]
  simp only [Touches, not_or] at ha hb
  unfold movedEffort mapTriad
  rw [hc _ ha.1 hb.1, hc _ ha.2.1 hb.2.1, hc _ ha.2.2 hb.2.2]

/-- A sum over a list as the sum over its indices. -/
theorem sum_indices {α : Type} (l : List α) (f : α → Rat) :
    (l.map f).sum = ∑ i ∈ Finset.range l.length, (l[i]?.map f).getD 0 := by
  induction l with
  | nil => simp
  | cons x l ih =>
    rw [List.map_cons, List.sum_cons, List.length_cons, Finset.sum_range_succ', ih]
    simp [add_comm]

theorem sum_split {α : Type} (l : List α) (is : List Nat) (hn : is.Nodup) (hl : ∀ i ∈ is, i < l.length) (f : α → Rat) :
    (l.map f).sum = (is.map fun i => (l[i]?.map f).getD 0).sum +
      ∑ i ∈ Finset.range l.length \ is.toFinset, (l[i]?.map f).getD 0 := by
  rw [sum_indices, ← List.sum_toFinset _ hn, add_comm, Finset.sum_sdiff]
  intro i hi
  simp only [List.mem_toFinset] at hi
  simpa using hl i hi

theorem exchange_exact {O : Optimizer} (hO : Indexed O) {s s' : OptState} {a b : Pos} {d : Rat} (hs : Exact O s)
    (h : O.exchange s a b = .ok (d, s')) : Exact O s' ∧ s'.carpalx.env = s.carpalx.env := by
  obtain ⟨r, h1, h2, h3, rfl⟩ := exchange_ok.1 h
  obtain ⟨h4, rfl⟩ := removeAll_ok h1
  obtain ⟨h5, h6⟩ := addAll_ok h3
  obtain ⟨e1, e2, e3⟩ := exact_iff.1 hs
  simp only at h5 h6
  have henv : s'.carpalx.env = s.carpalx.env := by rw [h6]
  refine ⟨exact_iff.2 ?_, henv⟩
  rw [henv]
  have hlt : ∀ i ∈ O.affected a b, i < O.triads.length := by
    intro i hi
    obtain ⟨x, hx, _⟩ := h4 i hi
    exact (List.getElem?_eq_some_iff.1 hx).1
  have hun : ∀ i, i ∉ O.affected a b → ∀ x, O.triads[i]? = some x →
      movedEffort s.carpalx.env O.layout s'.buttonMap x.1 = movedEffort s.carpalx.env O.layout s.buttonMap x.1 := by
    intro i hi x hx
    rw [mem_affected hO] at hi
    refine movedEffort_untouched h2 (fun ht => hi ⟨x, hx, .inl ht⟩) (fun ht => hi ⟨x, hx, .inr ht⟩)
  have hn := nodup_affected hO a b
  refine ⟨?_, ?_, ?_⟩
  · intro x hx
    obtain ⟨i, hi, rfl⟩ := List.mem_iff_getElem.1 hx
    by_cases hia : i ∈ O.affected a b
    · obtain ⟨y, hy, hok⟩ := h5 i hia
      rw [List.getElem?_eq_getElem hi] at hy
      simp only [Option.some.injEq] at hy
      rw [hy]; exact hok
    · unfold Ok
      rw [hun i hia _ (List.getElem?_eq_getElem hi)]
      exact e1 _ (List.getElem_mem hi)
  · rw [h6, e2]
    simp only
    rw [sum_split O.triads (O.affected a b) hn hlt (fun x => x.2 * val s.carpalx.env O.layout s.buttonMap x.1),
      sum_split O.triads (O.affected a b) hn hlt (fun x => x.2 * val s.carpalx.env O.layout s'.buttonMap x.1)]
    have : ∑ i ∈ Finset.range O.triads.length \ (O.affected a b).toFinset,
          (O.triads[i]?.map fun x => x.2 * val s.carpalx.env O.layout s'.buttonMap x.1).getD 0 =
        ∑ i ∈ Finset.range O.triads.length \ (O.affected a b).toFinset,
          (O.triads[i]?.map fun x => x.2 * val s.carpalx.env O.layout s.buttonMap x.1).getD 0 := by
      apply Finset.sum_congr rfl
      intro i hi
      simp only [Finset.mem_sdiff, List.mem_toFinset] at hi
      cases hx : O.triads[i]? with
      | none => rfl
      | some x =>
        simp only [Option.map_some, Option.getD_some, val, hun i hi.2 x hx]
    rw [this]
    ring
  · rw [h6, e3]
    simp only
    ring

theorem mutate_exact {O : Optimizer} (hO : Indexed O) {s s' : OptState} {ds ds' : List (Pos × Pos)} {d : Rat}
    (hs : Exact O s) (h : O.mutate s ds = .ok (d, s', ds')) :
    Exact O s' ∧ s'.carpalx.env = s.carpalx.env ∧ d = s'.carpalx.effort - s.carpalx.effort := by
  obtain ⟨a, b, _, h2⟩ := mutate_ok h
  obtain ⟨h3, h4⟩ := exchange_exact hO hs h2
  obtain ⟨_, _, _, _, h5⟩ := exchange_ok.1 h2
  exact ⟨h3, h4, h5⟩

theorem run_ok {O : Optimizer} {steps : Nat} {s : OptState} {ds ds' : List (Pos × Pos)} {x : Anneal OptState} :
    O.run steps s ds = .ok (x, ds') ↔ ∃ s0, O.resetEnergy s = .ok s0 ∧
      Anneal.loop (Anneal.acceptable steps) O.mutate (Anneal.start s0, ds) steps = .ok (x, ds') := by
  unfold Optimizer.run Anneal.run
  cases h : O.resetEnergy s with
  | error e => simp
  | ok s0 => simp

theorem run_energy {O : Optimizer} (hO : Indexed O) {s0 : OptState} (h0 : Exact O s0) {accept : Nat → Rat → Bool}
    {n : Nat} {ds ds' : List (Pos × Pos)} {x : Anneal OptState}
    (h : Anneal.loop accept O.mutate (Anneal.start s0, ds) n = .ok (x, ds')) :
    (Exact O x.state ∧ x.state.carpalx.env = s0.carpalx.env) ∧
      x.energy = x.state.carpalx.effort - s0.carpalx.effort ∧
      (Exact O x.best.1 ∧ x.best.1.carpalx.env = s0.carpalx.env) ∧
      x.best.2 = x.best.1.carpalx.effort - s0.carpalx.effort ∧ x.best.2 ≤ x.energy ∧ x.best.2 ≤ 0 := by
  refine loop_inv (fun s => Exact O s ∧ s.carpalx.env = s0.carpalx.env) (fun s => s.carpalx.effort) ?_ ⟨h0, rfl⟩ ds n x ds' h
  rintro s r d s' r' ⟨hs, he⟩ hm
  obtain ⟨h1, h2, h3⟩ := mutate_exact hO hs hm
  exact ⟨⟨h1, by rw [h2, he]⟩, h3⟩

/-- The effort of an exact state is the effort of the changed layout. -/
theorem effortOf_exact {O : Optimizer} {name : String} {layers : List Layer} {kb : PhysicalKeyboard}
    (hu : UnambiguousModifiers layers) (hL : O.layout = KeyboardLayout.mk' name layers kb) {s : OptState}
    (hs : Exact O s) : EffortOf s.carpalx.env layers s.buttonMap O.triads s.carpalx.effort := by
  obtain ⟨h1, h2, h3⟩ := exact_iff.1 hs
  refine ⟨O.triads.map fun x => val s.carpalx.env O.layout s.buttonMap x.1, ?_, ?_⟩
  · rw [List.forall₂_map_right_iff, List.forall₂_same]
    intro x hx
    obtain ⟨e, he⟩ := h1 x hx
    obtain ⟨t', h4, h5⟩ := movedEffort_ok.1 he
    rw [hL] at h4
    exact ⟨t', (mapTriad_iff hu).1 h4, by rw [val_of_ok he]; exact h5⟩
  · have hz : List.zipWith (fun (x : Triad × Rat) e => x.2 * e) O.triads
        (O.triads.map fun x => val s.carpalx.env O.layout s.buttonMap x.1) =
        O.triads.map fun x => x.2 * val s.carpalx.env O.layout s.buttonMap x.1 := by
      rw [List.zipWith_map_right, List.zipWith_self]
    rw [hz, ← h2, ← h3]
    unfold Rater.effort
    split_ifs with h
    · rw [h, div_zero]
    · rfl

theorem effortOf_unique {env : CarpalxEnv} {layers : List Layer} (hu : UnambiguousModifiers layers) {bm : ButtonMap}
    {ts : List (Triad × Rat)} {v w : Rat} (hv : EffortOf env layers bm ts v) (hw : EffortOf env layers bm ts w) : v = w := by
  obtain ⟨es, h1, rfl⟩ := hv
  obtain ⟨fs, h2, rfl⟩ := hw
  have : es = fs := by
    induction h1 generalizing fs with
    | nil => cases h2; rfl
    | cons h _ ih =>
      cases h2 with
      | cons h' h2 =>
        obtain ⟨t, ht, he⟩ := h
        obtain ⟨t', ht', he'⟩ := h'
        have := (mapTriad_iff (name := "") (kb := ⟨"", "", [], []⟩) hu).2 ht
        rw [(mapTriad_iff hu).2 ht'] at this
        simp only [Except.ok.injEq] at this
        subst this
        rw [he] at he'
        simp only [Except.ok.injEq] at he'
        rw [he', ih _ h2]
  rw [this]

end Lulua
