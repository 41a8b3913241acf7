import Verif.Model.HandsText
import Verif.Proofs.Carpalx
import Verif.Props.Hands

/-! # C140: how fingers and hands are shown -/

namespace Lulua.Props
open Lulua Spec

/-- **C140** (text of a finger): the number of the finger and the position of the hand it was added to last; `AttributeError` if there is
none. -/
theorem C140_finger_text (ops : List HandOp) (as : List (Nat × Nat)) (ha : Added ops as) (f : Nat) (k : Finger)
    (hf : (createdFingers ops)[f]? = some k) :
    (lastHandOf as f = none ∧ (ops.foldl HandOp.run ⟨[], []⟩).fingerRepr f = .error .attributeError) ∨
    ∃ h p, lastHandOf as f = some h ∧ (createdHands ops)[h]? = some p ∧
      (ops.foldl HandOp.run ⟨[], []⟩).fingerRepr f = .ok ("Finger(" ++ k.pyName ++ ") # " ++ p.pyName) := by
  have i := handsAre ha
  have h1 := C140_hand ops as ha f k hf
  cases hl : lastHandOf as f with
  | none =>
    left
    rw [hl] at h1
    simp only [HandHeap.fingerRepr, h1, true_and]
  | some h =>
    right
    rw [hl] at h1
    have hm : (h, f) ∈ as := by
      have := List.mem_of_getLast? hl
      obtain ⟨a, ha', rfl⟩ := List.mem_map.1 this
      rw [List.mem_filter] at ha'
      obtain ⟨x, y⟩ := a
      have : y = f := by simpa using ha'.2
      exact this ▸ ha'.1
    have hlt := (i.exist _ hm).1
    obtain ⟨y, hy⟩ : ∃ y, (ops.foldl HandOp.run ⟨[], []⟩).hands[h]? = some y := by
      have l1 : (ops.foldl HandOp.run ⟨[], []⟩).hands.length = (createdHands ops).length := by rw [← i.positions, List.length_map]
      exact ⟨_, List.getElem?_eq_getElem (by dsimp only at hlt; omega)⟩
    refine ⟨h, y.position, rfl, ?_, ?_⟩
    · rw [← i.positions, List.getElem?_map, hy]; rfl
    · simp only [HandHeap.fingerRepr, h1, hy]

/-- A finger has a text exactly if it was added to a hand. -/
theorem C140_text_exactly (ops : List HandOp) (as : List (Nat × Nat)) (ha : Added ops as) (f : Nat) (k : Finger)
    (hf : (createdFingers ops)[f]? = some k) :
    (∃ t, (ops.foldl HandOp.run ⟨[], []⟩).fingerRepr f = .ok t) ↔ ∃ h, (h, f) ∈ as := by
  have key : lastHandOf as f = none ↔ ¬ ∃ h, (h, f) ∈ as := by
    unfold lastHandOf
    rw [List.getLast?_eq_none_iff, List.map_eq_nil_iff, List.filter_eq_nil_iff]
    constructor
    · rintro h ⟨x, hx⟩
      exact h _ hx (by simp)
    · rintro h ⟨x, y⟩ hx hy
      have : y = f := by simpa using hy
      exact h ⟨x, this ▸ hx⟩
  rcases C140_finger_text ops as ha f k hf with ⟨h1, h2⟩ | ⟨h, p, h1, _, h2⟩
  · rw [h2]
    exact ⟨fun ⟨t, ht⟩ => by simp at ht, fun h => absurd h (key.1 h1)⟩
  · refine ⟨fun _ => ?_, fun _ => ⟨_, h2⟩⟩
    by_contra hn
    rw [key.2 hn] at h1
    simp at h1

/-- A user expects that every object can be shown. False for a finger that was not yet added to a hand. -/
theorem C140_text_false : ∃ ops as, Added ops as ∧ (createdFingers ops)[0]? = some Finger.index ∧
    (ops.foldl HandOp.run ⟨[], []⟩).fingerRepr 0 = .error .attributeError :=
  ⟨[.finger .index], [], Added.start.finger .index, rfl, rfl⟩

/-- Hands always can: all their fingers have been added to a hand. -/
theorem C140_hand_text (ops : List HandOp) (as : List (Nat × Nat)) (ha : Added ops as) (h : Nat) (p : Direction)
    (hh : (createdHands ops)[h]? = some p) :
    ∃ ts, List.Forall₂ (fun f t => (ops.foldl HandOp.run ⟨[], []⟩).fingerRepr f = .ok t) (fingersOf as h) ts ∧
      (ops.foldl HandOp.run ⟨[], []⟩).handRepr h = .ok ("Hand(" ++ p.pyName ++ ", [" ++ ", ".intercalate ts ++ "])") := by
  have i := handsAre ha
  rw [← i.positions, List.getElem?_map] at hh
  obtain ⟨y, hy, rfl⟩ := Option.map_eq_some_iff.1 hh
  have hfs : y.fingers = fingersOf as h := i.fingers h y hy
  have hall : ∀ f ∈ fingersOf as h, ∃ t, (ops.foldl HandOp.run ⟨[], []⟩).fingerRepr f = .ok t := by
    intro f hf
    obtain ⟨a, ha', rfl⟩ := List.mem_map.1 hf
    have hm := (List.mem_filter.1 ha').1
    have hlt := (i.exist _ hm).2
    exact (C140_text_exactly ops as ha a.2 _ (List.getElem?_eq_getElem hlt)).2 ⟨a.1, hm⟩
  obtain ⟨ts, hts⟩ : ∃ ts, List.Forall₂ (fun f t => (ops.foldl HandOp.run ⟨[], []⟩).fingerRepr f = .ok t) (fingersOf as h) ts := by
    generalize fingersOf as h = l at hall
    induction l with
    | nil => exact ⟨[], .nil⟩
    | cons f l ih =>
      obtain ⟨t, ht⟩ := hall f (List.mem_cons_self ..)
      obtain ⟨ts, hts⟩ := ih fun g hg => hall g (List.mem_cons_of_mem _ hg)
      exact ⟨t :: ts, .cons ht hts⟩
  refine ⟨ts, hts, ?_⟩
  have hm : (fingersOf as h).mapM (ops.foldl HandOp.run ⟨[], []⟩).fingerRepr = .ok ts := (mapM_ok_iff _ _ _).2 hts
  simp only [HandHeap.handRepr, hy, hfs, hm, bind, Except.bind]

/-- The left hand of a `Writer`. -/
example : HandHeap.writerHands.handRepr 0 =
    .ok "Hand(LEFT, [Finger(LITTLE) # LEFT, Finger(RING) # LEFT, Finger(MIDDLE) # LEFT, Finger(INDEX) # LEFT, Finger(THUMB) # LEFT])" := by
  decide +kernel

end Lulua.Props
