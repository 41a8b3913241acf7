import Verif.Spec.Hands

/-!
# C140: Fingers and hands
-/

namespace Lulua.Props
open Lulua Spec

/-- The objects are those created, with what was added. -/
structure HandsAre (s : HandHeap) (fs : List Finger) (hs : List Direction) (as : List (Nat × Nat)) : Prop where
  numbers : s.fingers.map (·.number) = fs
  positions : s.hands.map (·.position) = hs
  fingers : ∀ h x, s.hands[h]? = some x → x.fingers = fingersOf as h
  hand : ∀ f y, s.fingers[f]? = some y → y.hand = lastHandOf as f
  exist : ∀ a ∈ as, a.1 < hs.length ∧ a.2 < fs.length

theorem fingersOf_append (as : List (Nat × Nat)) (a : Nat × Nat) (h : Nat) :
    fingersOf (as ++ [a]) h = fingersOf as h ++ if a.1 = h then [a.2] else [] := by
  unfold fingersOf
  rw [List.filter_append, List.map_append, List.filter_singleton]
  by_cases e : a.1 = h <;> simp [e]

theorem lastHandOf_append (as : List (Nat × Nat)) (a : Nat × Nat) (f : Nat) :
    lastHandOf (as ++ [a]) f = if a.2 = f then some a.1 else lastHandOf as f := by
  unfold lastHandOf
  rw [List.filter_append, List.map_append, List.filter_singleton]
  by_cases e : a.2 = f <;> simp [e]

theorem handsAre_add {s : HandHeap} {fs : List Finger} {hs : List Direction} {as : List (Nat × Nat)} (i : HandsAre s fs hs as) {h f : Nat}
    (hh : h < hs.length) (hf : f < fs.length) : HandsAre (s.addFinger h f) fs hs (as ++ [(h, f)]) := by
  have l1 : s.hands.length = hs.length := by rw [← i.positions, List.length_map]
  have l2 : s.fingers.length = fs.length := by rw [← i.numbers, List.length_map]
  rw [HandHeap.addFinger, if_pos ⟨by omega, by omega⟩]
  refine ⟨?_, ?_, fun k x hx => ?_, fun k y hy => ?_, fun a ha => ?_⟩
  · rw [← i.numbers]
    apply List.ext_getElem?
    intro n
    simp only [List.getElem?_map, List.getElem?_modify]
    cases s.fingers[n]? with
    | none => rfl
    | some y => by_cases e : f = n <;> simp [e]
  · rw [← i.positions]
    apply List.ext_getElem?
    intro n
    simp only [List.getElem?_map, List.getElem?_modify]
    cases s.hands[n]? with
    | none => rfl
    | some y => by_cases e : h = n <;> simp [e]
  · rw [fingersOf_append]
    simp only [List.getElem?_modify] at hx
    cases hk : s.hands[k]? with
    | none => rw [hk] at hx; simp at hx
    | some x' =>
      rw [hk] at hx
      have := i.fingers k x' hk
      by_cases e : h = k
      · simp only [e, if_true, Option.map_eq_map, Option.map_some, Option.some.injEq] at hx
        subst hx
        simp [e, this]
      · simp only [e, if_false, Option.map_eq_map, Option.map_some, Option.some.injEq] at hx
        subst hx
        simp [e, this]
  · rw [lastHandOf_append]
    simp only [List.getElem?_modify] at hy
    cases hk : s.fingers[k]? with
    | none => rw [hk] at hy; simp at hy
    | some y' =>
      rw [hk] at hy
      have := i.hand k y' hk
      by_cases e : f = k
      · simp only [e, if_true, Option.map_eq_map, Option.map_some, Option.some.injEq] at hy
        subst hy
        simp [e]
      · simp only [e, if_false, Option.map_eq_map, Option.map_some, Option.some.injEq] at hy
        subst hy
        simp [e, this]
  · rcases List.mem_append.1 ha with ha | ha
    · exact i.exist a ha
    · rw [List.mem_singleton.1 ha]
      exact ⟨hh, hf⟩

theorem handsAre_newHand {s : HandHeap} {fs : List Finger} {hs : List Direction} {as : List (Nat × Nat)} (i : HandsAre s fs hs as)
    (p : Direction) (ns : List Nat) (hn : ∀ f ∈ ns, f < fs.length) :
    HandsAre (s.newHand p ns) fs (hs ++ [p]) (as ++ ns.map fun f => (hs.length, f)) := by
  have l1 : s.hands.length = hs.length := by rw [← i.positions, List.length_map]
  have base : HandsAre { s with hands := s.hands ++ [⟨p, []⟩] } fs (hs ++ [p]) as := by
    refine ⟨i.numbers, by simp [i.positions], fun h x hx => ?_, i.hand, fun a ha => ⟨?_, (i.exist a ha).2⟩⟩
    · dsimp only at hx
      rw [List.getElem?_append] at hx
      split at hx
      · exact i.fingers h x hx
      · rename_i hlt
        obtain ⟨rfl, e⟩ : x = ⟨p, []⟩ ∧ h = hs.length := by
          rw [List.getElem?_singleton] at hx
          split at hx
          · exact ⟨(Option.some.inj hx).symm, by omega⟩
          · cases hx
        subst e
        unfold fingersOf
        rw [List.filter_eq_nil_iff.2 fun a ha => by
          have := (i.exist a ha).1
          simp only [decide_eq_true_eq]
          omega]
        rfl
    · have := (i.exist a ha).1
      rw [List.length_append]
      omega
  unfold HandHeap.newHand
  rw [l1]
  generalize ({ s with hands := s.hands ++ [⟨p, []⟩] } : HandHeap) = t at base
  clear i l1
  induction ns generalizing t as with
  | nil => simpa using base
  | cons n ns ih =>
    have := ih (fun f hf => hn f (List.mem_cons_of_mem _ hf)) _
      (handsAre_add base (h := hs.length) (f := n) (by simp) (hn n (by simp)))
    rw [List.foldl_cons, List.map_cons]
    simpa using this

theorem handsAre {ops : List HandOp} {as : List (Nat × Nat)} (h : Added ops as) :
    HandsAre (ops.foldl HandOp.run ⟨[], []⟩) (createdFingers ops) (createdHands ops) as := by
  induction h with
  | start => exact ⟨rfl, rfl, by simp, by simp, by simp⟩
  | @finger ops as k _ i =>
    rw [List.foldl_append]
    have e1 : createdFingers (ops ++ [.finger k]) = createdFingers ops ++ [k] := by simp [createdFingers]
    have e2 : createdHands (ops ++ [.finger k]) = createdHands ops := by simp [createdHands]
    rw [e1, e2]
    refine ⟨by simp [HandOp.run, HandHeap.newFinger, i.numbers], i.positions, i.fingers, fun f y hy => ?_, fun a ha => ⟨(i.exist a ha).1, ?_⟩⟩
    · simp only [List.foldl_cons, List.foldl_nil, HandOp.run, HandHeap.newFinger] at hy
      rw [List.getElem?_append] at hy
      split at hy
      · exact i.hand f y hy
      · rename_i hlt
        have l2 : (ops.foldl HandOp.run ⟨[], []⟩).fingers.length = (createdFingers ops).length := by rw [← i.numbers, List.length_map]
        rw [List.getElem?_singleton] at hy
        split at hy
        · cases hy
          unfold lastHandOf
          rw [List.filter_eq_nil_iff.2 fun a ha => by
            have := (i.exist a ha).2
            simp only [decide_eq_true_eq]
            omega]
          rfl
        · cases hy
    · have := (i.exist a ha).2
      rw [List.length_append]
      omega
  | @hand ops as p fs _ hn i =>
    rw [List.foldl_append]
    have e1 : createdFingers (ops ++ [.hand p fs]) = createdFingers ops := by simp [createdFingers]
    have e2 : createdHands (ops ++ [.hand p fs]) = createdHands ops ++ [p] := by simp [createdHands]
    rw [e1, e2]
    exact handsAre_newHand i p fs hn
  | @add ops as h f _ hh hf i =>
    rw [List.foldl_append]
    have e1 : createdFingers (ops ++ [.add h f]) = createdFingers ops := by simp [createdFingers]
    have e2 : createdHands (ops ++ [.add h f]) = createdHands ops := by simp [createdHands]
    rw [e1, e2]
    exact handsAre_add i hh hf

theorem getitem_are {s : HandHeap} {fs : List Finger} {hs : List Direction} {as : List (Nat × Nat)} (i : HandsAre s fs hs as) {h : Nat}
    (hh : h < hs.length) (k : Finger) : s.getitem h k =
      match (fingersOf as h).find? fun f => fs[f]? = some k with
      | none => .error .stopIteration
      | some f => .ok f := by
  have l1 : h < s.hands.length := by
    rw [← i.positions, List.length_map] at hh
    exact hh
  unfold HandHeap.getitem
  rw [List.getElem?_eq_getElem l1]
  dsimp only
  rw [i.fingers h _ (List.getElem?_eq_getElem l1)]
  have : (fun f : Nat => decide ((s.fingers[f]?.map (·.number)) = some k)) = fun f => decide (fs[f]? = some k) := by
    funext f
    rw [← i.numbers, List.getElem?_map]
  rw [this]
  rfl

/-- **C140** (`hand[k]`): after anything done with fingers and hands, the first finger with that number that was added to the hand, and
`StopIteration` exactly if there is none. -/
theorem C140_index (ops : List HandOp) (as : List (Nat × Nat)) (ha : Added ops as) (h : Nat) (hh : h < (createdHands ops).length) (k : Finger) :
    (∀ f, (ops.foldl HandOp.run ⟨[], []⟩).getitem h k = .ok f ↔ ∃ before after, fingersOf as h = before ++ f :: after ∧
      (createdFingers ops)[f]? = some k ∧ ∀ g ∈ before, (createdFingers ops)[g]? ≠ some k) ∧
    ((ops.foldl HandOp.run ⟨[], []⟩).getitem h k = .error .stopIteration ↔ ∀ f ∈ fingersOf as h, (createdFingers ops)[f]? ≠ some k) := by
  rw [getitem_are (handsAre ha) hh]
  cases e : (fingersOf as h).find? fun f => (createdFingers ops)[f]? = some k with
  | none =>
    have hn : ∀ f ∈ fingersOf as h, (createdFingers ops)[f]? ≠ some k := by
      simpa [List.find?_eq_none] using e
    refine ⟨fun f => ⟨fun h => (by cases h), ?_⟩, ⟨fun _ => hn, fun _ => rfl⟩⟩
    rintro ⟨b, a, h1, h2, -⟩
    exact absurd h2 (hn f (by rw [h1]; simp))
  | some g =>
    obtain ⟨h1, b, a, h2, h3⟩ := List.find?_eq_some_iff_append.1 e
    simp only [decide_eq_true_eq] at h1
    have h3' : ∀ x ∈ b, (createdFingers ops)[x]? ≠ some k := by
      intro x hx
      simpa using h3 x hx
    refine ⟨fun f => ⟨fun h => ?_, ?_⟩, ⟨fun h => (by cases h), fun h => absurd h1 (h g (by rw [h2]; simp))⟩⟩
    · obtain rfl : g = f := Except.ok.inj h
      exact ⟨b, a, h2, h1, h3'⟩
    · rintro ⟨b', a', g2, g1, g3⟩
      have : ((fingersOf as h).find? fun f => decide ((createdFingers ops)[f]? = some k)) = some f :=
        List.find?_eq_some_iff_append.2 ⟨by simpa using g1, b', a', g2, fun x hx => by simpa using g3 x hx⟩
      rw [e] at this
      exact congrArg _ (Option.some.inj this)

/-- **C140** (`finger.hand`): the hand it was added to last, and none if there is no such. -/
theorem C140_hand (ops : List HandOp) (as : List (Nat × Nat)) (ha : Added ops as) (f : Nat) (k : Finger)
    (hf : (createdFingers ops)[f]? = some k) :
    (ops.foldl HandOp.run ⟨[], []⟩).fingers[f]? = some ⟨k, lastHandOf as f⟩ := by
  have i := handsAre ha
  rw [← i.numbers, List.getElem?_map] at hf
  cases e : (ops.foldl HandOp.run ⟨[], []⟩).fingers[f]? with
  | none => rw [e] at hf; cases hf
  | some y =>
    rw [e] at hf
    rw [← i.hand f y e]
    obtain ⟨n, o⟩ := y
    simp only [Option.map_some, Option.some.injEq] at hf
    rw [hf]

/-- **C140** (partial: if no finger is added twice): `hand[k].hand` is the hand, and `hand[k].number` is `k`. -/
theorem C140_back_partial (ops : List HandOp) (as : List (Nat × Nat)) (ha : Added ops as) (hd : (as.map Prod.snd).Nodup) (h : Nat)
    (hh : h < (createdHands ops).length) (k : Finger) (f : Nat) (hf : (ops.foldl HandOp.run ⟨[], []⟩).getitem h k = .ok f) :
    (ops.foldl HandOp.run ⟨[], []⟩).fingers[f]? = some ⟨k, some h⟩ := by
  obtain ⟨b, a, h1, h2, _⟩ := ((C140_index ops as ha h hh k).1 f).1 hf
  rw [C140_hand ops as ha f k h2]
  have hm : (h, f) ∈ as := by
    have : f ∈ fingersOf as h := by rw [h1]; simp
    simp only [fingersOf, List.mem_map, List.mem_filter, decide_eq_true_eq] at this
    obtain ⟨⟨x, y⟩, ⟨m, rfl⟩, rfl⟩ := this
    exact m
  have hone : as.filter (fun a => a.2 = f) = [(h, f)] := by
    clear ha hf h1
    induction as with
    | nil => cases hm
    | cons x as ih =>
      rw [List.map_cons, List.nodup_cons] at hd
      rcases List.mem_cons.1 hm with rfl | hm
      · rw [List.filter_cons_of_pos (by simp), List.filter_eq_nil_iff.2]
        intro y hy e
        simp only [decide_eq_true_eq] at e
        exact hd.1 (List.mem_map.2 ⟨y, hy, e⟩)
      · rw [List.filter_cons_of_neg, ih hd.2 hm]
        simp only [decide_eq_true_eq]
        intro e
        exact hd.1 (List.mem_map.2 ⟨_, hm, e.symm⟩)
  rw [lastHandOf, hone]
  rfl

/-- **C140** is false in general: a finger that is added to a second hand stays with the first one but says it is of the second. -/
theorem C140_false : ∃ ops as, Added ops as ∧ ∃ f k, (ops.foldl HandOp.run ⟨[], []⟩).getitem 0 k = .ok f ∧
    (ops.foldl HandOp.run ⟨[], []⟩).fingers[f]? = some ⟨k, some 1⟩ :=
  ⟨[.finger .ring, .hand .left [0], .hand .right [0]], _,
    ((Added.start.finger .ring).hand .left [0] (by simp [createdFingers])).hand .right [0] (by simp [createdFingers]), 0, .ring, by decide,
    by decide⟩

/-- **C140** (`Writer`): each hand has each of the five fingers, which know their hand, and all ten are different objects. -/
theorem C140_writer : ∃ finger : Direction → Finger → Nat, (∀ d k,
      HandHeap.writerHands.getitem (HandHeap.writerHand d) k = .ok (finger d k) ∧
      HandHeap.writerHands.fingers[finger d k]? = some ⟨k, some (HandHeap.writerHand d)⟩ ∧
      (HandHeap.writerHands.hands[HandHeap.writerHand d]?).map (·.position) = some d) ∧
    ∀ d d' k k', finger d k = finger d' k' → d = d' ∧ k = k' := by
  refine ⟨fun d k => match d with | .left => k.toNat - 1 | .right => 10 - k.toNat, fun d k => ?_, fun d d' k k' => ?_⟩
  · cases d <;> cases k <;> decide
  · cases d <;> cases d' <;> cases k <;> cases k' <;> decide

/-- Two fingers, two hands, and a finger added later. -/
example : Added [.finger .ring, .finger .thumb, .hand .left [0], .hand .right [], .add 1 1] [(0, 0), (1, 1)] ∧
    ([.finger .ring, .finger .thumb, .hand .left [0], .hand .right [], .add 1 1].foldl HandOp.run ⟨[], []⟩).getitem 1 .thumb = .ok 1 :=
  ⟨(((((Added.start.finger .ring).finger .thumb).hand .left [0] (by simp [createdFingers])).hand .right [] (by simp)).add 1 1
    (by simp [createdHands]) (by simp [createdFingers])), by decide⟩

end Lulua.Props
