import Mathlib.Data.List.Count
import Mathlib.Data.List.Sublists
import Verif.Proofs.Keyboard
import Verif.Props.Formats

/-!
# C54: TEI.2 documents of any shape
-/

namespace Lulua.Spec
open Lulua

/-- The names of the elements around a position, outermost first. -/
def tagsAbove : List XNode → List Nat → List Text
  | _, [] => []
  | _, [_] => []
  | ns, i :: p =>
    match ns[i]? with
    | some (.element m cs) => m :: tagsAbove cs p
    | _ => []

/-- In how many ways names can be found among others, in their order. -/
def ways (names among : List Text) : Nat := (List.sublists' among).count names

end Lulua.Spec

namespace Lulua
open Spec

theorem ways_nil (l : List Text) : ways [] l = 1 := by
  induction l with
  | nil => simp [ways]
  | cons a l ih =>
    unfold ways at ih ⊢
    rw [List.sublists'_cons, List.count_append, ih]
    simp [List.count_eq_zero]

theorem ways_cons_nil (t : Text) (ts : List Text) : ways (t :: ts) [] = 0 := by
  simp [ways]

theorem ways_cons (t m : Text) (ts l : List Text) :
    ways (t :: ts) (m :: l) = (if m = t then ways ts l else 0) + ways (t :: ts) l := by
  unfold ways
  rw [List.sublists'_cons, List.count_append, Nat.add_comm]
  congr 1
  by_cases h : m = t
  · subst h
    rw [if_pos rfl, List.count_map_of_injective _ _ List.cons_injective]
  · rw [if_neg h, List.count_eq_zero]
    intro hm
    obtain ⟨x, _, hx⟩ := List.mem_map.1 hm
    exact h (List.cons.inj hx).1

/-- What nested calls of `getElementsByTagName` give: the children of the elements found. -/
def nested : List Text → List XNode → List (List XNode)
  | [], ns => [ns]
  | t :: ts, ns => (byTagAll t ns).flatMap (nested ts)

mutual
/-- Positions of what `nested` gives, relative to a node. -/
def chainNode (t : Text) (ts : List Text) : XNode → List (List Nat)
  | .text _ => []
  | .other => []
  | .element m cs =>
    (if m = t then match ts with
      | [] => [[]]
      | t' :: ts' => chainAll t' ts' 0 cs
    else []) ++ chainAll t ts 0 cs
def chainAll (t : Text) (ts : List Text) : Nat → List XNode → List (List Nat)
  | _, [] => []
  | i, n :: ns => (chainNode t ts n).map (i :: ·) ++ chainAll t ts (i + 1) ns
end

theorem chainNode_element (t : Text) (ts : List Text) (m : Text) (cs : List XNode) : chainNode t ts (.element m cs) =
    (if m = t then match ts with
      | [] => [[]]
      | t' :: ts' => chainAll t' ts' 0 cs
    else []) ++ chainAll t ts 0 cs := by
  cases ts <;> simp only [chainNode]

theorem nested_append (ts : List Text) (t : Text) (a b : List XNode) :
    nested (t :: ts) (a ++ b) = nested (t :: ts) a ++ nested (t :: ts) b := by
  have : byTagAll t (a ++ b) = byTagAll t a ++ byTagAll t b := by
    induction a with
    | nil => rfl
    | cons n ns ih => rw [List.cons_append, byTagAll, byTagAll, ih, List.append_assoc]
  simp only [nested, this, List.flatMap_append]

mutual
theorem chainNode_nested (t : Text) (ts : List Text) (n : XNode) :
    List.Forall₂ (fun q cs => below n q = some (.element ((t :: ts).getLast (by simp)) cs)) (chainNode t ts n)
      ((n.byTag t).flatMap (nested ts)) := by
  match n with
  | .text d => rw [chainNode, XNode.byTag]; exact .nil
  | .other => rw [chainNode, XNode.byTag]; exact .nil
  | .element m cs =>
    have hrest : List.Forall₂ (fun q cs' => below (.element m cs) q = some (.element ((t :: ts).getLast (by simp)) cs'))
        (chainAll t ts 0 cs) ((byTagAll t cs).flatMap (nested ts)) := by
      refine (chainAll_nested t ts 0 cs).imp ?_
      rintro q cs' ⟨j, p, rfl, _, h⟩
      rw [below]
      simpa using h
    rw [chainNode_element, XNode.byTag]
    by_cases hm : m = t
    · rw [if_pos hm, if_pos hm, List.flatMap_cons]
      refine List.rel_append ?_ hrest
      match ts with
      | [] =>
        refine .cons ?_ .nil
        simp [below, hm]
      | t' :: ts' =>
        refine (chainAll_nested t' ts' 0 cs).imp ?_
        rintro q cs' ⟨j, p, rfl, _, h⟩
        rw [below]
        simpa using h
    · rw [if_neg hm, if_neg hm]
      exact hrest
theorem chainAll_nested (t : Text) (ts : List Text) (i : Nat) (ns : List XNode) :
    List.Forall₂ (fun q cs => ∃ j p, q = j :: p ∧ i ≤ j ∧
      nodeAt ns ((j - i) :: p) = some (.element ((t :: ts).getLast (by simp)) cs)) (chainAll t ts i ns) (nested (t :: ts) ns) := by
  match ns with
  | [] => rw [chainAll, nested, byTagAll]; exact .nil
  | n :: ns =>
    rw [chainAll, nested, byTagAll, List.flatMap_append]
    refine List.rel_append ?_ ?_
    · rw [List.forall₂_map_left_iff]
      refine (chainNode_nested t ts n).imp fun p cs h => ⟨i, p, rfl, le_refl i, ?_⟩
      rw [nodeAt_cons, Nat.sub_self]
      simpa using h
    · refine (chainAll_nested t ts (i + 1) ns).imp ?_
      rintro q cs ⟨j, p, rfl, hj, h⟩
      refine ⟨j, p, rfl, by omega, ?_⟩
      rw [nodeAt_cons] at h ⊢
      rw [show j - i = j - (i + 1) + 1 by omega, List.getElem?_cons_succ]
      exact h
end

/-- The names around a position relative to a node, which is one of them. -/
def tagsFrom : XNode → List Nat → List Text
  | .element m cs, i :: p => m :: tagsAbove cs (i :: p)
  | _, _ => []

theorem tagsAbove_cons (ns : List XNode) (i : Nat) (p : List Nat) :
    tagsAbove ns (i :: p) = match ns[i]? with | some n => tagsFrom n p | none => [] := by
  cases p with
  | nil =>
    rw [tagsAbove]
    cases ns[i]? with
    | none => rfl
    | some n => cases n <;> rfl
  | cons j p =>
    rw [tagsAbove]
    · cases ns[i]? with
      | none => rfl
      | some n => cases n <;> rfl
    · simp

/-- Is there an element of this name? -/
def isTag (t : Text) : Option XNode → Bool
  | some (.element m _) => m = t
  | _ => false

theorem isTag_iff (t : Text) (n : Option XNode) : isTag t n = true ↔ ∃ cs, n = some (.element t cs) := by
  unfold isTag
  split
  · simp
  · rename_i h
    simp only [Bool.false_eq_true, false_iff]
    rintro ⟨cs, hc⟩
    exact h _ _ hc

theorem count_map_cons (i j : Nat) (q : List Nat) (l : List (List Nat)) :
    (l.map (i :: ·)).count (j :: q) = if i = j then l.count q else 0 := by
  by_cases h : i = j
  · subst h
    rw [if_pos rfl, List.count_map_of_injective _ _ List.cons_injective]
  · rw [if_neg h, List.count_eq_zero]
    intro hm
    obtain ⟨x, _, hx⟩ := List.mem_map.1 hm
    exact h (List.cons.inj hx).1

mutual
theorem chainNode_count (init : List Text) (last : Text) (t : Text) (ts : List Text) (h : t :: ts = init ++ [last]) (n : XNode)
    (q : List Nat) :
    (chainNode t ts n).count q = if isTag last (below n q) then ways init (tagsFrom n q) else 0 := by
  match n with
  | .text d => rw [chainNode]; cases q <;> simp [below, isTag]
  | .other => rw [chainNode]; cases q <;> simp [below, isTag]
  | .element m cs =>
    rw [chainNode_element, List.count_append]
    cases q with
    | nil =>
      have h0 : ∀ t ts, (chainAll t ts 0 cs).count [] = 0 := fun t ts => by
        rw [List.count_eq_zero]
        intro hm
        obtain ⟨cs', _, j, p, hp, _⟩ := forall2_mem_left (chainAll_nested t ts 0 cs) hm
        simp at hp
      rw [h0]
      match init, h with
      | [], h =>
        simp only [List.nil_append, List.cons.injEq] at h
        obtain ⟨rfl, rfl⟩ := h
        by_cases hm : m = t
        · simp [hm, below, isTag, tagsFrom, ways_nil]
        · simp [hm, below, isTag]
      | t₀ :: init', h =>
        simp only [List.cons_append, List.cons.injEq] at h
        obtain ⟨rfl, rfl⟩ := h
        rw [tagsFrom, ways_cons_nil]
        · by_cases hm : m = t
          · rw [if_pos hm]
            cases init' with
            | nil => simp [h0]
            | cons a b => simp [h0]
          · simp [hm]
        · simp
    | cons j q =>
      rw [below, chainAll_count init last t ts h 0 cs (j :: q) j q rfl (Nat.zero_le j), tagsFrom]
      simp only [Nat.sub_zero]
      match init, h with
      | [], h =>
        simp only [List.nil_append, List.cons.injEq] at h
        obtain ⟨rfl, rfl⟩ := h
        simp only [ways_nil]
        split <;> simp
      | t₀ :: init', h =>
        simp only [List.cons_append, List.cons.injEq] at h
        obtain ⟨rfl, hts⟩ := h
        rw [ways_cons]
        by_cases hm : m = t
        · rw [if_pos hm, if_pos hm]
          match ts, hts with
          | [], hts => simp at hts
          | t' :: ts', hts =>
            simp only
            rw [chainAll_count init' last t' ts' hts 0 cs (j :: q) j q rfl (Nat.zero_le j)]
            simp only [Nat.sub_zero]
            split <;> simp
        · rw [if_neg hm, if_neg hm]
          simp
theorem chainAll_count (init : List Text) (last : Text) (t : Text) (ts : List Text) (h : t :: ts = init ++ [last]) (i : Nat)
    (ns : List XNode) (r : List Nat) (j : Nat) (q : List Nat) (hr : r = j :: q) (hij : i ≤ j) :
    (chainAll t ts i ns).count r =
      if isTag last (nodeAt ns ((j - i) :: q)) then ways init (tagsAbove ns ((j - i) :: q)) else 0 := by
  subst hr
  match ns with
  | [] => rw [chainAll, nodeAt_cons]; simp [isTag]
  | n :: ns =>
    rw [chainAll, List.count_append, count_map_cons]
    by_cases hj : i = j
    · subst hj
      rw [if_pos rfl, chainNode_count init last t ts h n q, nodeAt_cons, tagsAbove_cons, Nat.sub_self]
      have h0 : (chainAll t ts (i + 1) ns).count (i :: q) = 0 := by
        rw [List.count_eq_zero]
        intro hm
        obtain ⟨cs', _, j, p, hp, hj, _⟩ := forall2_mem_left (chainAll_nested t ts (i + 1) ns) hm
        simp only [List.cons.injEq] at hp
        omega
      simp [h0]
    · rw [if_neg hj, Nat.zero_add, chainAll_count init last t ts h (i + 1) ns (j :: q) j q rfl (by omega), nodeAt_cons, tagsAbove_cons,
        nodeAt_cons, tagsAbove_cons, show j - i = j - (i + 1) + 1 by omega, List.getElem?_cons_succ]
end

mutual
theorem chainNode_single (t : Text) (n : XNode) : chainNode t [] n = tagPaths t n := by
  match n with
  | .text d => rw [chainNode, tagPaths]
  | .other => rw [chainNode, tagPaths]
  | .element m cs => rw [chainNode_element, tagPaths, chainAll_single t 0 cs]
theorem chainAll_single (t : Text) (i : Nat) (ns : List XNode) : chainAll t [] i ns = tagPathsAll t i ns := by
  match ns with
  | [] => rw [chainAll, tagPathsAll]
  | n :: ns => rw [chainAll, tagPathsAll, chainNode_single t n, chainAll_single t (i + 1) ns]
end

/-- The positions of elements inside an element at a known position. -/
def inside (s : Text) (x : List Nat × List XNode) : List (List Nat) := (tagPathsAll s 0 x.2).map (x.1 ++ ·)

theorem inside_cons (s : Text) (i : Nat) (l : List (List Nat)) (l' : List (List XNode)) :
    (List.zip (l.map (i :: ·)) l').flatMap (inside s) = ((List.zip l l').flatMap (inside s)).map (i :: ·) := by
  induction l generalizing l' with
  | nil => simp
  | cons a l ih =>
    cases l' with
    | nil => simp
    | cons b l' => simp [ih l', inside, List.map_map]

mutual
theorem chainNode_snoc (s t : Text) (ts : List Text) (n : XNode) : chainNode t (ts ++ [s]) n =
    (List.zip (chainNode t ts n) ((n.byTag t).flatMap (nested ts))).flatMap (inside s) := by
  match n with
  | .text d => rw [chainNode, chainNode]; rfl
  | .other => rw [chainNode, chainNode]; rfl
  | .element m cs =>
    rw [chainNode_element, chainNode_element, XNode.byTag, chainAll_snoc s t ts 0 cs]
    by_cases hm : m = t
    · rw [if_pos hm, if_pos hm, if_pos hm, List.flatMap_cons]
      match ts with
      | [] =>
        simp only [List.nil_append, nested, List.singleton_append, List.zip_cons_cons, List.flatMap_cons]
        rw [chainAll_single]
        simp [inside]
      | t' :: ts' =>
        have hl := (chainAll_nested t' ts' 0 cs).length_eq
        simp only [List.cons_append]
        rw [List.zip_append hl, List.flatMap_append, chainAll_snoc s t' ts' 0 cs]
        rfl
    · rw [if_neg hm, if_neg hm, if_neg hm]
      rfl
theorem chainAll_snoc (s t : Text) (ts : List Text) (i : Nat) (ns : List XNode) : chainAll t (ts ++ [s]) i ns =
    (List.zip (chainAll t ts i ns) (nested (t :: ts) ns)).flatMap (inside s) := by
  match ns with
  | [] => rw [chainAll, chainAll]; rfl
  | n :: ns =>
    rw [chainAll, chainAll, nested, byTagAll, List.flatMap_append, List.zip_append, List.flatMap_append, inside_cons,
      chainNode_snoc s t ts n, chainAll_snoc s t ts (i + 1) ns]
    · rfl
    · rw [List.length_map]
      exact (chainNode_nested t ts n).length_eq
end

theorem nodeAt_append {cs : List XNode} {m : Text} (r : List Nat) : ∀ (q : List Nat) (ns : List XNode),
    nodeAt ns q = some (.element m cs) → r ≠ [] → nodeAt ns (q ++ r) = nodeAt cs r
  | [], ns, h, _ => by simp [nodeAt] at h
  | [i], ns, h, hr => by
    rw [nodeAt] at h
    obtain ⟨j, r, rfl⟩ := List.exists_cons_of_ne_nil hr
    rw [List.singleton_append, nodeAt_cons, h]
    rfl
  | i :: j :: q, ns, h, hr => by
    rw [nodeAt_cons] at h
    rw [List.cons_append, nodeAt_cons]
    cases hn : ns[i]? with
    | none => rw [hn] at h; cases h
    | some n =>
      rw [hn] at h
      rw [Option.bind_some] at h ⊢
      cases n with
      | text d => cases h
      | other => cases h
      | element m' cs' =>
        rw [below] at h
        rw [List.cons_append, below, ← List.cons_append]
        exact nodeAt_append r (j :: q) cs' h hr

theorem DocBefore_append (q : List Nat) {a b : List Nat} (h : DocBefore a b) : DocBefore (q ++ a) (q ++ b) := by
  induction q with
  | nil => exact h
  | cons i q ih => exact .inr ⟨rfl, ih⟩

theorem tei2Lines_nested (doc : List XNode) : tei2Lines doc =
    (nested ["text".toList, "body".toList, "p".toList] doc).flatMap fun p => (byTagAll "s".toList p).map getTextNodes ++ [[]] := by
  unfold tei2Lines
  generalize "text".toList = a
  generalize "body".toList = b
  generalize "p".toList = c
  generalize "s".toList = d
  simp only [nested, List.flatMap_assoc, List.flatMap_cons, List.flatMap_nil, List.append_nil]

end Lulua

namespace Lulua.Props
open Lulua Spec

/-- **C54** (TEI.2, any document): paragraphs are written as often as they are in a body that is in a text, and each with all its
sentences in document order. So a sentence is written as often as names of elements around it can be read as text, body, p. -/
theorem C54_any (doc : List XNode) : ∃ (paragraphs : List (List Nat)) (sentences : List (List (List Nat × Text))),
    (∀ q, paragraphs.count q = if isTag "p".toList (nodeAt doc q) then ways ["text".toList, "body".toList] (tagsAbove doc q) else 0) ∧
    List.Forall₂ (fun q ss => (ss.map (·.1)).Pairwise DocBefore ∧
      (∀ r, r ∈ ss.map (·.1) ↔ q <+: r ∧ r ≠ q ∧ isTag "s".toList (nodeAt doc r) = true) ∧
      ∀ x ∈ ss, ∃ cs, nodeAt doc x.1 = some (.element "s".toList cs) ∧ x.2 = (directTexts cs).flatten) paragraphs sentences ∧
    filterTEI2 doc = ⟨[joinWith ['\n'] (sentences.flatMap fun ss => ss.map (·.2) ++ [[]])], none⟩ ∧
    ∀ r, (sentences.flatten.map (·.1)).count r =
      if isTag "s".toList (nodeAt doc r) then ways ["text".toList, "body".toList, "p".toList] (tagsAbove doc r) else 0 := by
  have hlines := tei2Lines_nested doc
  unfold filterTEI2
  rw [hlines]
  clear hlines
  generalize "text".toList = a
  generalize "body".toList = b
  generalize "p".toList = c
  generalize "s".toList = d
  have hn := chainAll_nested a [b, c] 0 doc
  have hcount : ∀ (init : List Text) (last t : Text) (ts : List Text), t :: ts = init ++ [last] → ∀ q,
      (chainAll t ts 0 doc).count q = if isTag last (nodeAt doc q) then ways init (tagsAbove doc q) else 0 := by
    intro init last t ts h q
    cases q with
    | nil =>
      rw [if_neg (by simp [nodeAt, isTag]), List.count_eq_zero]
      intro hm
      obtain ⟨cs', _, j, p, hp, _⟩ := forall2_mem_left (chainAll_nested t ts 0 doc) hm
      simp at hp
    | cons j q => exact chainAll_count init last t ts h 0 doc (j :: q) j q rfl (Nat.zero_le j)
  refine ⟨chainAll a [b, c] 0 doc, (List.zip (chainAll a [b, c] 0 doc) (nested [a, b, c] doc)).map fun x =>
    List.zip (inside d x) ((byTagAll d x.2).map getTextNodes), hcount [a, b] c a [b, c] rfl, ?_, ?_, ?_⟩
  · rw [List.forall₂_map_right_iff, List.forall₂_iff_zip]
    have hlen : (List.zip (chainAll a [b, c] 0 doc) (nested [a, b, c] doc)).length = (chainAll a [b, c] 0 doc).length := by
      rw [List.length_zip, hn.length_eq, Nat.min_self]
    refine ⟨hlen.symm, ?_⟩
    intro q x hx
    have hx' : (q, x.2) ∈ List.zip (chainAll a [b, c] 0 doc) (nested [a, b, c] doc) ∧ q = x.1 := by
      rw [List.mem_iff_getElem] at hx
      obtain ⟨i, hi, hx⟩ := hx
      rw [List.getElem_zip, Prod.mk.injEq] at hx
      obtain ⟨hq, hx⟩ := hx
      rw [List.getElem_zip] at hx
      subst hx
      refine ⟨?_, hq.symm⟩
      rw [← hq, List.mem_iff_getElem]
      refine ⟨i, ?_, by rw [List.getElem_zip]⟩
      rw [List.length_zip] at hi
      omega
    obtain ⟨hmem, rfl⟩ := hx'
    obtain ⟨j, p, hq, _, hnode⟩ := (List.forall₂_iff_zip.1 hn).2 hmem
    rw [Nat.sub_zero, ← hq] at hnode
    have hp := byTagAll_paths d 0 x.2
    have hl : (inside d x).length = ((byTagAll d x.2).map getTextNodes).length := by
      rw [inside, List.length_map, List.length_map, hp.length_eq]
    have hfst : (List.zip (inside d x) ((byTagAll d x.2).map getTextNodes)).map (·.1) = inside d x :=
      List.map_fst_zip (by rw [hl])
    rw [hfst]
    refine ⟨?_, ?_, ?_⟩
    · rw [inside, List.pairwise_map]
      exact (tagPathsAll_sorted d 0 x.2).imp fun h => DocBefore_append _ h
    · intro r
      rw [inside, List.mem_map, isTag_iff]
      constructor
      · rintro ⟨p', hp', rfl⟩
        obtain ⟨j', p'', rfl, _, cs, h⟩ := (mem_tagPathsAll d 0 x.2 p').1 hp'
        refine ⟨List.prefix_append _ _, by simp, cs, ?_⟩
        rw [nodeAt_append _ _ _ hnode (by simp)]
        simpa using h
      · rintro ⟨⟨p', rfl⟩, hne, cs, h⟩
        have hne' : p' ≠ [] := fun h => hne (by rw [h, List.append_nil])
        refine ⟨p', (mem_tagPathsAll d 0 x.2 p').2 ?_, rfl⟩
        rw [nodeAt_append _ _ _ hnode hne'] at h
        obtain ⟨j', p'', rfl⟩ := List.exists_cons_of_ne_nil hne'
        exact ⟨j', p'', rfl, Nat.zero_le _, cs, by simpa using h⟩
    · intro y hy
      rw [inside, List.zip_map, List.mem_map] at hy
      obtain ⟨z, hz, rfl⟩ := hy
      obtain ⟨j', p', hz1, _, h⟩ := (List.forall₂_iff_zip.1 hp).2 (show (z.1, z.2) ∈ _ from hz)
      refine ⟨z.2, ?_, getTextNodes_eq _⟩
      simp only [Prod.map]
      rw [nodeAt_append _ _ _ hnode (by rw [hz1]; simp), hz1]
      simpa using h
  · rw [joinLines_eq]
    have : (nested [a, b, c] doc).flatMap (fun p => (byTagAll d p).map getTextNodes ++ [[]]) =
        ((List.zip (chainAll a [b, c] 0 doc) (nested [a, b, c] doc)).map fun x =>
          List.zip (inside d x) ((byTagAll d x.2).map getTextNodes)).flatMap fun ss => ss.map (·.2) ++ [[]] := by
      conv_lhs => rw [show nested [a, b, c] doc = (List.zip (chainAll a [b, c] 0 doc) (nested [a, b, c] doc)).map (·.2) from
        (List.map_snd_zip (by rw [hn.length_eq])).symm]
      rw [List.flatMap_map, List.flatMap_map]
      refine List.flatMap_congr fun x _ => ?_
      rw [List.map_snd_zip]
      rw [inside, List.length_map, List.length_map, (byTagAll_paths d 0 x.2).length_eq]
    rw [this]
    rfl
  · intro r
    have : (((List.zip (chainAll a [b, c] 0 doc) (nested [a, b, c] doc)).map fun x =>
        List.zip (inside d x) ((byTagAll d x.2).map getTextNodes)).flatten.map (·.1)) = chainAll a [b, c, d] 0 doc := by
      rw [show [b, c, d] = [b, c] ++ [d] from rfl, chainAll_snoc, List.map_flatten, List.map_map, List.flatMap]
      congr 1
      refine List.map_congr_left fun x _ => ?_
      refine List.map_fst_zip ?_
      rw [inside, List.length_map, List.length_map, (byTagAll_paths d 0 x.2).length_eq]
    rw [this]
    exact hcount [a, b, c] d a [b, c, d] rfl r

/-- A paragraph in a paragraph: its sentence is written twice. -/
example : ways ["text".toList, "body".toList, "p".toList]
    (tagsAbove [.element "text".toList [.element "body".toList [.element "p".toList [.element "p".toList
      [.element "s".toList [.text "x".toList]]]]]] [0, 0, 0, 0, 0]) = 2 := by decide +kernel

end Lulua.Props
