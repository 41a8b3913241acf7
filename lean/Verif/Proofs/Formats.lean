import Verif.Spec.Formats
import Verif.Proofs.Text
import Mathlib.Tactic.Ring

namespace Lulua
open Spec

/-! ### Selection -/

/-- Final state of the selection. -/
def selState (f : Text → Attrs → Bool) (s : SelState) (ts : List Token) : SelState :=
  ts.foldl (fun s t => (selStep f s t).1) s

theorem selectFrom_append (f : Text → Attrs → Bool) (s : SelState) (a b : List Token) :
    selectFrom f s (a ++ b) = selectFrom f s a ++ selectFrom f (selState f s a) b := by
  induction a generalizing s with
  | nil => rfl
  | cons t a ih =>
    simp only [List.cons_append, selectFrom, selState, List.foldl_cons]
    rw [ih]
    split <;> rfl

theorem selState_append (f : Text → Attrs → Bool) (s : SelState) (a b : List Token) :
    selState f s (a ++ b) = selState f (selState f s a) b := by
  simp [selState]

theorem isScriptName_iff {n : Text} : isScriptName n = true ↔ IsScript n := by
  simp [isScriptName, IsScript]

theorem isScriptName_false {n : Text} (h : ¬ IsScript n) : isScriptName n = false := by
  rw [← Bool.not_eq_true, isScriptName_iff]; exact h

/-- Running over `ts` from `s` outputs `out` and ends in `s'`. -/
def SelRun (f : Text → Attrs → Bool) (s : SelState) (ts out : List Token) (s' : SelState) : Prop :=
  selectFrom f s ts = out ∧ selState f s ts = s'

theorem SelRun.nil {f : Text → Attrs → Bool} {s : SelState} : SelRun f s [] [] s := ⟨rfl, rfl⟩

theorem SelRun.append {f : Text → Attrs → Bool} {s s1 s2 : SelState} {a b oa ob : List Token}
    (h1 : SelRun f s a oa s1) (h2 : SelRun f s1 b ob s2) : SelRun f s (a ++ b) (oa ++ ob) s2 := by
  obtain ⟨h1, h1'⟩ := h1
  obtain ⟨h2, h2'⟩ := h2
  exact ⟨by rw [selectFrom_append, h1, h1', h2], by rw [selState_append, h1', h2']⟩

theorem SelRun.one {f : Text → Attrs → Bool} {s : SelState} {t : Token} {s' : SelState} {b : Bool}
    (h : selStep f s t = (s', b)) : SelRun f s [t] (if b then [t] else []) s' := by
  refine ⟨?_, ?_⟩
  · simp only [selectFrom, h]
  · simp [selState, h]

/-- Inside a script nothing is yielded. -/
theorem script_children (f : Text → Attrs → Bool) (i : Option Int) (cs : List HNode)
    (h : NoElementAll (fun _ _ => True) cs) : SelRun f ⟨i, some 0⟩ (walkAll cs) [] ⟨i, some 0⟩ := by
  induction cs with
  | nil => exact .nil
  | cons c cs ih =>
    rw [NoElementAll] at h
    rw [walkAll]
    have h1 : SelRun f ⟨i, some 0⟩ c.walk [] ⟨i, some 0⟩ := by
      cases c with
      | element n a cs => rw [NoElement] at h; exact absurd trivial h.1.1
      | text d => exact SelRun.one (b := false) (by rfl)
      | space d => exact SelRun.one (b := false) (by rfl)
      | comment d => exact SelRun.one (b := false) (by rfl)
      | void n a => exact SelRun.one (b := false) (by rfl)
    exact SelRun.append h1 (ih h.2)

/-- A whole script. -/
theorem script_element {f : Text → Attrs → Bool} {i : Option Int} {n : Text} {a : Attrs} {cs : List HNode}
    (hs : IsScript n) (hf : f n a = false) (h : NoElementAll (fun _ _ => True) cs) :
    SelRun f ⟨i, none⟩ (HNode.element n a cs).walk [] ⟨i, none⟩ := by
  rw [HNode.walk]
  have h1 : SelRun f ⟨i, none⟩ [.startTag n a] [] ⟨i, some 0⟩ :=
    SelRun.one (b := false) (by simp [selStep, selOpen, hf, isScriptName_iff.2 hs, selScript])
  have h3 : SelRun f ⟨i, some 0⟩ [.endTag n] [] ⟨i, none⟩ :=
    SelRun.one (b := false) (by simp [selStep, selOpen, selScript])
  exact h1.append ((script_children f i cs h).append h3)

theorem leaf_inside (f : Text → Attrs → Bool) (k : Int) (hk : 0 < k) {t : Token}
    (h1 : ∀ n a, t ≠ .startTag n a) (h2 : ∀ n, t ≠ .endTag n) : SelRun f ⟨some k, none⟩ [t] [t] ⟨some k, none⟩ := by
  refine SelRun.one (b := true) ?_
  cases t <;> simp_all [selStep, selOpen, selInside]

theorem leaf_outside (f : Text → Attrs → Bool) {t : Token} (h1 : ∀ n a, t ≠ .startTag n a) :
    SelRun f ⟨none, none⟩ [t] [] ⟨none, none⟩ := by
  refine SelRun.one (b := false) ?_
  cases t <;> simp_all [selStep, selOpen]

mutual
/-- Inside a selected element. -/
theorem inside_node (f : Text → Attrs → Bool) (k : Int) (hk : 0 < k) (n : HNode)
    (hs : ScriptsOk f n) (hn : NoElement (fun n a => f n a = true) n) :
    SelRun f ⟨some k, none⟩ n.walk (cleanTokens n) ⟨some k, none⟩ := by
  match n with
  | .text d => rw [HNode.walk, cleanTokens]; exact leaf_inside f k hk (by simp) (by simp)
  | .space d => rw [HNode.walk, cleanTokens]; exact leaf_inside f k hk (by simp) (by simp)
  | .comment d => rw [HNode.walk, cleanTokens]; exact leaf_inside f k hk (by simp) (by simp)
  | .void n a => rw [HNode.walk, cleanTokens]; exact leaf_inside f k hk (by simp) (by simp)
  | .element n a cs =>
    rw [ScriptsOk] at hs
    rw [NoElement] at hn
    rw [cleanTokens]
    by_cases hsc : IsScript n
    · rw [if_pos hsc]
      exact script_element hsc (hs.1 hsc).1 (hs.1 hsc).2
    · rw [if_neg hsc, HNode.walk]
      have hf : f n a = false := by simpa using hn.1
      have h1 : SelRun f ⟨some k, none⟩ [.startTag n a] [.startTag n a] ⟨some (k + 1), none⟩ :=
        SelRun.one (b := true) (by
          simp only [selStep, selOpen, hf, isScriptName_false hsc, selInside]
          simp [show ¬ k + 1 ≤ 0 by omega])
      have h2 := inside_all f (k + 1) (by omega) cs hs.2 hn.2
      have h3 : SelRun f ⟨some (k + 1), none⟩ [.endTag n] [.endTag n] ⟨some k, none⟩ :=
        SelRun.one (b := true) (by
          simp only [selStep, selOpen, selInside]
          simp [show ¬ k ≤ 0 by omega])
      have := h1.append (h2.append h3)
      simpa using this
theorem inside_all (f : Text → Attrs → Bool) (k : Int) (hk : 0 < k) (ns : List HNode)
    (hs : ScriptsOkAll f ns) (hn : NoElementAll (fun n a => f n a = true) ns) :
    SelRun f ⟨some k, none⟩ (walkAll ns) (cleanTokensAll ns) ⟨some k, none⟩ := by
  match ns with
  | [] => exact .nil
  | n :: ns =>
    rw [ScriptsOkAll] at hs
    rw [NoElementAll] at hn
    rw [walkAll, cleanTokensAll]
    exact (inside_node f k hk n hs.1 hn.1).append (inside_all f k hk ns hs.2 hn.2)
end

/-- A selected element seen from outside. -/
theorem selected_element {f : Text → Attrs → Bool} {s : Option Int} {n : Text} {a : Attrs} {cs : List HNode}
    (hf : f n a = true) (hs : ScriptsOk f (.element n a cs))
    (hn : NoElementAll (fun n a => f n a = true) cs) :
    SelRun f ⟨s, none⟩ (HNode.element n a cs).walk (cleanTokens (.element n a cs)) ⟨none, none⟩ := by
  rw [ScriptsOk] at hs
  have hsc : ¬ IsScript n := fun h => by simp [(hs.1 h).1] at hf
  rw [cleanTokens, if_neg hsc, HNode.walk]
  have h1 : SelRun f ⟨s, none⟩ [.startTag n a] [.startTag n a] ⟨some 1, none⟩ :=
    SelRun.one (b := true) (by simp [selStep, selOpen, hf, isScriptName_false hsc, selInside])
  have h2 := inside_all f 1 (by omega) cs hs.2 hn
  have h3 : SelRun f ⟨some 1, none⟩ [.endTag n] [.endTag n] ⟨none, none⟩ :=
    SelRun.one (b := true) (by simp [selStep, selOpen, selInside])
  simpa using h1.append (h2.append h3)

theorem cleanTokensAll_append (a b : List HNode) : cleanTokensAll (a ++ b) = cleanTokensAll a ++ cleanTokensAll b := by
  induction a with
  | nil => rfl
  | cons x a ih => rw [List.cons_append, cleanTokensAll, cleanTokensAll, ih, List.append_assoc]

theorem walkAll_append (a b : List HNode) : walkAll (a ++ b) = walkAll a ++ walkAll b := by
  induction a with
  | nil => rfl
  | cons x a ih => rw [List.cons_append, walkAll, walkAll, ih, List.append_assoc]

theorem noElementAll_mono {p q : Text → Attrs → Prop} (h : ∀ n a, q n a → p n a) (ns : List HNode)
    (hn : NoElementAll p ns) : NoElementAll q ns := by
  match ns with
  | [] => trivial
  | .text d :: ns => rw [NoElementAll] at hn ⊢; exact ⟨by rw [NoElement]; trivial, noElementAll_mono h ns hn.2⟩
  | .space d :: ns => rw [NoElementAll] at hn ⊢; exact ⟨by rw [NoElement]; trivial, noElementAll_mono h ns hn.2⟩
  | .comment d :: ns => rw [NoElementAll] at hn ⊢; exact ⟨by rw [NoElement]; trivial, noElementAll_mono h ns hn.2⟩
  | .void n a :: ns => rw [NoElementAll] at hn ⊢; exact ⟨by rw [NoElement]; trivial, noElementAll_mono h ns hn.2⟩
  | .element n a cs :: ns =>
    rw [NoElementAll, NoElement] at hn ⊢
    exact ⟨⟨fun hq => hn.1.1 (h n a hq), noElementAll_mono h cs hn.1.2⟩, noElementAll_mono h ns hn.2⟩

mutual
theorem selectedElements_none {f : Text → Attrs → Bool} (n : HNode)
    (h : NoElement (fun n a => f n a = true) n) : selectedElements f n = [] := by
  match n with
  | .text d => rfl
  | .space d => rfl
  | .comment d => rfl
  | .void n a => rfl
  | .element n a cs =>
    rw [NoElement] at h
    rw [selectedElements, if_neg h.1]
    exact selectedElementsAll_none cs h.2
theorem selectedElementsAll_none {f : Text → Attrs → Bool} (ns : List HNode)
    (h : NoElementAll (fun n a => f n a = true) ns) : selectedElementsAll f ns = [] := by
  match ns with
  | [] => rfl
  | n :: ns =>
    rw [NoElementAll] at h
    rw [selectedElementsAll, selectedElements_none n h.1, selectedElementsAll_none ns h.2]
    rfl
end

mutual
/-- Outside of selected elements. -/
theorem outside_node (f : Text → Attrs → Bool) (n : HNode) (hs : ScriptsOk f n) (hn : NotNested f n) :
    SelRun f ⟨none, none⟩ n.walk (cleanTokensAll (selectedElements f n)) ⟨none, none⟩ := by
  match n with
  | .text d => rw [HNode.walk]; exact leaf_outside f (by simp)
  | .space d => rw [HNode.walk]; exact leaf_outside f (by simp)
  | .comment d => rw [HNode.walk]; exact leaf_outside f (by simp)
  | .void n a => rw [HNode.walk]; exact leaf_outside f (by simp)
  | .element n a cs =>
    by_cases hf : f n a = true
    · rw [NotNested] at hn
      have := selected_element (s := none) hf hs (hn.1 hf)
      simpa [selectedElements, hf, cleanTokensAll] using this
    · rw [ScriptsOk] at hs
      rw [NotNested] at hn
      rw [selectedElements, if_neg hf]
      by_cases hsc : IsScript n
      · have h0 := (hs.1 hsc).2
        rw [selectedElementsAll_none cs (noElementAll_mono (fun _ _ _ => trivial) cs h0)]
        exact script_element hsc (by simpa using hf) h0
      · rw [HNode.walk]
        have h1 : SelRun f ⟨none, none⟩ [.startTag n a] [] ⟨none, none⟩ :=
          SelRun.one (b := false) (by
            simp only [Bool.not_eq_true] at hf
            simp [selStep, selOpen, hf, isScriptName_false hsc])
        have h2 := outside_all f cs hs.2 hn.2
        have h3 : SelRun f ⟨none, none⟩ [.endTag n] [] ⟨none, none⟩ := leaf_outside f (by simp)
        simpa using h1.append (h2.append h3)
theorem outside_all (f : Text → Attrs → Bool) (ns : List HNode) (hs : ScriptsOkAll f ns)
    (hn : NotNestedAll f ns) :
    SelRun f ⟨none, none⟩ (walkAll ns) (cleanTokensAll (selectedElementsAll f ns)) ⟨none, none⟩ := by
  match ns with
  | [] => exact .nil
  | n :: ns =>
    rw [ScriptsOkAll] at hs
    rw [NotNestedAll] at hn
    rw [walkAll, selectedElementsAll, cleanTokensAll_append]
    exact (outside_node f n hs.1 hn.1).append (outside_all f ns hs.2 hn.2)
end

/-! ### Serialization -/

theorem serialize_append (en : Dict Text Text) (a b : List Token) :
    serialize en (a ++ b) = (serialize en a).bind fun x => (serialize en b).map fun y => x ++ y := by
  induction a with
  | nil =>
    rw [List.nil_append, serialize]
    cases serialize en b <;> simp [Except.bind, Except.map]
  | cons t a ih =>
    rw [List.cons_append, serialize, serialize, ih]
    cases serializeToken en t <;> cases serialize en a <;> cases serialize en b <;>
      simp [bind, Except.bind, Except.map]

theorem serialize_append_ok {en : Dict Text Text} {a b : List Token} {x y : Text}
    (ha : serialize en a = .ok x) (hb : serialize en b = .ok y) : serialize en (a ++ b) = .ok (x ++ y) := by
  rw [serialize_append, ha, hb]; rfl

theorem serialize_one {en : Dict Text Text} {t : Token} {x : Text} (h : serializeToken en t = .ok x) :
    serialize en [t] = .ok x := by
  simp [serialize, h, bind, Except.bind]

mutual
theorem serialize_walk (en : Dict Text Text) (n : HNode) : serialize en n.walk = .ok (nodeText false n) := by
  match n with
  | .text d => exact serialize_one rfl
  | .space d => exact serialize_one rfl
  | .comment d => exact serialize_one rfl
  | .void n a => exact serialize_one rfl
  | .element n a cs =>
    rw [HNode.walk, nodeText, if_neg (by simp)]
    have h1 : serialize en [.startTag n a] = .ok [] := serialize_one rfl
    have h3 : serialize en [.endTag n] = .ok (if n = "p".toList ∨ n = "div".toList then "\n\n".toList else []) :=
      serialize_one rfl
    exact serialize_append_ok h1 (serialize_append_ok (serialize_walkAll en cs) h3)
theorem serialize_walkAll (en : Dict Text Text) (ns : List HNode) :
    serialize en (walkAll ns) = .ok (nodesText false ns) := by
  match ns with
  | [] => rfl
  | n :: ns =>
    rw [walkAll, nodesText]
    exact serialize_append_ok (serialize_walk en n) (serialize_walkAll en ns)
end

mutual
theorem serialize_clean (en : Dict Text Text) (n : HNode) :
    serialize en (cleanTokens n) = .ok (nodeText true n) := by
  match n with
  | .text d => exact serialize_one rfl
  | .space d => exact serialize_one rfl
  | .comment d => exact serialize_one rfl
  | .void n a => exact serialize_one rfl
  | .element n a cs =>
    rw [cleanTokens, nodeText]
    by_cases hs : IsScript n
    · rw [if_pos hs, if_pos ⟨rfl, hs⟩]; rfl
    · rw [if_neg hs, if_neg (by simp [hs])]
      have h1 : serialize en [.startTag n a] = .ok [] := serialize_one rfl
      have h3 : serialize en [.endTag n] = .ok (if n = "p".toList ∨ n = "div".toList then "\n\n".toList else []) :=
        serialize_one rfl
      have := serialize_append_ok h1 (serialize_append_ok (serialize_cleanAll en cs) h3)
      simpa using this
theorem serialize_cleanAll (en : Dict Text Text) (ns : List HNode) :
    serialize en (cleanTokensAll ns) = .ok (nodesText true ns) := by
  match ns with
  | [] => rfl
  | n :: ns =>
    rw [cleanTokensAll, nodesText]
    exact serialize_append_ok (serialize_clean en n) (serialize_cleanAll en ns)
end

/-! ### XML -/

theorem getTextNodes_eq (ns : List XNode) : getTextNodes ns = (directTexts ns).flatten := by
  induction ns with
  | nil => rfl
  | cons n ns ih =>
    cases n with
    | text d => simp [getTextNodes, directTexts, ih]
    | element _ _ => simp [getTextNodes, directTexts, ih]
    | other => simp [getTextNodes, directTexts, ih]

mutual
/-- Matching elements that are not inside of other matching elements. -/
def topmost (tag : Text) : XNode → List (List XNode)
  | .text _ => []
  | .other => []
  | .element n cs => if n = tag then [cs] else topmostAll tag cs
def topmostAll (tag : Text) : List XNode → List (List XNode)
  | [] => []
  | n :: ns => topmost tag n ++ topmostAll tag ns
end

mutual
theorem byTag_none (tag : Text) (n : XNode) (h : XNone1 tag n) : n.byTag tag = [] := by
  match n with
  | .text d => rfl
  | .other => rfl
  | .element n cs =>
    rw [XNone1] at h
    rw [XNode.byTag, if_neg h.1]
    exact byTagAll_none tag cs h.2
theorem byTagAll_none (tag : Text) (ns : List XNode) (h : XNone tag ns) : byTagAll tag ns = [] := by
  match ns with
  | [] => rfl
  | n :: ns =>
    rw [XNone] at h
    rw [byTagAll, byTag_none tag n h.1, byTagAll_none tag ns h.2]
    rfl
end

mutual
theorem byTag_topmost (tag : Text) (n : XNode) (h : XNotNested tag n) : n.byTag tag = topmost tag n := by
  match n with
  | .text d => rfl
  | .other => rfl
  | .element n cs =>
    rw [XNotNested] at h
    rw [XNode.byTag, topmost]
    split
    · rename_i hn
      rw [byTagAll_none tag cs (h.1 hn)]
    · exact byTagAll_topmost tag cs h.2
theorem byTagAll_topmost (tag : Text) (ns : List XNode) (h : XNotNestedAll tag ns) :
    byTagAll tag ns = topmostAll tag ns := by
  match ns with
  | [] => rfl
  | n :: ns =>
    rw [XNotNestedAll] at h
    rw [byTagAll, topmostAll, byTag_topmost tag n h.1, byTagAll_topmost tag ns h.2]
end

/-- Not nested is inherited by what is found for another name. -/
theorem xnotNested_topmost (tag tag' : Text) (ns : List XNode) (h : XNotNestedAll tag ns) :
    ∀ cs ∈ topmostAll tag' ns, XNotNestedAll tag cs := by
  match ns with
  | [] => intro cs hcs; simp [topmostAll] at hcs
  | .text d :: ns =>
    rw [XNotNestedAll] at h
    intro cs hcs
    rw [topmostAll, topmost, List.nil_append] at hcs
    exact xnotNested_topmost tag tag' ns h.2 cs hcs
  | .other :: ns =>
    rw [XNotNestedAll] at h
    intro cs hcs
    rw [topmostAll, topmost, List.nil_append] at hcs
    exact xnotNested_topmost tag tag' ns h.2 cs hcs
  | .element n cs' :: ns =>
    rw [XNotNestedAll, XNotNested] at h
    intro cs hcs
    rw [topmostAll, topmost, List.mem_append] at hcs
    rcases hcs with hcs | hcs
    · split at hcs
      · rw [List.mem_singleton] at hcs
        rw [hcs]; exact h.1.2
      · exact xnotNested_topmost tag tag' cs' h.1.2 cs hcs
    · exact xnotNested_topmost tag tag' ns h.2 cs hcs

mutual
theorem readThrough_outside (n : XNode) :
    readThrough .outside n = (topmost "text".toList n).flatMap (readAll .text) := by
  match n with
  | .text d => simp [readThrough, topmost]
  | .other => simp [readThrough, topmost]
  | .element n cs =>
    rw [readThrough, topmost]
    split
    · simp
    · exact readAll_outside cs
theorem readAll_outside (ns : List XNode) :
    readAll .outside ns = (topmostAll "text".toList ns).flatMap (readAll .text) := by
  match ns with
  | [] => simp [readAll, topmostAll]
  | n :: ns => rw [readAll, topmostAll, List.flatMap_append, readThrough_outside n, readAll_outside ns]
end

mutual
theorem readThrough_text (n : XNode) :
    readThrough .text n = (topmost "body".toList n).flatMap (readAll .body) := by
  match n with
  | .text d => simp [readThrough, topmost]
  | .other => simp [readThrough, topmost]
  | .element n cs =>
    rw [readThrough, topmost]
    split
    · simp
    · exact readAll_text cs
theorem readAll_text (ns : List XNode) :
    readAll .text ns = (topmostAll "body".toList ns).flatMap (readAll .body) := by
  match ns with
  | [] => simp [readAll, topmostAll]
  | n :: ns => rw [readAll, topmostAll, List.flatMap_append, readThrough_text n, readAll_text ns]
end

mutual
theorem readThrough_body (n : XNode) :
    readThrough .body n = (topmost "p".toList n).flatMap (fun cs => readAll .par cs ++ [[]]) := by
  match n with
  | .text d => simp [readThrough, topmost]
  | .other => simp [readThrough, topmost]
  | .element n cs =>
    rw [readThrough, topmost]
    split
    · simp
    · exact readAll_body cs
theorem readAll_body (ns : List XNode) :
    readAll .body ns = (topmostAll "p".toList ns).flatMap (fun cs => readAll .par cs ++ [[]]) := by
  match ns with
  | [] => simp [readAll, topmostAll]
  | n :: ns => rw [readAll, topmostAll, List.flatMap_append, readThrough_body n, readAll_body ns]
end

mutual
theorem readThrough_par (n : XNode) :
    readThrough .par n = (topmost "s".toList n).map getTextNodes := by
  match n with
  | .text d => simp [readThrough, topmost]
  | .other => simp [readThrough, topmost]
  | .element n cs =>
    rw [readThrough, topmost]
    split
    · simp [getTextNodes_eq]
    · exact readAll_par cs
theorem readAll_par (ns : List XNode) :
    readAll .par ns = (topmostAll "s".toList ns).map getTextNodes := by
  match ns with
  | [] => simp [readAll, topmostAll]
  | n :: ns => rw [readAll, topmostAll, List.map_append, readThrough_par n, readAll_par ns]
end

theorem tei2Lines_eq (doc : List XNode) (h1 : XNotNestedAll "text".toList doc) (h2 : XNotNestedAll "body".toList doc)
    (h3 : XNotNestedAll "p".toList doc) (h4 : XNotNestedAll "s".toList doc) :
    tei2Lines doc = readAll .outside doc := by
  unfold tei2Lines
  rw [readAll_outside, byTagAll_topmost _ _ h1]
  refine List.flatMap_congr fun t ht => ?_
  have k2 := xnotNested_topmost _ _ _ h2 t ht
  have k3 := xnotNested_topmost _ _ _ h3 t ht
  have k4 := xnotNested_topmost _ _ _ h4 t ht
  rw [readAll_text, byTagAll_topmost _ _ k2]
  refine List.flatMap_congr fun b hb => ?_
  have m3 := xnotNested_topmost _ _ _ k3 b hb
  have m4 := xnotNested_topmost _ _ _ k4 b hb
  rw [readAll_body, byTagAll_topmost _ _ m3]
  refine List.flatMap_congr fun p hp => ?_
  rw [readAll_par, byTagAll_topmost _ _ (xnotNested_topmost _ _ _ m4 p hp)]

/-! Positions -/

mutual
/-- Positions of the matching elements. -/
def tagPaths (tag : Text) : XNode → List (List Nat)
  | .text _ => []
  | .other => []
  | .element n cs => (if n = tag then [[]] else []) ++ tagPathsAll tag 0 cs
def tagPathsAll (tag : Text) : Nat → List XNode → List (List Nat)
  | _, [] => []
  | i, n :: ns => (tagPaths tag n).map (i :: ·) ++ tagPathsAll tag (i + 1) ns
end

/-- The node at a position relative to a node. -/
def below : XNode → List Nat → Option XNode
  | n, [] => some n
  | .element _ cs, i :: p => nodeAt cs (i :: p)
  | _, _ :: _ => none

theorem nodeAt_cons (ns : List XNode) (i : Nat) (p : List Nat) :
    nodeAt ns (i :: p) = (ns[i]?).bind (fun n => below n p) := by
  cases p with
  | nil =>
    rw [nodeAt]
    cases ns[i]? <;> simp [below]
  | cons j p =>
    rw [nodeAt]
    · cases h : ns[i]? with
      | none => rfl
      | some n => cases n <;> rfl
    · simp

theorem tagPathsAll_ge (tag : Text) (i : Nat) (ns : List XNode) :
    ∀ q ∈ tagPathsAll tag i ns, ∃ j p, q = j :: p ∧ i ≤ j := by
  induction ns generalizing i with
  | nil => simp [tagPathsAll]
  | cons n ns ih =>
    intro q hq
    rw [tagPathsAll, List.mem_append] at hq
    rcases hq with hq | hq
    · obtain ⟨p, _, rfl⟩ := List.mem_map.1 hq
      exact ⟨i, p, rfl, le_refl i⟩
    · obtain ⟨j, p, h1, h2⟩ := ih (i + 1) q hq
      exact ⟨j, p, h1, by omega⟩

mutual
theorem tagPaths_sorted (tag : Text) (n : XNode) : (tagPaths tag n).Pairwise DocBefore := by
  match n with
  | .text d => rw [tagPaths]; exact .nil
  | .other => rw [tagPaths]; exact .nil
  | .element n cs =>
    rw [tagPaths, List.pairwise_append]
    refine ⟨by split <;> simp, tagPathsAll_sorted tag 0 cs, ?_⟩
    intro a ha b hb
    split at ha
    · obtain ⟨j, p, rfl, _⟩ := tagPathsAll_ge tag 0 cs b hb
      rw [List.mem_singleton] at ha
      rw [ha]; trivial
    · simp at ha
theorem tagPathsAll_sorted (tag : Text) (i : Nat) (ns : List XNode) : (tagPathsAll tag i ns).Pairwise DocBefore := by
  match ns with
  | [] => rw [tagPathsAll]; exact .nil
  | n :: ns =>
    rw [tagPathsAll, List.pairwise_append]
    refine ⟨?_, tagPathsAll_sorted tag (i + 1) ns, ?_⟩
    · rw [List.pairwise_map]
      exact (tagPaths_sorted tag n).imp (fun h => .inr ⟨rfl, h⟩)
    · intro a ha b hb
      obtain ⟨p, _, rfl⟩ := List.mem_map.1 ha
      obtain ⟨j, q, rfl, hj⟩ := tagPathsAll_ge tag (i + 1) ns b hb
      exact .inl (by omega)
end

mutual
theorem mem_tagPaths (tag : Text) (n : XNode) (p : List Nat) :
    p ∈ tagPaths tag n ↔ ∃ cs, below n p = some (.element tag cs) := by
  match n with
  | .text d =>
    rw [tagPaths]
    cases p <;> simp [below]
  | .other =>
    rw [tagPaths]
    cases p <;> simp [below]
  | .element m cs =>
    rw [tagPaths, List.mem_append]
    cases p with
    | nil =>
      have : ([] : List Nat) ∉ tagPathsAll tag 0 cs := by
        intro h
        obtain ⟨j, q, h, _⟩ := tagPathsAll_ge tag 0 cs _ h
        simp at h
      by_cases hm : m = tag
      · simp [hm, below]
      · simp [hm, below, this]
    | cons i p =>
      rw [mem_tagPathsAll tag 0 cs (i :: p), below]
      have : (i :: p) ∉ (if m = tag then [([] : List Nat)] else []) := by split <;> simp
      simp only [this, false_or]
      constructor
      · rintro ⟨j, q, h, hj, h2⟩
        simp only [List.cons.injEq] at h
        obtain ⟨rfl, rfl⟩ := h
        simpa using h2
      · intro h
        exact ⟨i, p, rfl, by omega, by simpa using h⟩
theorem mem_tagPathsAll (tag : Text) (i : Nat) (ns : List XNode) (q : List Nat) :
    q ∈ tagPathsAll tag i ns ↔ ∃ j p, q = j :: p ∧ i ≤ j ∧ ∃ cs, nodeAt ns ((j - i) :: p) = some (.element tag cs) := by
  match ns with
  | [] =>
    rw [tagPathsAll]
    simp [nodeAt_cons]
  | n :: ns =>
    rw [tagPathsAll, List.mem_append, mem_tagPathsAll tag (i + 1) ns q]
    constructor
    · rintro (h | ⟨j, p, rfl, hj, cs, h⟩)
      · obtain ⟨p, hp, rfl⟩ := List.mem_map.1 h
        refine ⟨i, p, rfl, le_refl i, ?_⟩
        rw [nodeAt_cons, Nat.sub_self]
        simpa using (mem_tagPaths tag n p).1 hp
      · refine ⟨j, p, rfl, by omega, cs, ?_⟩
        rw [nodeAt_cons] at h ⊢
        rw [show j - i = j - (i + 1) + 1 by omega, List.getElem?_cons_succ]
        exact h
    · rintro ⟨j, p, rfl, hj, cs, h⟩
      rw [nodeAt_cons] at h
      by_cases hji : j = i
      · subst hji
        left
        rw [Nat.sub_self] at h
        exact List.mem_map.2 ⟨p, (mem_tagPaths tag n p).2 ⟨cs, by simpa using h⟩, rfl⟩
      · right
        refine ⟨j, p, rfl, by omega, cs, ?_⟩
        rw [show j - i = j - (i + 1) + 1 by omega, List.getElem?_cons_succ] at h
        rw [nodeAt_cons]
        exact h
end

mutual
theorem byTag_paths (tag : Text) (n : XNode) :
    List.Forall₂ (fun p cs => below n p = some (.element tag cs)) (tagPaths tag n) (n.byTag tag) := by
  match n with
  | .text d => rw [tagPaths, XNode.byTag]; exact .nil
  | .other => rw [tagPaths, XNode.byTag]; exact .nil
  | .element m cs =>
    rw [tagPaths, XNode.byTag]
    have h : List.Forall₂ (fun p cs' => below (.element m cs) p = some (.element tag cs')) (tagPathsAll tag 0 cs)
        (byTagAll tag cs) := by
      refine List.Forall₂.imp ?_ (byTagAll_paths tag 0 cs)
      rintro q cs' ⟨j, p, rfl, _, h⟩
      rw [below]
      simpa using h
    split
    · rename_i hm
      exact .cons (by rw [below, hm]) h
    · exact h
theorem byTagAll_paths (tag : Text) (i : Nat) (ns : List XNode) :
    List.Forall₂ (fun q cs => ∃ j p, q = j :: p ∧ i ≤ j ∧ nodeAt ns ((j - i) :: p) = some (.element tag cs))
      (tagPathsAll tag i ns) (byTagAll tag ns) := by
  match ns with
  | [] => rw [tagPathsAll, byTagAll]; exact .nil
  | n :: ns =>
    rw [tagPathsAll, byTagAll]
    refine List.rel_append ?_ ?_
    · rw [List.forall₂_map_left_iff]
      refine (byTag_paths tag n).imp fun p cs h => ⟨i, p, rfl, le_refl i, ?_⟩
      rw [nodeAt_cons, Nat.sub_self]
      simpa using h
    · refine (byTagAll_paths tag (i + 1) ns).imp ?_
      rintro q cs ⟨j, p, rfl, hj, h⟩
      refine ⟨j, p, rfl, by omega, ?_⟩
      rw [nodeAt_cons] at h ⊢
      rw [show j - i = j - (i + 1) + 1 by omega, List.getElem?_cons_succ]
      exact h
end

theorem joinLines_eq (ls : List Text) : joinLines ls = joinWith ['\n'] ls := by
  induction ls with
  | nil => rfl
  | cons l ls ih =>
    cases ls with
    | nil => rfl
    | cons m ls => rw [joinLines, joinWith, ih] <;> simp

theorem mem_takeWhile_true {p : Char → Bool} {l : Text} {c : Char} (h : c ∈ l.takeWhile p) : p c = true := by
  induction l with
  | nil => simp at h
  | cons d l ih =>
    rw [List.takeWhile_cons] at h
    split at h
    · rcases List.mem_cons.1 h with rfl | h
      · assumption
      · exact ih h
    · simp at h

theorem pyStrip_spec (sp : Char → Bool) (t : Text) :
    ∃ a b, t = a ++ pyStrip sp t ++ b ∧ (∀ c ∈ a, sp c = true) ∧ (∀ c ∈ b, sp c = true) ∧
      (∀ c, (pyStrip sp t).head? = some c → sp c = false) ∧
      (∀ c, (pyStrip sp t).getLast? = some c → sp c = false) := by
  unfold pyStrip
  set u := t.dropWhile sp with hu
  refine ⟨t.takeWhile sp, (u.reverse.takeWhile sp).reverse, ?_, ?_, ?_, ?_, ?_⟩
  · rw [List.append_assoc, ← List.reverse_append, List.takeWhile_append_dropWhile, List.reverse_reverse, hu,
      List.takeWhile_append_dropWhile]
  · intro c hc; exact mem_takeWhile_true hc
  · intro c hc; exact mem_takeWhile_true (List.mem_reverse.1 hc)
  · intro c hc
    have hpre : (u.reverse.dropWhile sp).reverse <+: u := by
      rw [← List.reverse_suffix, List.reverse_reverse]
      exact List.dropWhile_suffix sp
    obtain ⟨r, hr⟩ := hpre
    have : u.head? = some c := by
      rw [← hr, List.head?_append, hc]; rfl
    have hne := List.head?_dropWhile_not sp t
    rw [← hu, this] at hne
    simpa using hne
  · intro c hc
    rw [List.getLast?_reverse] at hc
    have := List.head?_dropWhile_not sp u.reverse
    rw [hc] at this
    simpa using this

/-! ### tar -/

theorem octalText_length (n k : Nat) : (octalText n k).length = n := by
  induction n generalizing k with
  | zero => rfl
  | succ n ih => rw [octalText, List.length_append, ih]; rfl

theorem octal_digit (d : Nat) (h : d < 8) :
    (48 ≤ UInt8.ofNat (48 + d) ∧ UInt8.ofNat (48 + d) < 56) ∧ (UInt8.ofNat (48 + d)).toNat - 48 = d := by
  have : ∀ d < 8, (48 ≤ UInt8.ofNat (48 + d) ∧ UInt8.ofNat (48 + d) < 56) ∧
      (UInt8.ofNat (48 + d)).toNat - 48 = d := by decide
  exact this d h

/-- Bytes that are octal digits. -/
def IsOct (c : UInt8) : Prop := 48 ≤ c ∧ c < 56

theorem octalText_digits (n k : Nat) : ∀ c ∈ octalText n k, IsOct c := by
  induction n generalizing k with
  | zero => simp [octalText]
  | succ n ih =>
    intro c hc
    rw [octalText, List.mem_append, List.mem_singleton] at hc
    rcases hc with hc | rfl
    · exact ih _ c hc
    · exact (octal_digit _ (Nat.mod_lt _ (by decide))).1

theorem octalDigits_append (a : Bytes) (ha : ∀ c ∈ a, IsOct c) (b : Bytes) (us : Bool) (m : Nat) (hne : a ≠ []) :
    octalDigits (a ++ b) us m = octalDigits b true (a.foldl (fun n c => 8 * n + (c.toNat - 48)) m) := by
  induction a generalizing us m with
  | nil => exact absurd rfl hne
  | cons c a ih =>
    have hc : 48 ≤ c ∧ c < 56 := ha c (by simp)
    rw [List.cons_append, octalDigits, if_pos hc, List.foldl_cons]
    cases a with
    | nil => rfl
    | cons d a => exact ih (fun x hx => ha x (by simp [hx])) _ _ (by simp)

theorem octalText_value (n k m : Nat) :
    (octalText n k).foldl (fun n c => 8 * n + (c.toNat - 48)) m = m * 8 ^ n + k % 8 ^ n := by
  induction n generalizing k m with
  | zero => simp [octalText, Nat.mod_one]
  | succ n ih =>
    rw [octalText, List.foldl_append, ih]
    simp only [List.foldl_cons, List.foldl_nil]
    rw [(octal_digit _ (Nat.mod_lt k (by decide : 0 < 8))).2]
    have h : k % 8 ^ (n + 1) = 8 * (k / 8 % 8 ^ n) + k % 8 := by
      rw [pow_succ, mul_comm (8 ^ n) 8, Nat.mod_mul, add_comm]
    rw [h, pow_succ]
    ring

theorem dropWhile_none {p : UInt8 → Bool} {l : Bytes} (h : ∀ c ∈ l, p c = false) : l.dropWhile p = l := by
  cases l with
  | nil => rfl
  | cons c l => rw [List.dropWhile_cons, h c (by simp)]; rfl

theorem isOct_not_space {c : UInt8} (h : IsOct c) : isByteSpace c = false := by
  obtain ⟨h1, h2⟩ := h
  unfold isByteSpace
  revert h1 h2
  have : ∀ n < 256, 48 ≤ UInt8.ofNat n → UInt8.ofNat n < 56 →
      ((9 ≤ UInt8.ofNat n && UInt8.ofNat n ≤ 13) || UInt8.ofNat n == 32) = false := by decide +kernel
  have := this c.toNat c.toNat_lt
  simpa using this

theorem isOct_ne {c : UInt8} (h : IsOct c) : c ≠ 0 ∧ c ≠ 43 ∧ c ≠ 45 ∧ c ≠ 111 ∧ c ≠ 79 ∧ c ≠ 95 := by
  obtain ⟨h1, h2⟩ := h
  refine ⟨?_, ?_, ?_, ?_, ?_, ?_⟩ <;> rintro rfl <;> revert h1 h2 <;> decide

theorem octalBody_digits {a : Bytes} (ha : ∀ c ∈ a, IsOct c) (hne : a ≠ []) :
    octalNonEmpty a = true ∧ octalBody a = some (a.foldl (fun n c => 8 * n + (c.toNat - 48)) 0) := by
  have h := octalDigits_append a ha [] false 0 hne
  rw [List.append_nil] at h
  refine ⟨?_, ?_⟩
  · unfold octalNonEmpty
    split
    · have := isOct_ne (ha 111 (by simp)); simp at this
    · have := isOct_ne (ha 79 (by simp)); simp at this
    · simpa using hne
  · unfold octalBody
    split
    · have := isOct_ne (ha 111 (by simp)); simp at this
    · have := isOct_ne (ha 79 (by simp)); simp at this
    · rw [h, octalDigits]; rfl

theorem intOctal_digits {a : Bytes} (ha : ∀ c ∈ a, IsOct c) (hne : a ≠ []) :
    intOctal a = .ok (a.foldl (fun n c => 8 * n + (c.toNat - 48)) 0 : Nat) := by
  obtain ⟨h1, h2⟩ := octalBody_digits ha hne
  unfold intOctal
  rw [dropWhile_none (fun c hc => isOct_not_space (ha c hc)),
    dropWhile_none (fun c hc => isOct_not_space (ha c (List.mem_reverse.1 hc))), List.reverse_reverse]
  cases a with
  | nil => exact absurd rfl hne
  | cons c a =>
    have hc := isOct_ne (ha c (by simp))
    have e : octalSign (c :: a) = ((1 : Int), c :: a) := by
      unfold octalSign
      split
      · rename_i h; simp only [List.cons.injEq] at h; exact absurd h.1 hc.2.1
      · rename_i h; simp only [List.cons.injEq] at h; exact absurd h.1 hc.2.2.1
      · rfl
    simp only [e, h1, h2, one_mul]

theorem rstripNul_append (a : Bytes) (ha : ∀ c ∈ a, c ≠ 0) : rstripNul (a ++ [0]) = a := by
  unfold rstripNul
  rw [List.reverse_append]
  simp only [List.reverse_cons, List.reverse_nil, List.nil_append, List.singleton_append, List.dropWhile_cons,
    beq_self_eq_true, if_true]
  rw [dropWhile_none (fun c hc => by simpa using ha c (List.mem_reverse.1 hc)), List.reverse_reverse]

theorem header_size {h : Bytes} {size : Nat} (hh : IsHeader h size) (hs : size < 8 ^ 11) :
    intOctal (rstripNul ((h.drop 124).take 12)) = .ok (size : Int) := by
  rw [hh.size, rstripNul_append _ (fun c hc => (isOct_ne (octalText_digits _ _ c hc)).1),
    intOctal_digits (octalText_digits _ _) (by
      rw [← List.length_pos_iff, octalText_length]; decide),
    octalText_value, zero_mul, zero_add, Nat.mod_eq_of_lt hs]

theorem header_ne_empty {h : Bytes} {size : Nat} (hh : IsHeader h size) : h ≠ [] ∧ h ≠ emptyBlock := by
  constructor
  · rintro rfl; have := hh.length; simp at this
  · rintro rfl
    have := hh.magic
    revert this
    decide +kernel

/-- One entry with `size` bytes announced. -/
theorem filterTar_header {h : Bytes} {size : Nat} (hh : IsHeader h size) (hs : size < 8 ^ 11) (rest : Bytes)
    (pos : Nat) (hp : 512 ∣ pos) :
    filterTar (h ++ rest) pos =
      if 0 < size then
        let r := filterTar ((rest.drop size).drop (tarPad size)) (pos + 512 + size + tarPad size)
        ⟨rest.take size :: r.items, r.error⟩
      else filterTar rest (pos + 512) := by
  have e1 : (h ++ rest).take 512 = h := by rw [← hh.length, List.take_left]
  have e2 : (h ++ rest).drop 512 = rest := by rw [← hh.length, List.drop_left]
  have e3 : ∀ n, tarPad (pos + 512 + n) = tarPad n := by
    intro n
    obtain ⟨m, rfl⟩ := hp
    unfold tarPad
    rw [show 512 * m + 512 + n = n + 512 * (m + 1) by ring, Nat.add_mul_mod_self_left]
  rw [filterTar]
  rw [e1, e2, dif_neg (not_or.2 (header_ne_empty hh)), if_neg (by rw [hh.magic]; simp [tarMagic]),
    header_size hh hs]
  simp only [Int.toNat_natCast, e3]
  have e4 : tarPad (pos + 512) = 0 := by have := e3 0; simpa [tarPad] using this
  rw [e4]
  by_cases h0 : 0 < size
  · simp [h0]
  · simp [h0]

theorem tarPad_eq {n m : Nat} (h1 : m < 512) (h2 : 512 ∣ n + m) : tarPad n = m := by
  unfold tarPad
  split <;> omega

theorem filterTar_entry {e : TarEntry} (he : e.Ok) (rest : Bytes) (pos : Nat) (hp : 512 ∣ pos) :
    ∃ pos', 512 ∣ pos' ∧ filterTar (e.header ++ e.content ++ e.padding ++ rest) pos =
      ⟨(if e.content = [] then [] else [e.content]) ++ (filterTar rest pos').items, (filterTar rest pos').error⟩ := by
  have hpad := tarPad_eq he.padding.1 he.padding.2
  rw [List.append_assoc, List.append_assoc, filterTar_header he.header he.small _ _ hp]
  by_cases h0 : 0 < e.content.length
  · rw [if_pos h0]
    have hc : e.content ≠ [] := List.length_pos_iff.1 h0
    refine ⟨pos + 512 + e.content.length + e.padding.length, ?_, ?_⟩
    · have := he.padding.2; omega
    · simp only [hpad, List.take_left, List.drop_left, if_neg hc]
      rfl
  · rw [if_neg h0]
    have hc : e.content = [] := List.length_eq_zero_iff.1 (by omega)
    have hq : e.padding = [] := by
      rw [hc] at hpad
      exact List.length_eq_zero_iff.1 (by rw [← hpad]; rfl)
    exact ⟨pos + 512, by omega, by simp [hc, hq]⟩

/-- What is read from an archive is what its entries contain, then whatever the rest gives. -/
theorem filterTar_archive (es : List TarEntry) (hes : ∀ e ∈ es, e.Ok) (rest : Bytes) (pos : Nat) (hp : 512 ∣ pos) :
    ∃ pos', 512 ∣ pos' ∧ filterTar (archive es ++ rest) pos =
      ⟨(es.map TarEntry.content).filter (fun c => decide (c ≠ [])) ++ (filterTar rest pos').items,
        (filterTar rest pos').error⟩ := by
  induction es generalizing pos with
  | nil => exact ⟨pos, hp, by simp [archive]⟩
  | cons e es ih =>
    obtain ⟨p1, h1, h2⟩ := filterTar_entry (hes e (by simp)) (archive es ++ rest) pos hp
    obtain ⟨p2, h3, h4⟩ := ih (fun x hx => hes x (by simp [hx])) p1 h1
    refine ⟨p2, h3, ?_⟩
    have e1 : archive (e :: es) ++ rest = e.header ++ e.content ++ e.padding ++ (archive es ++ rest) := by
      simp [archive]
    rw [e1, h2, h4, List.map_cons, List.filter_cons]
    by_cases hc : e.content = [] <;> simp [hc]

theorem filterTar_nil (pos : Nat) : filterTar [] pos = ⟨[], none⟩ := by
  rw [filterTar, dif_pos (by simp)]

theorem filterTar_zero (rest : Bytes) (pos : Nat) : filterTar (emptyBlock ++ rest) pos = ⟨[], none⟩ := by
  have : (emptyBlock ++ rest).take 512 = emptyBlock := by
    have h : emptyBlock.length = 512 := List.length_replicate
    rw [← h, List.take_left]
  rw [filterTar, dif_pos (.inr this)]

/-! ### brotli -/

section Brotli
variable {σ : Type} {D : Decompressor σ} {Good : σ → Bytes → Bytes → Prop}

theorem fill_intact (hI : Intact D Good) {chunk : Nat} (hc : 0 < chunk) (num : Option Nat) (fuel : Nat)
    (s : BrotliFile σ) (out : Bytes) (hg : Good s.decompressor s.fd out) (hfuel : s.fd.length < fuel) :
    ∃ s' out', s.fill D chunk num fuel = some s' ∧ Good s'.decompressor s'.fd out' ∧
      s.buf ++ out = s'.buf ++ out' ∧ s'.fd.length ≤ s.fd.length ∧
      (out' = [] ∨ ∃ n, num = some n ∧ n ≤ s'.buf.length) := by
  induction fuel generalizing s out with
  | zero => omega
  | succ fuel ih =>
    rw [BrotliFile.fill]
    by_cases hf : D.isFinished s.decompressor = true
    · rw [if_pos hf]
      exact ⟨s, out, rfl, hg, rfl, le_refl _, .inl (hI.finished _ _ _ hg hf)⟩
    · rw [if_neg hf]
      rw [Bool.not_eq_true] at hf
      by_cases hn : num.any (fun n => decide (n ≤ s.buf.length)) = true
      · rw [if_pos hn]
        refine ⟨s, out, rfl, hg, rfl, le_refl _, .inr ?_⟩
        rw [Option.any_eq_true] at hn
        obtain ⟨n, h1, h2⟩ := hn
        exact ⟨n, h1, by simpa using h2⟩
      · rw [if_neg hn]
        obtain ⟨out', h1, h2⟩ := hI.step _ chunk _ _ hg hf hc
        have hin := List.length_pos_iff.2 (hI.input _ _ _ hg hf)
        obtain ⟨s', out'', k1, k2, k3, k4, k5⟩ := ih
          ⟨(D.process s.decompressor (s.fd.take chunk)).1, s.fd.drop chunk,
            s.buf ++ (D.process s.decompressor (s.fd.take chunk)).2⟩ out' h2 (by
              simp only [List.length_drop]; omega)
        refine ⟨s', out'', k1, k2, ?_, ?_, k5⟩
        · rw [← k3, h1, List.append_assoc]
        · simp only [List.length_drop] at k4; omega

theorem read_intact (hI : Intact D Good) {chunk : Nat} (hc : 0 < chunk) (fuel : Nat) (num : Option Nat)
    (s : BrotliFile σ) (out : Bytes) (hg : Good s.decompressor s.fd out) (hfuel : s.fd.length < fuel) :
    ∃ b s' out', s.read D chunk fuel num = some (b, s') ∧ Good s'.decompressor s'.fd out' ∧
      s'.fd.length < fuel ∧
      b = (match num with
        | some n => (s.buf ++ out).take n
        | none => s.buf ++ out) ∧
      s'.buf ++ out' = (match num with
        | some n => (s.buf ++ out).drop n
        | none => []) := by
  obtain ⟨s', out', h1, h2, h3, h4, h5⟩ := fill_intact hI hc num fuel s out hg hfuel
  unfold BrotliFile.read
  rw [h1]
  cases num with
  | none =>
    have h0 : out' = [] := h5.resolve_right (by simp)
    subst h0
    exact ⟨_, _, [], rfl, h2, by simp only; omega, by simp [h3], rfl⟩
  | some n =>
    refine ⟨_, _, out', rfl, h2, by simp only; omega, ?_, ?_⟩
    · simp only [h3]
      rcases h5 with rfl | ⟨m, h6, h7⟩
      · simp
      · simp only [Option.some.injEq] at h6; subst h6
        rw [List.take_append_of_le_length h7]
    · simp only [h3]
      rcases h5 with rfl | ⟨m, h6, h7⟩
      · simp
      · simp only [Option.some.injEq] at h6; subst h6
        rw [List.drop_append_of_le_length h7]

theorem reads_intact (hI : Intact D Good) {chunk : Nat} (hc : 0 < chunk) (fuel : Nat) (ops : List (Option Nat))
    (s : BrotliFile σ) (out : Bytes) (hg : Good s.decompressor s.fd out) (hfuel : s.fd.length < fuel) :
    ∃ s', s.reads D chunk fuel ops = some (plainReads (s.buf ++ out) ops, s') := by
  induction ops generalizing s out with
  | nil => exact ⟨s, rfl⟩
  | cons num ops ih =>
    obtain ⟨b, s1, out1, h1, h2, h3, h4, h5⟩ := read_intact hI hc fuel num s out hg hfuel
    obtain ⟨s2, h6⟩ := ih s1 out1 h2 h3
    refine ⟨s2, ?_⟩
    rw [BrotliFile.reads, h1]
    simp only [h6, h5, h4]
    cases num <;> simp [plainReads]

theorem fill_truncated (hT : Truncated D Good) {chunk : Nat} (hc : 0 < chunk) (num : Option Nat) (fuel : Nat)
    (s : BrotliFile σ) (out : Bytes) (hg : Good s.decompressor s.fd out)
    (hn : ∀ n, num = some n → s.buf.length + out.length < n) : s.fill D chunk num fuel = none := by
  induction fuel generalizing s out with
  | zero => rfl
  | succ fuel ih =>
    rw [BrotliFile.fill, if_neg (by rw [hT.unfinished _ _ _ hg]; simp), if_neg (by
      rw [Option.any_eq_true]
      rintro ⟨n, h1, h2⟩
      have := hn n h1
      simp at h2
      omega)]
    obtain ⟨out', h1, h2⟩ := hT.step _ chunk _ _ hg hc
    refine ih _ out' h2 fun n h => ?_
    have := hn n h
    have := congrArg List.length h1
    simp only [List.length_append] at this ⊢
    omega

theorem fill_truncated_ok (hT : Truncated D Good) {chunk : Nat} (hc : 0 < chunk) (n : Nat) (fuel : Nat)
    (s : BrotliFile σ) (out : Bytes) (hg : Good s.decompressor s.fd out) (hfuel : s.fd.length < fuel)
    (hn : n ≤ s.buf.length + out.length) :
    ∃ s' out', s.fill D chunk (some n) fuel = some s' ∧ s.buf ++ out = s'.buf ++ out' ∧ n ≤ s'.buf.length := by
  induction fuel generalizing s out with
  | zero => omega
  | succ fuel ih =>
    rw [BrotliFile.fill, if_neg (by rw [hT.unfinished _ _ _ hg]; simp)]
    by_cases h : (some n).any (fun n => decide (n ≤ s.buf.length)) = true
    · rw [if_pos h]
      exact ⟨s, out, rfl, rfl, by simpa using h⟩
    · rw [if_neg h]
      obtain ⟨out', h1, h2⟩ := hT.step _ chunk _ _ hg hc
      have hin : 0 < s.fd.length := by
        rw [List.length_pos_iff]
        intro h0
        rw [h0] at hg
        have := hT.idle _ _ hg
        subst this
        simp at h hn
        omega
      obtain ⟨s', out'', k1, k2, k3⟩ := ih
        ⟨(D.process s.decompressor (s.fd.take chunk)).1, s.fd.drop chunk,
          s.buf ++ (D.process s.decompressor (s.fd.take chunk)).2⟩ out' h2
        (by simp only [List.length_drop]; omega) (by
        have := congrArg List.length h1
        simp only [List.length_append] at this ⊢
        omega)
      exact ⟨s', out'', k1, by rw [← k2, h1, List.append_assoc], k3⟩

end Brotli

end Lulua

namespace Lulua
open Spec

theorem notNestedAll_of_none {f : Text → Attrs → Bool} (ns : List HNode)
    (h : NoElementAll (fun n a => f n a = true) ns) : NotNestedAll f ns := by
  match ns with
  | [] => trivial
  | .text d :: ns => rw [NoElementAll] at h; rw [NotNestedAll]; exact ⟨by rw [NotNested]; trivial, notNestedAll_of_none ns h.2⟩
  | .space d :: ns => rw [NoElementAll] at h; rw [NotNestedAll]; exact ⟨by rw [NotNested]; trivial, notNestedAll_of_none ns h.2⟩
  | .comment d :: ns => rw [NoElementAll] at h; rw [NotNestedAll]; exact ⟨by rw [NotNested]; trivial, notNestedAll_of_none ns h.2⟩
  | .void n a :: ns => rw [NoElementAll] at h; rw [NotNestedAll]; exact ⟨by rw [NotNested]; trivial, notNestedAll_of_none ns h.2⟩
  | .element n a cs :: ns =>
    rw [NoElementAll, NoElement] at h
    rw [NotNestedAll, NotNested]
    exact ⟨⟨fun hf => absurd hf h.1.1, notNestedAll_of_none cs h.1.2⟩, notNestedAll_of_none ns h.2⟩

end Lulua
