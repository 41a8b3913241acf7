import Verif.Spec.Xml
import Mathlib.Tactic

/-!
# Reading what `serializeXml` writes
-/

namespace Lulua
open Spec

theorem replaceChar_append (c : Char) (r a b : Text) : replaceChar c r (a ++ b) = replaceChar c r a ++ replaceChar c r b := by
  unfold replaceChar; rw [List.flatMap_append]

theorem escapeAttrib_append (a b : Text) : escapeAttrib (a ++ b) = escapeAttrib a ++ escapeAttrib b := by
  simp only [escapeAttrib, replaceChar_append]

theorem escapeAttrib_cons (c : Char) (t : Text) : escapeAttrib (c :: t) = escapeAttrib [c] ++ escapeAttrib t :=
  escapeAttrib_append [c] t

theorem escapeAttrib_nil : escapeAttrib [] = [] := rfl

theorem escapeAttrib_plain {c : Char} (h : c ∉ ['&', '<', '>', '"', '\r', '\n', '\t']) : escapeAttrib [c] = [c] := by
  simp only [List.mem_cons, List.not_mem_nil, or_false, not_or] at h
  simp [escapeAttrib, replaceChar, h]

/-- Reading an escaped character. -/
theorem xmlValue_escape (c : Char) (s : Text) :
    xmlValue none (escapeAttrib [c] ++ s) = if XmlChar c then (xmlValue none s).map fun p => (c :: p.1, p.2) else none := by
  by_cases h : c ∈ ['&', '<', '>', '"', '\r', '\n', '\t']
  · simp only [List.mem_cons, List.not_mem_nil, or_false] at h
    rcases h with rfl | rfl | rfl | rfl | rfl | rfl | rfl
    · rw [show escapeAttrib ['&'] = ['&', 'a', 'm', 'p', ';'] by decide +kernel, if_pos (by decide)]
      have : xmlReference ['a', 'm', 'p'] = some '&' := by decide +kernel
      simp [xmlValue, this]
    · rw [show escapeAttrib ['<'] = ['&', 'l', 't', ';'] by decide +kernel, if_pos (by decide)]
      have : xmlReference ['l', 't'] = some '<' := by decide +kernel
      simp [xmlValue, this]
    · rw [show escapeAttrib ['>'] = ['&', 'g', 't', ';'] by decide +kernel, if_pos (by decide)]
      have : xmlReference ['g', 't'] = some '>' := by decide +kernel
      simp [xmlValue, this]
    · rw [show escapeAttrib ['"'] = ['&', 'q', 'u', 'o', 't', ';'] by decide +kernel, if_pos (by decide)]
      have : xmlReference ['q', 'u', 'o', 't'] = some '"' := by decide +kernel
      simp [xmlValue, this]
    · rw [show escapeAttrib ['\r'] = ['&', '#', '1', '3', ';'] by decide +kernel, if_pos (by decide)]
      have : xmlReference ['#', '1', '3'] = some '\r' := by decide +kernel
      simp [xmlValue, this]
    · rw [show escapeAttrib ['\n'] = ['&', '#', '1', '0', ';'] by decide +kernel, if_pos (by decide)]
      have : xmlReference ['#', '1', '0'] = some '\n' := by decide +kernel
      simp [xmlValue, this]
    · rw [show escapeAttrib ['\t'] = ['&', '#', '0', '9', ';'] by decide +kernel, if_pos (by decide)]
      have : xmlReference ['#', '0', '9'] = some '\t' := by decide +kernel
      simp [xmlValue, this]
  · rw [escapeAttrib_plain h]
    simp only [List.mem_cons, List.not_mem_nil, or_false, not_or] at h
    obtain ⟨h1, h2, h3, h4, h5, h6, h7⟩ := h
    rw [List.singleton_append, xmlValue, if_neg h4, if_neg h2, if_neg h1]
    by_cases hs : c = ' '
    · subst hs
      rw [if_pos (by decide), if_pos (by decide)]
    · rw [if_neg (by simp [xmlSpace, hs, h5, h6, h7])]

/-- Reading an attribute value. -/
theorem xmlValue_attrib (t r : Text) :
    xmlValue none (escapeAttrib t ++ '"' :: r) = if XmlText t then some (t, r) else none := by
  induction t with
  | nil => rw [if_pos (by simp [XmlText]), escapeAttrib_nil]; simp [xmlValue]
  | cons c t ih =>
    rw [escapeAttrib_cons, List.append_assoc, xmlValue_escape, ih]
    by_cases h1 : XmlChar c
    · by_cases h2 : XmlText t
      · rw [if_pos h1, if_pos h2, if_pos (show XmlText (c :: t) from List.forall_mem_cons.2 ⟨h1, h2⟩)]
        rfl
      · rw [if_pos h1, if_neg h2, if_neg fun h : XmlText (c :: t) => h2 (List.forall_mem_cons.1 h).2]
        rfl
    · rw [if_neg h1, if_neg fun h : XmlText (c :: t) => h1 (List.forall_mem_cons.1 h).1]

theorem xmlName_append {name : Text} (h : XmlName name) {c : Char} (hc : xmlNameChar c = false) (r : Text) :
    xmlName (name ++ c :: r) = some (name, c :: r) := by
  obtain ⟨⟨d, t, rfl, hd⟩, h2⟩ := h
  rw [xmlName.eq_def]
  simp only [List.cons_append, hd, if_true]
  rw [← List.cons_append, List.takeWhile_append_of_pos h2, List.dropWhile_append_of_pos h2]
  simp [hc]

theorem xmlNameStart_facts {c : Char} (h : xmlNameStart c = true) : xmlSpace c = false ∧ c ≠ '/' ∧ c ≠ '>' := by
  refine ⟨?_, ?_, ?_⟩
  · by_contra hs
    simp only [xmlSpace, Bool.not_eq_false, Bool.or_eq_true, decide_eq_true_eq] at hs
    rcases hs with ((rfl | rfl) | rfl) | rfl <;> revert h <;> decide
  · rintro rfl; revert h; decide
  · rintro rfl; revert h; decide

/-- What `xmlAttribs` gives if it gives anything. -/
def attribsEnd : Bool → Text
  | true => [' ', '/', '>']
  | false => ['>']

theorem xmlAttribs_serialize (b : Bool) (r : Text) : ∀ (attribs : List (Text × Text)), (∀ p ∈ attribs, XmlName p.1) → ∀ n,
    xmlAttribs n (attribs.flatMap serializeAttrib ++ (attribsEnd b ++ r)) =
      if attribs.length < n ∧ ∀ p ∈ attribs, XmlText p.2 then some (attribs, b, r) else none
  | [], _, n => by
    cases n with
    | zero => simp [xmlAttribs]
    | succ n => cases b <;> simp [xmlAttribs, attribsEnd, xmlSpace]
  | p :: ps, h, n => by
    cases n with
    | zero => simp [xmlAttribs]
    | succ n =>
      have hp := h p List.mem_cons_self
      have ih := xmlAttribs_serialize b r ps (fun q hq => h q (List.mem_cons_of_mem _ hq)) n
      obtain ⟨⟨d, t, hd, hs⟩, h2⟩ := id hp
      obtain ⟨f1, f2, f3⟩ := xmlNameStart_facts hs
      generalize hrest : ps.flatMap serializeAttrib ++ (attribsEnd b ++ r) = rest at ih
      have e1 : (p :: ps).flatMap serializeAttrib ++ (attribsEnd b ++ r) =
          ' ' :: (p.1 ++ '=' :: ('"' :: (escapeAttrib p.2 ++ '"' :: rest))) := by
        rw [← hrest, List.flatMap_cons]
        simp [serializeAttrib]
      have e2 : (' ' :: (p.1 ++ '=' :: ('"' :: (escapeAttrib p.2 ++ '"' :: rest)))).dropWhile xmlSpace =
          p.1 ++ '=' :: ('"' :: (escapeAttrib p.2 ++ '"' :: rest)) := by
        rw [hd]
        simp [List.dropWhile, f1, show xmlSpace ' ' = true from rfl]
      have e3 : xmlName (p.1 ++ '=' :: ('"' :: (escapeAttrib p.2 ++ '"' :: rest))) =
          some (p.1, '=' :: ('"' :: (escapeAttrib p.2 ++ '"' :: rest))) := xmlName_append hp (by decide) _
      rw [e1, xmlAttribs.eq_def]
      simp only [e2]
      split
      · rename_i heq
        rw [hd] at heq
        exact absurd (List.cons.inj heq).1 f2
      · rename_i heq
        rw [hd] at heq
        exact absurd (List.cons.inj heq).1 f3
      · rw [if_neg (by intro he; have := congrArg List.length he; simp at this), e3]
        simp only [xmlValue_attrib]
        by_cases hv : XmlText p.2
        · rw [if_pos hv]
          simp only [ih]
          by_cases hc : ps.length < n ∧ ∀ p ∈ ps, XmlText p.2
          · rw [if_pos hc, if_pos ⟨by simpa using hc.1, by simpa [hv] using hc.2⟩]
            rfl
          · rw [if_neg hc, if_neg (by
              rintro ⟨g1, g2⟩
              exact hc ⟨by simpa using g1, fun q hq => g2 q (List.mem_cons_of_mem _ hq)⟩)]
            rfl
        · rw [if_neg hv, if_neg (fun g => hv (g.2 p List.mem_cons_self))]

mutual
  /-- How much fuel reading an element takes. -/
  def Xml.need : Xml → Nat
    | .elem _ attribs children => 1 + max (attribs.length + 1) (if children.isEmpty then 0 else Xml.needAll children)
  def Xml.needAll : List Xml → Nat
    | [] => 1
    | e :: es => 1 + max (Xml.need e) (Xml.needAll es)
end

mutual
  theorem xmlElement_serialize : ∀ (e : Xml), Xml.Named e → ∀ n r,
      xmlElement n (serializeXml e ++ r) = if e.need ≤ n ∧ ∀ v ∈ Xml.values e, XmlText v then some (e, r) else none
    | .elem tag attribs children, h, n, r => by
      obtain ⟨h1, h2, h3, h4⟩ := h
      obtain ⟨⟨d, t, hd, hs⟩, hcs⟩ := id h1
      cases n with
      | zero => simp [xmlElement, Xml.need]
      | succ n =>
        by_cases hch : children = []
        · subst hch
          have e1 : serializeXml (.elem tag attribs []) ++ r =
              '<' :: (tag ++ (attribs.flatMap serializeAttrib ++ (attribsEnd true ++ r))) := by
            simp [serializeXml, attribsEnd]
          have e2 : xmlName (tag ++ (attribs.flatMap serializeAttrib ++ (attribsEnd true ++ r))) =
              some (tag, attribs.flatMap serializeAttrib ++ (attribsEnd true ++ r)) := by
            cases attribs with
            | nil => exact xmlName_append h1 (c := ' ') (by decide) _
            | cons p ps =>
              simp only [List.flatMap_cons, serializeAttrib, List.cons_append]
              exact xmlName_append h1 (c := ' ') (by decide) _
          rw [e1, xmlElement]
          simp only [e2, xmlAttribs_serialize true r attribs h2 n]
          have e3 : (Xml.elem tag attribs []).need = attribs.length + 2 := by simp [Xml.need]; omega
          have e4 : Xml.values (.elem tag attribs []) = attribs.map Prod.snd := by simp [Xml.values, Xml.allValues]
          rw [e3, e4]
          by_cases hc : attribs.length < n ∧ ∀ p ∈ attribs, XmlText p.2
          · rw [if_pos hc, if_pos ⟨by omega, by simpa using fun v x hx => hc.2 (x, v) hx⟩]
            simp [h3]
          · rw [if_neg hc, if_neg (by
              rintro ⟨g1, g2⟩
              exact hc ⟨by omega, fun p hp => g2 _ (List.mem_map_of_mem hp)⟩)]
        · have e1 : serializeXml (.elem tag attribs children) ++ r = '<' :: (tag ++ (attribs.flatMap serializeAttrib ++
              (attribsEnd false ++ (serializeAll children ++ ('<' :: '/' :: (tag ++ '>' :: r)))))) := by
            simp [serializeXml, attribsEnd, hch]
          generalize hrest : serializeAll children ++ ('<' :: '/' :: (tag ++ '>' :: r)) = rest at e1
          have e2 : xmlName (tag ++ (attribs.flatMap serializeAttrib ++ (attribsEnd false ++ rest))) =
              some (tag, attribs.flatMap serializeAttrib ++ (attribsEnd false ++ rest)) := by
            cases attribs with
            | nil => exact xmlName_append h1 (c := '>') (by decide) _
            | cons p ps =>
              simp only [List.flatMap_cons, serializeAttrib, List.cons_append]
              exact xmlName_append h1 (c := ' ') (by decide) _
          rw [e1, xmlElement]
          simp only [e2, xmlAttribs_serialize false rest attribs h2 n]
          have e3 : (Xml.elem tag attribs children).need = 1 + max (attribs.length + 1) (Xml.needAll children) := by
            simp [Xml.need, hch]
          have e5 : xmlName (tag ++ '>' :: r) = some (tag, '>' :: r) := xmlName_append h1 (by decide) _
          rw [e3]
          by_cases hc : attribs.length < n ∧ ∀ p ∈ attribs, XmlText p.2
          · rw [if_pos hc]
            simp only [h3, if_true, Bool.false_eq_true, if_false, ← hrest, xmlContent_serialize children h4 n]
            by_cases hk : Xml.needAll children ≤ n ∧ ∀ v ∈ Xml.allValues children, XmlText v
            · rw [if_pos hk, if_pos ⟨by omega, by
                intro v hv
                rcases List.mem_append.1 (by simpa only [Xml.values] using hv) with hv | hv
                · obtain ⟨p, hp, rfl⟩ := List.mem_map.1 hv
                  exact hc.2 p hp
                · exact hk.2 v hv⟩]
              simp [e5, xmlSpace]
            · rw [if_neg hk, if_neg (by
                rintro ⟨g1, g2⟩
                exact hk ⟨by omega, fun v hv => g2 v (by rw [Xml.values]; exact List.mem_append_right _ hv)⟩)]
          · rw [if_neg hc, if_neg (by
              rintro ⟨g1, g2⟩
              exact hc ⟨by omega, fun p hp => g2 _ (by
                rw [Xml.values]; exact List.mem_append_left _ (List.mem_map_of_mem hp))⟩)]
  theorem xmlContent_serialize : ∀ (es : List Xml), Xml.AllNamed es → ∀ n r,
      xmlContent n (serializeAll es ++ ('<' :: '/' :: r)) =
        if Xml.needAll es ≤ n ∧ ∀ v ∈ Xml.allValues es, XmlText v then some (es, r) else none
    | [], _, n, r => by
      cases n with
      | zero => simp [xmlContent, Xml.needAll]
      | succ n => simp [xmlContent, Xml.needAll, serializeAll, Xml.allValues]
    | e :: es, h, n, r => by
      obtain ⟨h1, h2⟩ := h
      cases n with
      | zero => simp [xmlContent, Xml.needAll]
      | succ n =>
        have e1 : serializeAll (e :: es) ++ ('<' :: '/' :: r) = serializeXml e ++ (serializeAll es ++ ('<' :: '/' :: r)) := by
          simp [serializeAll]
        have ih := xmlContent_serialize es h2 n r
        have ie := xmlElement_serialize e h1 n (serializeAll es ++ ('<' :: '/' :: r))
        obtain ⟨c, s, hs, hc⟩ : ∃ c s, serializeXml e ++ (serializeAll es ++ ('<' :: '/' :: r)) = '<' :: c :: s ∧ c ≠ '/' := by
          obtain ⟨tag, attribs, children⟩ := e
          obtain ⟨⟨⟨d, t, rfl, hd⟩, _⟩, _⟩ := h1
          exact ⟨d, _, by simp only [serializeXml, List.cons_append]; rfl, (xmlNameStart_facts hd).2.1⟩
        rw [e1, xmlContent.eq_def]
        have e2 : Xml.needAll (e :: es) = 1 + max e.need (Xml.needAll es) := by rw [Xml.needAll]
        have e3 : ∀ v, v ∈ Xml.allValues (e :: es) ↔ v ∈ Xml.values e ∨ v ∈ Xml.allValues es := by
          intro v; rw [Xml.allValues, List.mem_append]
        dsimp only
        split
        · rename_i heq
          rw [hs] at heq
          exact absurd (List.cons.inj (List.cons.inj heq).2).1 hc
        · rw [ie]
          by_cases hk : e.need ≤ n ∧ ∀ v ∈ Xml.values e, XmlText v
          · rw [if_pos hk]
            simp only [ih]
            by_cases hj : Xml.needAll es ≤ n ∧ ∀ v ∈ Xml.allValues es, XmlText v
            · rw [if_pos hj, if_pos ⟨by omega, fun v hv => ((e3 v).1 hv).elim (hk.2 v) (hj.2 v)⟩]
              rfl
            · rw [if_neg hj, if_neg (by
                rintro ⟨g1, g2⟩
                exact hj ⟨by omega, fun v hv => g2 v ((e3 v).2 (.inr hv))⟩)]
              rfl
          · rw [if_neg hk, if_neg (by
              rintro ⟨g1, g2⟩
              exact hk ⟨by omega, fun v hv => g2 v ((e3 v).2 (.inl hv))⟩)]
end

end Lulua
