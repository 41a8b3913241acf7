import Verif.Spec.Dump
import Verif.Props.Argparse
import Verif.Props.Mediawiki

/-!
# C138: `lulua-extract-mediawiki` as a whole
-/

namespace Lulua.Props
open Lulua Spec

theorem addText_nil (st : OpenElems) : addText [] st = st := by
  cases st <;> simp [addText]

theorem addText_addText (a b : Text) (st : OpenElems) : addText b (addText a st) = addText (a ++ b) st := by
  cases st <;> simp [addText]

theorem stream_node (n : XNode) : ∀ (st : OpenElems) (es : List XEvent),
    streamTexts st (nodeEvents n ++ es) = n.mwTexts ++ streamTexts (addText n.itertext st) es := by
  induction n using XNode.rec (motive_2 := fun ns => ∀ (st : OpenElems) (es : List XEvent),
    streamTexts st (docEvents ns ++ es) = mwTextsAll ns ++ streamTexts (addText (itertextAll ns) st) es) with
  | text d => intro st es; simp [nodeEvents, streamTexts, XNode.mwTexts, XNode.itertext]
  | other => intro st es; simp [nodeEvents, XNode.mwTexts, XNode.itertext, addText_nil]
  | element m cs ih =>
    intro st es
    rw [nodeEvents, List.cons_append, List.append_assoc, streamTexts, ih]
    simp only [addText, List.nil_append, List.singleton_append, streamTexts, XNode.mwTexts, XNode.itertext]
    split_ifs <;> simp
  | nil => rename_i st es; simp [docEvents, mwTextsAll, itertextAll, addText_nil]
  | cons n ns h1 h2 =>
    rename_i st es
    rw [docEvents, List.append_assoc, h1, h2, mwTextsAll, itertextAll, addText_addText, List.append_assoc]

theorem stream_doc (ns : List XNode) (st : OpenElems) (es : List XEvent) :
    streamTexts st (docEvents ns ++ es) = mwTextsAll ns ++ streamTexts (addText (itertextAll ns) st) es := by
  induction ns generalizing st with
  | nil => simp [docEvents, mwTextsAll, itertextAll, addText_nil]
  | cons n ns ih => rw [docEvents, List.append_assoc, stream_node, ih, mwTextsAll, itertextAll, addText_addText, List.append_assoc]

theorem mwTextsAll_append (a b : List XNode) : mwTextsAll (a ++ b) = mwTextsAll a ++ mwTextsAll b := by
  induction a with
  | nil => rfl
  | cons n a ih => simp [mwTextsAll, ih]

theorem stream_opened (xs : List (Text × List XNode)) (st : OpenElems) :
    streamTexts st (xs.flatMap fun x => .start x.1 :: docEvents x.2) = mwTextsAll (xs.flatMap Prod.snd) := by
  induction xs generalizing st with
  | nil => simp [streamTexts, mwTextsAll]
  | cons x xs ih => rw [List.flatMap_cons, List.cons_append, streamTexts, stream_doc, ih, List.flatMap_cons, mwTextsAll_append]

theorem stream_prefix (a b : List XEvent) (st : OpenElems) : streamTexts st a <+: streamTexts st (a ++ b) := by
  induction a generalizing st with
  | nil => simp [streamTexts]
  | cons e a ih =>
    cases e with
    | start n => simpa [streamTexts] using ih _
    | data d => simpa [streamTexts] using ih _
    | stop =>
      cases st with
      | nil => simpa [streamTexts] using ih _
      | cons x st =>
        simp only [List.cons_append, streamTexts]
        split_ifs
        · exact List.prefix_cons_inj _ |>.2 (ih _)
        · exact ih _

theorem extract_eq (w : ExtractWorld) {f : Text} (hf : PlainWord f) : extractMain w [f] = .ok (match w.dump f with
    | none => ([], .error .fileNotFound)
    | some (es, r) => ((streamTexts [] es).flatMap fun t => jsonDump t ++ ['\n'], r)) := by
  obtain ⟨ns, h1, h2⟩ := (C127_files w.args f hf).2
  have h3 : ns.get? "file" = some (.text f) := (h2 _ _).2 (by simp)
  simp only [extractMain, h1, h3, bind, Except.bind]
  cases w.dump f <;> rfl

/-- What is written is read back by the filter `json` of `lulua-write`. -/
theorem lines_read (other : Text → Py Text) (ts : List Text) :
    Gen.flatMap (filterJson other) (stdinLines (ts.flatMap fun t => jsonDump t ++ ['\n'])) none = .ofList ts := by
  have e : mwTextsAll (ts.map fun t => .element mwTag [.text t]) = ts := by
    induction ts with
    | nil => rfl
    | cons t ts ih => simp [mwTextsAll, XNode.mwTexts, itertextAll, XNode.itertext, ih]
  have h := C100_roundtrip other (ts.map fun t => .element mwTag [.text t])
  rw [extractMediawiki, e] at h
  exact h

/-- **C138** (partial: texts of the one version of the format): of a complete dump the program writes lines from which `lulua-write … json`
reads the texts of all elements looked for, and nothing else. -/
theorem C138_complete_partial (w : ExtractWorld) (other : Text → Py Text) (f : Text) (hf : PlainWord f) (doc : List XNode)
    (h : w.dump f = some (docEvents doc, .ok ())) :
    ∃ out ts, extractMain w [f] = .ok (out, .ok ()) ∧ out = extractMediawiki doc ∧ Gen.flatMap (filterJson other) (stdinLines out) none = .ofList ts ∧
      ∀ t, t ∈ ts ↔ ∃ cs, Occurs (.element mwTag cs) doc ∧ t = itertextAll cs := by
  have e : streamTexts [] (docEvents doc) = mwTextsAll doc := by
    have := stream_doc doc [] []
    simpa [streamTexts] using this
  refine ⟨_, mwTextsAll doc, by rw [extract_eq w hf, h], by rw [e]; rfl, ?_, C100_texts doc⟩
  rw [e]
  exact lines_read other _

/-- **C138** (a dump that breaks off): the error is reported, and the texts of exactly the complete elements are written, each of them
whole. -/
theorem C138_broken_partial (w : ExtractWorld) (other : Text → Py Text) (f : Text) (hf : PlainWord f) (b : Broken) (e : PyErr)
    (h : w.dump f = some (b.events, .error e)) :
    ∃ out ts, extractMain w [f] = .ok (out, .error e) ∧ Gen.flatMap (filterJson other) (stdinLines out) none = .ofList ts ∧
      ∀ t, t ∈ ts ↔ ∃ cs, Occurs (.element mwTag cs) b.complete ∧ t = itertextAll cs := by
  refine ⟨_, mwTextsAll b.complete, by rw [extract_eq w hf, h], ?_, C100_texts _⟩
  have e : streamTexts [] b.events = mwTextsAll b.complete := by
    rw [Broken.events, Broken.complete, stream_doc, stream_opened, mwTextsAll_append]
  rw [e]
  exact lines_read other _

/-- **C138** (wherever it breaks off): what is written of the beginning of a dump is the beginning of what is written of the whole. -/
theorem C138_prefix (w : ExtractWorld) (f g : Text) (hf : PlainWord f) (hg : PlainWord g) (es rest : List XEvent) (r r' : Py Unit)
    (h : w.dump f = some (es, r)) (h' : w.dump g = some (es ++ rest, r')) :
    ∃ out more, extractMain w [f] = .ok (out, r) ∧ extractMain w [g] = .ok (out ++ more, r') := by
  obtain ⟨ts, hts⟩ := stream_prefix es rest []
  refine ⟨_, ts.flatMap fun t => jsonDump t ++ ['\n'], by rw [extract_eq w hf, h], ?_⟩
  rw [extract_eq w hg, h']
  dsimp only
  rw [← hts, List.flatMap_append]

/-- **C138** is false: of dumps of any other version nothing is written, and the program ends without an error. -/
theorem C138_false (w : ExtractWorld) (f : Text) (hf : PlainWord f) (doc : List XNode) (hd : ∀ cs, ¬ Occurs (.element mwTag cs) doc)
    (h : w.dump f = some (docEvents doc, .ok ())) : extractMain w [f] = .ok ([], .ok ()) := by
  have e : streamTexts [] (docEvents doc) = [] := by
    have h1 := stream_doc doc [] []
    have h2 : mwTextsAll doc = [] := by
      rw [List.eq_nil_iff_forall_not_mem]
      intro t ht
      obtain ⟨cs, h1, _⟩ := (C100_texts doc t).1 ht
      exact hd cs h1
    simpa [streamTexts, h2] using h1
  rw [extract_eq w hf, h]
  dsimp only
  rw [e]
  rfl

/-- **C138** (no file). -/
theorem C138_missing (w : ExtractWorld) (f : Text) (hf : PlainWord f) (h : w.dump f = none) :
    extractMain w [f] = .ok ([], .error .fileNotFound) := by
  rw [extract_eq w hf, h]

/-! ### Cases meeting the hypotheses -/

/-- A dump with an article and the beginning of another one, a complete one, and one of the next version. -/
def demoBroken : Broken where
  before := []
  opened := [("mediawiki".toList, [.element "page".toList [.element mwTag [.text "a\n".toList, .element "b".toList [.text "c".toList], .text "d".toList]]]),
    ("page".toList, [.element "title".toList [.text "T".toList]]), (mwTag, [.text "half".toList])]

def demoNextVersion : List XNode := [.element "{http://www.mediawiki.org/xml/export-0.11/}text".toList [.text "a".toList]]

def demoDumps : ExtractWorld where
  args := argWorld
  dump := fun f =>
    if f = "cut".toList then some (demoBroken.events, .error .otherError)
    else if f = "new".toList then some (docEvents demoNextVersion, .ok ())
    else none

example : extractMain demoDumps ["cut".toList] = .ok ("\"a\\ncd\"\n".toList, .error .otherError) := by
  rw [extract_eq demoDumps (by simp [PlainWord])]
  decide +kernel

example : extractMain demoDumps ["new".toList] = .ok ([], .ok ()) := by
  refine C138_false demoDumps _ (by simp [PlainWord]) demoNextVersion ?_ ?_
  · intro cs h
    cases h with
    | here h =>
      simp only [demoNextVersion, List.mem_singleton, XNode.element.injEq] at h
      exact absurd h.1 (by decide +kernel)
    | inside h1 h2 =>
      simp only [demoNextVersion, List.mem_singleton, XNode.element.injEq] at h1
      obtain ⟨-, rfl⟩ := h1
      cases h2 with
      | here h => simp at h
      | inside h _ => simp at h
  · simp [demoDumps]

end Lulua.Props
