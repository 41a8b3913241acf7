import Verif.Proofs.Formats

/-!
# C49–C54: compressed files, archives and documents
-/

namespace Lulua.Props
open Lulua Spec

/-! ### C49 -/

section
variable {σ : Type}

/-- **C49**: any sequence of reads from an intact compressed file, with any chunk size, returns what
the same reads from a plain file with the decompressed content return, and every read ends. -/
theorem C49_reads (D : Decompressor σ) (Good : σ → Bytes → Bytes → Prop) (hI : Intact D Good)
    (readchunk : Nat) (hc : 0 < readchunk) (s : σ) (file content : Bytes) (hg : Good s file content)
    (ops : List (Option Nat)) (fuel : Nat) (hfuel : file.length < fuel) :
    ∃ s', BrotliFile.reads D readchunk fuel ⟨s, file, []⟩ ops = some (plainReads content ops, s') :=
  reads_intact hI hc fuel ops ⟨s, file, []⟩ content hg hfuel

/-- **C49** (slices): what reads from a plain file return: consecutive slices; a read of `n` bytes
returns `n` unless less is left; a read without size returns all that is left. -/
theorem C49_plain (content : Bytes) (ops : List (Option Nat)) :
    (plainReads content ops).flatten <+: content ∧ (plainReads content ops).length = ops.length ∧
    ∀ pre n post, ops = pre ++ n :: post →
      ∃ b, (plainReads content ops)[pre.length]? = some b ∧
        let left := content.drop (plainReads content pre).flatten.length
        match n with
        | some k => b.length = min k left.length ∧ b <+: left
        | none => b = left := by
  induction ops generalizing content with
  | nil => exact ⟨by simp [plainReads], rfl, by intro pre n post h; simp at h⟩
  | cons o ops ih =>
    have key : ∃ b rest, content = b ++ rest ∧ plainReads content (o :: ops) = b :: plainReads rest ops ∧
        (∀ ops', plainReads content (o :: ops') = b :: plainReads rest ops') ∧
        (match o with
        | some k => b.length = min k content.length ∧ b <+: content
        | none => b = content) := by
      cases o with
      | none => exact ⟨content, [], by simp, rfl, fun _ => rfl, rfl⟩
      | some k => exact ⟨content.take k, content.drop k, by simp, rfl, fun _ => rfl, by simp [List.take_prefix]⟩
    obtain ⟨b, rest, h1, h2, h3, h4⟩ := key
    obtain ⟨i1, i2, i3⟩ := ih rest
    refine ⟨?_, ?_, ?_⟩
    · rw [h2, List.flatten_cons, h1]; exact (List.prefix_append_right_inj _).2 i1
    · rw [h2, List.length_cons, i2, List.length_cons]
    · intro pre n post h
      cases pre with
      | nil =>
        simp only [List.nil_append, List.cons.injEq] at h
        obtain ⟨rfl, rfl⟩ := h
        refine ⟨b, by rw [h2]; rfl, ?_⟩
        simp only [plainReads, List.flatten_nil, List.length_nil, List.drop_zero]
        cases o <;> exact h4
      | cons o' pre =>
        simp only [List.cons_append, List.cons.injEq] at h
        obtain ⟨rfl, rfl⟩ := h
        obtain ⟨b', j1, j2⟩ := i3 pre n post rfl
        refine ⟨b', by rw [h2]; simpa using j1, ?_⟩
        have : content.drop (plainReads content (o :: pre)).flatten.length =
            rest.drop (plainReads rest pre).flatten.length := by
          rw [h3, List.flatten_cons, List.length_append, h1, List.drop_append]
          simp
        rw [this]
        exact j2

end

/-- A decompressor that holds everything back until it has seen `r` bytes, then outputs them at once. -/
def holdAll : Decompressor (Bytes × Nat) where
  process s inp :=
    if s.2 ≤ inp.length then (([], 0), s.1 ++ inp.take s.2) else ((s.1 ++ inp, s.2 - inp.length), [])
  isFinished s := s.2 == 0

def holdAllGood (s : Bytes × Nat) (inp out : Bytes) : Prop :=
  (s.2 = 0 ∧ out = []) ∨ (0 < s.2 ∧ s.2 ≤ inp.length ∧ out = s.1 ++ inp.take s.2)

theorem holdAll_intact : Intact holdAll holdAllGood where
  finished s inp out h hf := by
    simp only [holdAll, beq_iff_eq] at hf
    rcases h with ⟨_, h⟩ | ⟨h, _⟩
    · exact h
    · omega
  input s inp out h hf := by
    rcases h with ⟨h, _⟩ | ⟨h1, h2, _⟩
    · simp [holdAll, h] at hf
    · intro h; subst h; simp at h2; omega
  step s n inp out h hf hn := by
    rcases h with ⟨h, _⟩ | ⟨h1, h2, rfl⟩
    · simp [holdAll, h] at hf
    · by_cases hle : s.2 ≤ (inp.take n).length
      · refine ⟨[], ?_, ?_⟩
        · simp only [holdAll, if_pos hle, List.append_nil, List.take_take]
          rw [List.length_take] at hle
          rw [Nat.min_eq_left (by omega)]
        · simp only [holdAll, if_pos hle]
          exact .inl ⟨rfl, rfl⟩
      · simp only [holdAll, if_neg hle, List.nil_append, exists_eq_left']
        rw [List.length_take] at hle ⊢
        refine .inr ⟨by simp only; omega, by simp only [List.length_drop]; omega, ?_⟩
        simp only [List.append_assoc]
        congr 1
        have : min n inp.length = n := by omega
        rw [this]
        conv_lhs => rw [show s.2 = n + (s.2 - n) by omega, List.take_add]

example : holdAllGood ([], 4) [1, 2, 3, 4, 9] [1, 2, 3, 4] ∧
    (BrotliFile.reads holdAll 3 6 ⟨([], 4), [1, 2, 3, 4, 9], []⟩ [some 1, some 0, some 2, none, some 5]).map Prod.fst =
      some [[1], [], [2, 3], [4], []] := by
  refine ⟨.inr (by decide), by decide⟩

/-! ### C50 -/

section
variable {σ : Type}

/-- **C50** (false): reading a truncated file to its end never returns, nor does asking for more bytes
than there are. -/
theorem C50_truncated_hangs (D : Decompressor σ) (Good : σ → Bytes → Bytes → Prop) (hT : Truncated D Good)
    (readchunk : Nat) (hc : 0 < readchunk) (s : σ) (file content : Bytes) (hg : Good s file content) :
    (∀ fuel, BrotliFile.read D readchunk fuel ⟨s, file, []⟩ none = none) ∧
    (∀ n, content.length < n → ∀ fuel, BrotliFile.read D readchunk fuel ⟨s, file, []⟩ (some n) = none) := by
  refine ⟨fun fuel => ?_, fun n hn fuel => ?_⟩
  · unfold BrotliFile.read
    rw [fill_truncated hT hc none fuel ⟨s, file, []⟩ content hg (by simp)]
  · unfold BrotliFile.read
    rw [fill_truncated hT hc (some n) fuel ⟨s, file, []⟩ content hg (by
      intro m h; simp only [Option.some.injEq] at h; subst h; simpa using hn)]

/-- **C50** (what is left): a read within what the truncated file holds does return it. -/
theorem C50_available_partial (D : Decompressor σ) (Good : σ → Bytes → Bytes → Prop) (hT : Truncated D Good)
    (readchunk : Nat) (hc : 0 < readchunk) (s : σ) (file content : Bytes) (hg : Good s file content)
    (n : Nat) (hn : n ≤ content.length) (fuel : Nat) (hfuel : file.length < fuel) :
    ∃ s', BrotliFile.read D readchunk fuel ⟨s, file, []⟩ (some n) = some (content.take n, s') := by
  obtain ⟨s', out', h1, h2, h3⟩ := fill_truncated_ok hT hc n fuel ⟨s, file, []⟩ content hg hfuel (by simpa using hn)
  refine ⟨{ s' with buf := s'.buf.drop n }, ?_⟩
  unfold BrotliFile.read
  rw [h1]
  simp only [List.nil_append] at h2
  rw [h2, List.take_append_of_le_length h3]

end

/-- A decompressor that passes through the first bytes; the state is how many are to come. -/
def passThrough : Decompressor Nat where
  process r inp := (r - inp.length, inp.take r)
  isFinished r := r == 0

theorem passThrough_truncated : Truncated passThrough (fun r inp out => inp.length < r ∧ out = inp) where
  unfinished r inp out h := by simp only [passThrough, beq_eq_false_iff_ne]; omega
  idle r out h := h.2
  step r n inp out h hn := by
    obtain ⟨h, rfl⟩ := h
    refine ⟨out.drop n, ?_, ?_, rfl⟩
    · simp only [passThrough, List.take_take]
      have : out.take (min r n) = out.take n := by
        rcases Nat.le_total n r with h1 | h1
        · rw [Nat.min_eq_right h1]
        · rw [Nat.min_eq_left h1, List.take_of_length_le (by omega), List.take_of_length_le (by omega)]
      rw [this, List.take_append_drop]
    · simp only [passThrough, List.length_take, List.length_drop]; omega

/-- A stream of which two of five bytes are there: the first two can be read, the third cannot. -/
example : (BrotliFile.read passThrough 1 10 ⟨5, [7, 8], []⟩ (some 2)).map Prod.fst = some [7, 8] ∧
    BrotliFile.read passThrough 1 1000 ⟨5, [7, 8], []⟩ (some 3) = none := by decide +kernel

/-! ### C51 -/

/-- **C51**: the contents of the non-empty files, in order, whether the archive just ends or ends with
zero blocks (and anything after the first of them). -/
theorem C51_contents (es : List TarEntry) (hes : ∀ e ∈ es, e.Ok) (tail : Bytes)
    (ht : tail = [] ∨ ∃ junk, tail = List.replicate 512 0 ++ junk) :
    filterTar (archive es ++ tail) 0 = ⟨(es.map TarEntry.content).filter (fun c => decide (c ≠ [])), none⟩ := by
  obtain ⟨pos, _, h⟩ := filterTar_archive es hes tail 0 ⟨0, rfl⟩
  rw [h]
  rcases ht with rfl | ⟨junk, rfl⟩
  · rw [filterTar_nil]; simp
  · have := filterTar_zero junk pos
    unfold emptyBlock at this
    rw [this]; simp

/-- **C51** (truncated archive): if the archive breaks off within the content of a file, what is there
of it is yielded as if it were the file, without an error. -/
theorem C51_truncated (es : List TarEntry) (hes : ∀ e ∈ es, e.Ok) (header part rest : Bytes)
    (hh : IsHeader header (part ++ rest).length) (hs : (part ++ rest).length < 8 ^ 11) (hr : rest ≠ []) :
    filterTar (archive es ++ header ++ part) 0 =
      ⟨(es.map TarEntry.content).filter (fun c => decide (c ≠ [])) ++ [part], none⟩ := by
  obtain ⟨pos, hp, h⟩ := filterTar_archive es hes (header ++ part) 0 ⟨0, rfl⟩
  rw [List.append_assoc, h, filterTar_header hh hs part pos hp]
  have hl := List.length_pos_iff.2 hr
  have h1 : part.drop (part ++ rest).length = [] := List.drop_of_length_le (by simp)
  have h2 : part.take (part ++ rest).length = part := List.take_of_length_le (by simp)
  have h3 : 0 < (part ++ rest).length := by rw [List.length_append]; omega
  rw [if_pos h3]
  simp only [h1, h2, List.drop_nil, filterTar_nil]

/-- **C51** (other formats): a block without the magic of GNU tar is an `AssertionError`, after the
files before it. -/
theorem C51_other_format (es : List TarEntry) (hes : ∀ e ∈ es, e.Ok) (block rest : Bytes)
    (hl : block.length = 512) (hz : block ≠ List.replicate 512 0)
    (hm : (block.drop 256).take 8 ≠ [0, 117, 115, 116, 97, 114, 32, 32]) :
    filterTar (archive es ++ block ++ rest) 0 =
      ⟨(es.map TarEntry.content).filter (fun c => decide (c ≠ [])), some .assertionError⟩ := by
  obtain ⟨pos, _, h⟩ := filterTar_archive es hes (block ++ rest) 0 ⟨0, rfl⟩
  have e1 : (block ++ rest).take 512 = block := by rw [← hl, List.take_left]
  have hne : block ≠ [] := by rintro rfl; simp at hl
  have e2 : filterTar (block ++ rest) pos = ⟨[], some .assertionError⟩ := by
    rw [filterTar, e1]
    have : ¬ (block = [] ∨ block = emptyBlock) := not_or.2 ⟨hne, hz⟩
    have hm' : (block.drop 256).take 8 ≠ tarMagic := hm
    rw [dif_neg this, if_pos hm']
  rw [List.append_assoc, h, e2]
  simp

/-- A header for demonstration. -/
def demoHeader (size : Nat) : Bytes :=
  List.replicate 124 65 ++ octalText 11 size ++ [0] ++ List.replicate 120 66 ++ tarMagic ++ List.replicate 248 67

theorem demoHeader_ok (size : Nat) : IsHeader (demoHeader size) size where
  length := by
    simp only [demoHeader, List.length_append, List.length_replicate, octalText_length]; rfl
  magic := by
    have : (List.replicate 124 65 ++ octalText 11 size ++ [0] ++ List.replicate 120 66 : Bytes).length = 256 := by
      simp only [List.length_append, List.length_replicate, octalText_length]; rfl
    unfold demoHeader
    rw [List.append_assoc, ← this, List.drop_left]
    rfl
  size := by
    have h1 : (List.replicate 124 65 : Bytes).length = 124 := List.length_replicate
    have h2 : (octalText 11 size ++ [0]).length = 12 := by
      simp only [List.length_append, octalText_length]; rfl
    unfold demoHeader
    simp only [List.append_assoc]
    generalize (List.replicate 124 65 : Bytes) = pre at h1
    rw [← h1, List.drop_left, ← List.append_assoc (octalText 11 size), ← h2, List.take_left]

example : (⟨demoHeader 3, [1, 2, 3], List.replicate 509 0⟩ : TarEntry).Ok ∧
    (⟨demoHeader 0, [], []⟩ : TarEntry).Ok := by
  refine ⟨⟨demoHeader_ok 3, by decide, ?_⟩, ⟨demoHeader_ok 0, by decide, by decide⟩⟩
  rw [List.length_replicate]
  decide

/-! ### C52 -/

/-- **C52**: in a document whose selected elements are not nested, exactly the tokens of the selected
elements are yielded, in order, without scripts and styles. -/
theorem C52_selection (f : Text → Attrs → Bool) (document : List HNode) (hs : ScriptsOkAll f document)
    (hn : NotNestedAll f document) :
    select f (walkAll document) = cleanTokensAll (selectedElementsAll f document) :=
  (outside_all f document hs hn).1

/-- **C52** (nested): if a selected element contains another selected one, everything of the outer
element after the inner one is lost, including its end tag. -/
theorem C52_nested_loses_rest (f : Text → Attrs → Bool) (name iname : Text) (attrs iattrs : Attrs)
    (before inner after : List HNode) (hf : f name attrs = true) (hfi : f iname iattrs = true)
    (hs : ScriptsOk f (.element name attrs (before ++ .element iname iattrs inner :: after)))
    (hb : NoElementAll (fun n a => f n a = true) before) (hi : NoElementAll (fun n a => f n a = true) inner)
    (ha : NoElementAll (fun n a => f n a = true) after) :
    select f (walkAll [.element name attrs (before ++ .element iname iattrs inner :: after)]) =
      [.startTag name attrs] ++ cleanTokensAll before ++ cleanTokens (.element iname iattrs inner) := by
  have hsplit : ∀ b c : List HNode, ScriptsOkAll f (b ++ c) → ScriptsOkAll f b ∧ ScriptsOkAll f c := by
    intro b c h
    induction b with
    | nil => exact ⟨trivial, h⟩
    | cons x b ih =>
      rw [List.cons_append, ScriptsOkAll] at h
      rw [ScriptsOkAll]
      exact ⟨⟨h.1, (ih h.2).1⟩, (ih h.2).2⟩
  have hnn : ∀ ns : List HNode, NoElementAll (fun n a => f n a = true) ns → NotNestedAll f ns := by
    intro ns h
    exact notNestedAll_of_none ns h
  rw [ScriptsOk] at hs
  obtain ⟨sb, s2⟩ := hsplit _ _ hs.2
  rw [ScriptsOkAll] at s2
  have hsc : ¬ IsScript name := fun h => by simp [(hs.1 h).1] at hf
  have h1 : SelRun f ⟨none, none⟩ [.startTag name attrs] [.startTag name attrs] ⟨some 1, none⟩ :=
    SelRun.one (b := true) (by simp [selStep, selOpen, hf, isScriptName_false hsc, selInside])
  have h2 := inside_all f 1 (by omega) before sb hb
  have h3 := selected_element (s := some 1) hfi s2.1 hi
  have h4 := outside_all f after s2.2 (hnn after ha)
  rw [selectedElementsAll_none after ha] at h4
  have h5 : SelRun f ⟨none, none⟩ [.endTag name] [] ⟨none, none⟩ := leaf_outside f (by simp)
  have := (h1.append (h2.append (h3.append (h4.append h5)))).1
  simp only [walkAll, HNode.walk, walkAll_append, List.append_nil] at this ⊢
  unfold select
  simpa [cleanTokensAll] using this

/-- **C52** (functions in use): the selection functions of the program select no scripts. -/
theorem C52_functions (name : Text) (attrs : Attrs) (h : IsScript name) :
    selAljazeera name attrs = false ∧ selBbcarabic name attrs = false := by
  rcases h with rfl | rfl <;> exact ⟨by rfl, by rfl⟩

/-- **C52** (news pages): what counts as an article is a div with the attribute the site marks it with. -/
theorem C52_selects (name : Text) (attrs : Attrs) :
    (selAljazeera name attrs = true ↔
      name = "div".toList ∧ Dict.get? attrs (none, "id".toList) = some "DynamicContentContainer".toList) ∧
    (selBbcarabic name attrs = true ↔
      name = "div".toList ∧ Dict.get? attrs (none, "property".toList) = some "articleBody".toList) := by
  simp [selAljazeera, selBbcarabic]

/-- A page with an article that contains a script, a void element and a nested div. -/
def demoPage : List HNode :=
  [ .element "body".toList []
    [ .text "menu".toList,
      .element "script".toList [] [.text "x()".toList],
      .element "div".toList [((none, "property".toList), "articleBody".toList)]
        [ .element "p".toList [] [.text "one".toList, .space " ".toList, .void "br".toList [], .text "two".toList],
          .element "style".toList [] [.text "p {}".toList],
          .element "div".toList [] [.comment "c".toList, .text "three".toList] ],
      .text "footer".toList,
      .element "div".toList [((none, "property".toList), "articleBody".toList)] [.text "more".toList] ] ]

example : ScriptsOkAll selBbcarabic demoPage ∧ NotNestedAll selBbcarabic demoPage := by
  constructor
  · simp [demoPage, ScriptsOkAll, ScriptsOk, IsScript, NoElementAll, NoElement, selBbcarabic]
  · simp [demoPage, NotNestedAll, NotNested, NoElementAll, NoElement, selBbcarabic, Dict.get?]

/-! ### C53 -/

/-- **C53** (tree): the serialization of a document is its text: all character data in order, one
space for each white space node, a blank line after each p and div, nothing for anything else. -/
theorem C53_document (entities : Dict Text Text) (document : List HNode) :
    epubDocument entities document = .ok (nodesText false document) :=
  serialize_walkAll entities document

/-- **C53** (with selection): the text of the selected elements without scripts and styles. -/
theorem C53_selected (entities : Dict Text Text) (f : Text → Attrs → Bool) (document : List HNode)
    (hs : ScriptsOkAll f document) (hn : NotNestedAll f document) :
    filterHtml entities f document = ⟨[nodesText true (selectedElementsAll f document)], none⟩ := by
  unfold filterHtml
  rw [C52_selection f document hs hn, serialize_cleanAll]

/-- **C53** (streams): for any token stream, not just those of trees, serialization is compositional,
and it fails only for unknown entities (`AttributeError`) and unknown token types (`AssertionError`). -/
theorem C53_stream (entities : Dict Text Text) (a b : List Token) :
    (serialize entities (a ++ b) = match serialize entities a, serialize entities b with
      | .ok x, .ok y => .ok (x ++ y)
      | .ok _, .error e => .error e
      | .error e, _ => .error e) ∧
    ((∃ e, serialize entities a = .error e) ↔
      ∃ t ∈ a, t = .other ∨ ∃ n, t = .entity n ∧ ∀ v, (n ++ [';'], v) ∉ entities) := by
  constructor
  · rw [serialize_append]
    cases serialize entities a <;> cases serialize entities b <;> rfl
  · induction a with
    | nil => simp [serialize]
    | cons t a ih =>
      have ht : (∃ e, serializeToken entities t = .error e) ↔
          (t = .other ∨ ∃ n, t = .entity n ∧ ∀ v, (n ++ [';'], v) ∉ entities) := by
        cases t with
        | entity n =>
          simp only [serializeToken]
          cases h : entities.get? (n ++ [';']) with
          | some v =>
            have := Dict.mem_of_get? h
            simp only [reduceCtorEq, exists_false, false_or, false_iff, Token.entity.injEq, not_exists, not_and,
              not_forall, not_not]
            intro m hm
            subst hm
            exact ⟨v, this⟩
          | none =>
            have := Dict.get?_eq_none_iff.1 h
            simp only [Except.error.injEq, exists_eq', reduceCtorEq, Token.entity.injEq, false_or, true_iff]
            exact ⟨n, rfl, fun v hv => this (List.mem_map_of_mem (f := Prod.fst) hv)⟩
        | _ => simp [serializeToken]
      rw [serialize]
      cases hs : serializeToken entities t with
      | error e =>
        rw [hs] at ht
        simp only [bind, Except.bind, Except.error.injEq, exists_eq', true_iff]
        exact ⟨t, by simp, ht.1 ⟨e, rfl⟩⟩
      | ok x =>
        rw [hs] at ht
        have ht : ¬ (t = .other ∨ ∃ n, t = .entity n ∧ ∀ v, (n ++ [';'], v) ∉ entities) := by
          rw [← ht]; simp
        cases ha : serialize entities a with
        | error e =>
          rw [ha] at ih
          simp only [bind, Except.bind, Except.error.injEq, exists_eq', true_iff] at ih ⊢
          obtain ⟨u, hu, h⟩ := ih
          exact ⟨u, by simp [hu], h⟩
        | ok y =>
          rw [ha] at ih
          simp only [bind, Except.bind, reduceCtorEq, exists_false, false_iff, not_exists, not_and] at ih ⊢
          intro u hu
          rcases List.mem_cons.1 hu with rfl | hu
          · exact ht
          · exact ih u hu

example : filterHtml [] selBbcarabic demoPage = ⟨["one two\n\nthree\n\n\n\nmore\n\n".toList], none⟩ := by
  decide +kernel

/-! ### C54 -/

/-- **C54** (TEI.2): one pass over the document, if none of the four elements is nested in itself. -/
theorem C54_tei2 (doc : List XNode) (h1 : XNotNestedAll "text".toList doc) (h2 : XNotNestedAll "body".toList doc)
    (h3 : XNotNestedAll "p".toList doc) (h4 : XNotNestedAll "s".toList doc) :
    filterTEI2 doc = ⟨[joinWith ['\n'] (readAll .outside doc)], none⟩ := by
  unfold filterTEI2
  rw [joinLines_eq, tei2Lines_eq doc h1 h2 h3 h4]
  rfl

/-- **C54** (OpenSubtitles): the stripped texts of all sentences, wherever they are, in document order. -/
theorem C54_subtitles (isSpace : Char → Bool) (doc : List XNode) :
    ∃ positions : List (List Nat), positions.Pairwise DocBefore ∧
      (∀ p, p ∈ positions ↔ ∃ cs, nodeAt doc p = some (.element "s".toList cs)) ∧
      ∃ sentences : List Text, List.Forall₂ (fun p t => ∃ cs, nodeAt doc p = some (.element "s".toList cs) ∧
          t = pyStrip isSpace (directTexts cs).flatten) positions sentences ∧
        filterOpenSubtitles isSpace doc = ⟨[joinWith ['\n'] sentences], none⟩ := by
  refine ⟨tagPathsAll "s".toList 0 doc, tagPathsAll_sorted _ _ _, ?_, subtitleLines isSpace doc, ?_, ?_⟩
  · intro p
    rw [mem_tagPathsAll]
    constructor
    · rintro ⟨j, q, rfl, _, h⟩; simpa using h
    · intro h
      cases p with
      | nil => simp [nodeAt] at h
      | cons i p => exact ⟨i, p, rfl, by omega, by simpa using h⟩
  · unfold subtitleLines
    rw [List.forall₂_map_right_iff]
    refine (byTagAll_paths "s".toList 0 doc).imp ?_
    rintro q cs ⟨j, p, rfl, _, h⟩
    exact ⟨cs, by simpa using h, by rw [getTextNodes_eq]⟩
  · unfold filterOpenSubtitles
    rw [joinLines_eq]; rfl

/-- **C54** (stripping): what `strip` removes: white space at both ends, all of it. -/
theorem C54_strip (isSpace : Char → Bool) (t : Text) :
    ∃ a b, t = a ++ pyStrip isSpace t ++ b ∧ (∀ c ∈ a, isSpace c = true) ∧ (∀ c ∈ b, isSpace c = true) ∧
      (∀ c, (pyStrip isSpace t).head? = some c → isSpace c = false) ∧
      (∀ c, (pyStrip isSpace t).getLast? = some c → isSpace c = false) :=
  pyStrip_spec isSpace t

/-- A document with a sentence outside of the body, markup in a sentence and two paragraphs. -/
def demoTei : List XNode :=
  [ .element "TEI.2".toList
    [ .element "s".toList [.text "not in a text".toList],
      .element "text".toList
      [ .element "body".toList
        [ .element "p".toList [.element "s".toList [.text "a".toList, .other, .text "b".toList],
            .element "hi".toList [.element "s".toList [.text "c".toList, .element "hi".toList [.text "lost".toList]]]],
          .element "p".toList [.element "s".toList [.text "d".toList]] ] ] ] ]

example : XNotNestedAll "text".toList demoTei ∧ XNotNestedAll "body".toList demoTei ∧
    XNotNestedAll "p".toList demoTei ∧ XNotNestedAll "s".toList demoTei := by
  simp [demoTei, XNotNestedAll, XNotNested, XNone, XNone1]

example : filterTEI2 demoTei = ⟨["ab\nc\n\nd\n".toList], none⟩ := by decide +kernel

/-- **C54** (nested): a sentence in a paragraph inside a paragraph is output twice. -/
theorem C54_nested_duplicates : ∃ doc, tei2Lines doc = ["x".toList, [], "x".toList, []] ∧
    (∃ positions : List (List Nat), (∀ p, p ∈ positions ↔ ∃ cs, nodeAt doc p = some (.element "s".toList cs)) ∧
      positions.length = 1) := by
  refine ⟨[.element "text".toList [.element "body".toList [.element "p".toList [.element "p".toList
    [.element "s".toList [.text "x".toList]]]]]], by decide +kernel, ?_⟩
  refine ⟨tagPathsAll "s".toList 0 [.element "text".toList [.element "body".toList [.element "p".toList [.element "p".toList
    [.element "s".toList [.text "x".toList]]]]]], fun p => ?_, by decide +kernel⟩
  rw [mem_tagPathsAll]
  constructor
  · rintro ⟨j, q, rfl, _, h⟩; simpa using h
  · intro h
    cases p with
    | nil => simp [nodeAt] at h
    | cons i p => exact ⟨i, p, rfl, by omega, by simpa using h⟩

end Lulua.Props
