import Verif.Props.AnalyzeFirst
import Verif.Props.ReportMain
import Verif.Spec.CorpusMain

/-!
# C139: Sizes of corpora and dictionaries
-/

namespace Lulua.Props
open Lulua Spec

/-- The command line of `corpusstats`. -/
theorem corpus_start (w : CorpusWorld) {os : List CommonOpt} (hos : ∀ o ∈ os, o.Good) {f : Text} (hf : PlainWord f)
    (ho : w.args.opens f = true) (p : Pickles) : ∃ ns, analyzeProgram.start w.args (corpusWords os f) = .ok ns ∧
      ns.get? "metadata" = some (.file f) ∧ corpusMain w p (corpusWords os f) = .ok (corpusStats w p ns) := by
  obtain ⟨ns, h1, h2⟩ := (C127_corpusstats w.args os hos f hf).1 ho
  have h3 : ns.get? "func" = some (.func "corpusStats") := (h2 _ _).2 (by simp [commonAttrs])
  refine ⟨ns, h1, (h2 _ _).2 (by simp [commonAttrs]), ?_⟩
  have h1' : analyzeProgram.start w.args (corpusWords os f) = .ok ns := h1
  simp only [corpusMain, h1', bind_ok, h3, if_true]

/-- **C139** (what is written): exactly if there are statistics and the metadata is one description, that description with the numbers of the
statistics in it, in place of any it had. -/
theorem C139_described (w : CorpusWorld) (os : List CommonOpt) (hos : ∀ o ∈ os, o.Good) (f : Text) (hf : PlainWord f) (p : Pickles)
    (doc : CorpusDoc) : corpusMain w p (corpusWords os f) = .ok (.ok doc) ↔ w.args.opens f = true ∧
      ∃ s rest before, p.read = s :: rest ∧ w.metadata f = .ok (some before) ∧ doc = ⟨before.source, before.count, some (corpusTotals s)⟩ := by
  by_cases ho : w.args.opens f = true
  · obtain ⟨ns, _, h2, h3⟩ := corpus_start w hos hf ho p
    rw [h3]
    simp only [Except.ok.injEq, corpusStats, bind_ok_iff, h2, ho, true_and]
    obtain ⟨read, error⟩ := p
    cases read with
    | nil => cases error <;> simp [Pickles.first]
    | cons s rest =>
      cases hm : w.metadata f with
      | error e => simp
      | ok m => cases m <;> simp [Pickles.first, eq_comm]
  · have := (C127_corpusstats w.args os hos f hf).2 (by simpa using ho)
    have h1 : analyzeProgram.start w.args (corpusWords os f) = .error .usage := this
    simp [corpusMain, h1, ho, bind, Except.bind]

/-- **C139** (no such file): the command line is rejected, before anything is read. -/
theorem C139_missing (w : CorpusWorld) (os : List CommonOpt) (hos : ∀ o ∈ os, o.Good) (f : Text) (hf : PlainWord f)
    (ho : w.args.opens f = false) (p : Pickles) : corpusMain w p (corpusWords os f) = .error .usage := by
  have h1 : analyzeProgram.start w.args (corpusWords os f) = .error .usage := (C127_corpusstats w.args os hos f hf).2 ho
  simp [corpusMain, h1, bind, Except.bind]

/-- **C139** (statistics in several parts): the numbers and words are those of the first; what follows does not matter. -/
theorem C139_first_part (w : CorpusWorld) (os : List CommonOpt) (hos : ∀ o ∈ os, o.Good) (f : Text) (hf : PlainWord f)
    (ho : w.args.opens f = true) (s : AllStats) (rest rest' : List AllStats) (e e' : Option PyErr) :
    corpusMain w ⟨s :: rest, e⟩ (corpusWords os f) = corpusMain w ⟨s :: rest', e'⟩ (corpusWords os f) ∧
    latinMain w.args ⟨s :: rest, e⟩ (analyzeWords os "latinime" []) = latinMain w.args ⟨s :: rest', e'⟩ (analyzeWords os "latinime" []) := by
  constructor
  · obtain ⟨ns, h1, _, h3⟩ := corpus_start w hos hf ho ⟨s :: rest, e⟩
    obtain ⟨ns', h1', _, h3'⟩ := corpus_start w hos hf ho ⟨s :: rest', e'⟩
    obtain rfl : ns = ns' := Except.ok.inj (h1.symm.trans h1')
    rw [h3, h3']
    rfl
  · rfl

theorem count_of_mem' {κ : Type} [DecidableEq κ] {d : Dict κ Nat} (wf : d.WF) {e : κ × Nat} (he : e ∈ d) : d.count e.1 = e.2 := by
  rw [Dict.count, Dict.get?_of_mem wf he]
  rfl

theorem whole_words {su : Setup} {texts : List Text} {s : AllStats} (h : Whole su texts s) (w : Text) :
    s.words.words.count w = (wordsIn su texts).count w := by
  rw [h.counts.words, wordsIn, List.count_flatMap]
  congr 1
  refine List.map_congr_left fun t _ => ?_
  rw [Function.comp_apply, wordsOf, List.count_flatMap]
  rfl

/-- **C139** (counts of zero, which `lulua-write` does not write): there is no dictionary but the exception of the logarithm, or of the division
if all counts are zero. -/
theorem C139_zero (w : ArgWorld) (os : List CommonOpt) (hos : ∀ o ∈ os, o.Good) (s : AllStats) (rest : List AllStats) (e : Option PyErr)
    (h : ∃ x ∈ s.words.words, x.2 = 0) :
    latinMain w ⟨s :: rest, e⟩ (analyzeWords os "latinime" []) =
      .ok (.error (if (s.words.words.map Prod.snd).sum = 0 then .zeroDivision else .valueError)) := by
  obtain ⟨ns, h1, h2, _⟩ := analyze_attrs w hos (c := ("latinime", "latinImeDict")) (by simp [analyses])
  dsimp only at h1 h2
  have hz : s.words.words.any (fun e => decide (e.2 = 0)) = true := by
    simpa only [List.any_eq_true, decide_eq_true_eq] using h
  have ha : s.words.words.all (fun e => decide (e.2 = 0)) = true ↔ (s.words.words.map Prod.snd).sum = 0 := by
    simp only [List.all_eq_true, decide_eq_true_eq, List.sum_eq_zero_iff, List.mem_map, forall_exists_index, and_imp,
      forall_apply_eq_imp_iff₂]
  simp only [latinMain, h1, bind_ok, h2, if_true, latinWords, Pickles.first, hz, ha]


/-- The dictionary of statistics of texts. -/
theorem latin_whole {su : Setup} {texts : List Text} {s : AllStats} (h : Whole su texts s) (w : ArgWorld) {os : List CommonOpt}
    (hos : ∀ o ∈ os, o.Good) (rest : List AllStats) (e : Option PyErr) :
    ∃ lines, latinMain w ⟨s :: rest, e⟩ (analyzeWords os "latinime" []) = .ok (.ok lines) ∧ DictionaryOf su texts lines := by
  obtain ⟨ns, h1, h2, _⟩ := analyze_attrs w hos (c := ("latinime", "latinImeDict")) (by simp [analyses])
  dsimp only at h1 h2
  have hz : s.words.words.any (fun e => decide (e.2 = 0)) = false := by
    simp only [List.any_eq_false, decide_eq_true_eq]
    exact fun e he => (h.positive.words e he).ne'
  refine ⟨latinImeDict s.words.words, ?_, ?_⟩
  · simp only [latinMain, h1, bind_ok, h2, if_true, latinWords, Pickles.first, hz, Bool.false_eq_true, if_false]
  · obtain ⟨sorted, s1, s2, s3⟩ := C88_lines s.words.words h.positive.words
    have hlen : (s.words.words.map Prod.snd).sum = (wordsIn su texts).length := 
      sum_values_eq h.ok.words fun k => (whole_words h k).trans (by congr!)
    have hget : ∀ e ∈ sorted, e.2 = (wordsIn su texts).count e.1 := by
      intro e he
      rw [← whole_words h, count_of_mem' h.ok.words (s1.mem_iff.1 he)]
    have hkeys : (latinImeDict s.words.words).map Prod.fst = sorted.map Prod.fst := by
      generalize latinImeDict s.words.words = ls at s3
      clear s1 s2 hget
      induction s3 with
      | nil => rfl
      | cons h _ ih => rw [List.map_cons, List.map_cons, ih, h.1]
    refine ⟨?_, fun x => ?_, ?_, ?_⟩
    · rw [hkeys]
      exact ((s1.map Prod.fst).nodup_iff).2 h.ok.words
    · rw [hkeys, (s1.map Prod.fst).mem_iff, ← List.count_pos_iff (l := wordsIn su texts), ← whole_words h]
      constructor
      · intro hx
        obtain ⟨e, he, rfl⟩ := List.mem_map.1 hx
        rw [count_of_mem' h.ok.words he]
        exact h.positive.words e he
      · intro hx
        by_contra hn
        rw [count_eq_zero_of_forall hn] at hx
        omega
    · have : (sorted.map Prod.fst).Pairwise fun a b => (wordsIn su texts).count b ≤ (wordsIn su texts).count a := by
        rw [List.pairwise_map]
        refine s2.imp_of_mem fun ha hb hab => ?_
        rw [← hget _ ha, ← hget _ hb]
        exact hab
      rw [← hkeys, List.pairwise_map] at this
      exact this
    · intro l hl
      obtain ⟨e, he, h4, h5, h6⟩ := forall2_mem_right s3 hl
      rw [hlen] at h5 h6
      rw [h4, ← hget e he]
      exact ⟨h5, h6⟩

/-- **C139** (partial: statistics of all texts in one part): the numbers are those of the presses and words of the texts, and the dictionary is
that of their words. -/
theorem C139_whole_partial {su : Setup} {texts : List Text} {s : AllStats} (h : Whole su texts s) (w : CorpusWorld) (os : List CommonOpt)
    (hos : ∀ o ∈ os, o.Good) (f : Text) (hf : PlainWord f) (ho : w.args.opens f = true) (before : CorpusDoc)
    (hm : w.metadata f = .ok (some before)) :
    corpusMain w ⟨[s], none⟩ (corpusWords os f) =
      .ok (.ok ⟨before.source, before.count, some (pressesIn su texts, (wordsIn su texts).length)⟩) ∧
    ∃ lines, latinMain w.args ⟨[s], none⟩ (analyzeWords os "latinime" []) = .ok (.ok lines) ∧ DictionaryOf su texts lines := by
  refine ⟨(C139_described w os hos f hf _ _).2 ⟨ho, s, [], before, rfl, hm, ?_⟩, latin_whole h w.args hos [] none⟩
  rw [countsOf_totals h.ok h.counts, wordsIn, List.length_flatMap]
  rfl

/-- **C139** (partial: shipped layouts, at least one worker, filters that do not fail): from the texts given to `lulua-write` to the description
of the corpus and the dictionary. -/
theorem C139_pipeline_partial (w : WriteWorld) (hu : PlainNum w.args.uni) (d : Disk) (os : List WriteOpt) (hos : ∀ o ∈ os, o.Good)
    (hb : lastOf WriteOpt.benchmark? os = none) (hk : writeKeyboard os = "ibmpc105".toList) (hj : 0 < workersOf w.args os) (l : Text)
    (hl : PlainWord l) (ld : LayoutData) (hd : ld ∈ Data.layouts) (hnull : ld ≠ Data.nullLayout) (hs : Shipped w.toLoadWorld d l ld)
    (names : List String) (fs : List FilterName) (hf : filterSel names = some fs) (lines : List Text)
    (hx : ∀ line ∈ lines, (w.filters.extract fs line).error = none) (a : AnalyzeWorld) (ha : a.toLoadWorld = w.toLoadWorld)
    (os' : List CommonOpt) (hos' : ∀ o ∈ os', o.Good) (hk' : keyboardOf os' = "ibmpc105".toList)
    (c : CorpusWorld) (os'' : List CommonOpt) (hos'' : ∀ o ∈ os'', o.Good) (f : Text) (hf' : PlainWord f) (ho : c.args.opens f = true)
    (before : CorpusDoc) (hm : c.metadata f = .ok (some before)) :
    ∃ p su, writeStart w d (writeWords os l names) = .ok (.ok p) ∧ p.setup = .ok su ∧
      ∀ final, Ends w.filters fs p.jobs lines final → ∃ out s, p.output w final = .ok out ∧
        analyzeMain a d ⟨out, none⟩ (analyzeWords os' "combine" []) = .ok (.ok (.combined s)) ∧
        corpusMain c ⟨[s], none⟩ (corpusWords os'' f) = .ok (.ok ⟨before.source, before.count,
          some (pressesIn su (inputTexts w.filters fs lines), (wordsIn su (inputTexts w.filters fs lines)).length)⟩) ∧
        ∃ dict, latinMain c.args ⟨[s], none⟩ (analyzeWords os'' "latinime" []) = .ok (.ok dict) ∧
          DictionaryOf su (inputTexts w.filters fs lines) dict := by
  obtain ⟨p, su, h1, h2, h3⟩ := C135_pipeline_partial w hu d os hos hb hk hj l hl ld hd hnull hs names fs hf lines hx a ha os' hos' hk'
  refine ⟨p, su, h1, h2, fun final hfin => ?_⟩
  obtain ⟨out, s, h4, h5, h6, _⟩ := h3 final hfin
  exact ⟨out, s, h4, h5, C139_whole_partial h6 c os'' hos'' f hf' ho before hm⟩

/-- **C139** (in the report; partial: if each of its two options is given once): if the files named are what was written for each corpus, with
the `---` after it, the page shows the sums over all corpora. -/
theorem C139_report_partial (w : ReportWorld) (os : List ReportOpt) (hos : ∀ o ∈ os, o.Good) (ho : OnceEach os) (p : Page)
    (h : reportMain w (reportWords os) = .ok (.ok p)) (docs : List (CorpusDoc × Nat × Nat))
    (hd : Contents w.corpus (namedCorpora os) (docs.map fun x => [some ⟨x.1.source, x.1.count, some x.2⟩, none])) :
    p.en.rows.length = docs.length ∧ p.ar.rows.length = docs.length ∧
      ShowsAbout .en (docs.map (·.2.2)).sum p.en.words ∧ ShowsAbout .en (docs.map (·.2.1)).sum p.en.characters ∧
      ShowsAbout .ar (docs.map (·.2.2)).sum p.ar.words ∧ ShowsAbout .ar (docs.map (·.2.1)).sum p.ar.characters := by
  obtain ⟨corpora, _, ds, h1, _, h2, h3, h4, h5, h6, h7, h8, _⟩ := C137_page_partial w os hos ho p h
  obtain rfl : corpora = docs.map fun x => [some ⟨x.1.source, x.1.count, some x.2⟩, none] := by
    have : ∀ (ns : List Text) (xs ys : List (List (Option CorpusDoc))), Contents w.corpus ns xs → Contents w.corpus ns ys → xs = ys := by
      intro ns
      induction ns with
      | nil => intro xs ys h h'; cases h; cases h'; rfl
      | cons n ns ih =>
        intro xs ys h h'
        cases h with
        | cons a b =>
          cases h' with
          | cons a' b' =>
            rw [ih _ _ b b', Except.ok.inj (Option.some.inj (a.symm.trans a'))]
    exact this _ _ _ h1 hd
  have hds : ((docs.map fun x : CorpusDoc × Nat × Nat => [some (⟨x.1.source, x.1.count, some x.2⟩ : CorpusDoc), none]).flatMap
      fun f => f.filterMap id) = docs.map fun x => ⟨x.1.source, x.1.count, some x.2⟩ := by
    clear hd h1 h2
    induction docs with
    | nil => rfl
    | cons x docs ih => rw [List.map_cons, List.flatMap_cons, ih]; rfl
  rw [hds] at h2
  have hsum : ∀ g : Nat × Nat → Nat, sumOf g ds = (docs.map fun x => g x.2).sum := by
    intro g
    unfold sumOf
    rw [((h2.filterMap _).map g).sum_eq]
    congr 1
    clear h2 hds hd h1
    induction docs with
    | nil => rfl
    | cons x docs ih => simp
  rw [hsum] at h5 h6 h7 h8
  refine ⟨?_, ?_, h5, h6, h7, h8⟩
  · rw [← h4.length_eq, h2.length_eq, List.length_map]
  · rw [← h3.length_eq, h2.length_eq, List.length_map]

/-! ### Cases meeting the hypotheses -/

/-- A file with a description of a corpus, an empty one and one with several. -/
def demoCorpusWorld : CorpusWorld where
  args := argWorld
  metadata f := if f = "m.yaml".toList then .ok (some (Data.corpusHindawi (some (7, 7)))) else if f = "e.yaml".toList then .ok none
    else .error .otherError

example : corpusMain demoCorpusWorld ⟨[twoPresses], none⟩ (corpusWords withLayout "m.yaml".toList) =
      .ok (.ok (Data.corpusHindawi (some (2, 0)))) ∧
    corpusMain demoCorpusWorld ⟨[twoPresses, twoPresses], none⟩ (corpusWords withLayout "m.yaml".toList) =
      .ok (.ok (Data.corpusHindawi (some (2, 0)))) ∧
    corpusMain demoCorpusWorld ⟨[twoPresses], none⟩ (corpusWords [] "e.yaml".toList) = .ok (.error .typeError) := by
  decide +kernel

/-- **C139** is false for statistics in several parts: with two parts of two presses each, the corpus is said to have two. -/
theorem C139_false : ∃ (w : CorpusWorld) (os : List CommonOpt) (f : Text) (parts : List AllStats) (doc : CorpusDoc) (n : Nat × Nat),
    corpusMain w ⟨parts, none⟩ (corpusWords os f) = .ok (.ok doc) ∧ doc.stats = some n ∧
      n.1 ≠ (parts.map fun s => (s.simple.combinations.map Prod.snd).sum).sum :=
  ⟨demoCorpusWorld, withLayout, "m.yaml".toList, [twoPresses, twoPresses], Data.corpusHindawi (some (2, 0)), (2, 0), by decide +kernel, rfl,
    by decide +kernel⟩

/-- Two texts, two workers, `combine` and `corpusstats`. -/
example : ∃ p su, writeStart demoWriteWorld (fun _ => none) (writeWords [.jobs .short 2] "ar-lulua".toList ["lines"]) = .ok (.ok p) ∧
    p.setup = .ok su ∧ ∃ final out s dict, p.output demoWriteWorld final = .ok out ∧
      analyzeMain demoAnalyzeWorld (fun _ => none) ⟨out, none⟩ (analyzeWords [] "combine" []) = .ok (.ok (.combined s)) ∧
      latinMain demoCorpusWorld.args ⟨[s], none⟩ (analyzeWords [] "latinime" []) = .ok (.ok dict) ∧
      DictionaryOf su ["اب ".toList, "c".toList] dict := by
  obtain ⟨p, su, h1, h2, h6⟩ := C139_pipeline_partial demoWriteWorld argWorld_plain (fun _ => none) [.jobs .short 2]
    (by simp [WriteOpt.Good]) rfl rfl (by simp [workersOf, lastOf, WriteOpt.jobs?]) "ar-lulua".toList (by simp [PlainWord]) Data.arLulua
    (by simp [Data.layouts]) (by decide +kernel) renderWorld_shipped ["lines"] [.lines] (by decide) ["اب ".toList, "c".toList]
    (fun _ _ => rfl) demoAnalyzeWorld rfl [] (by simp) rfl demoCorpusWorld [] (by simp) "m.yaml".toList (by simp [PlainWord]) rfl _ rfl
  obtain ⟨final, h7, _⟩ := C133_ends demoWriteWorld.filters [.lines] p.jobs ["اب ".toList, "c".toList] _ 0 (.refl _)
  obtain ⟨out, s, g1, g2, _, dict, g4, g5⟩ := h6 final h7
  exact ⟨p, su, h1, h2, final, out, s, dict, g1, g2, g4, g5⟩

/-- Two corpora as they are written. -/
def describedWorld : ReportWorld where
  args := argWorld
  lower := demoReportWorld.lower
  corpus := fun f => some (.ok [some (if f = "a".toList then Data.corpusHindawi (some (2, 1)) else Data.corpusAljazeera (some (3, 1))), none])
  stats := demoReportWorld.stats

example : shownNames (reportMain describedWorld (reportWords [.layoutstats true demoStatsFiles, .corpus false ["a".toList, "b".toList]])) =
    some ["Al-Jazeera".toList, "hindawi.org".toList] := by
  decide +kernel

end Lulua.Props
