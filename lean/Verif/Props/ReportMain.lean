import Verif.Spec.ReportMain
import Verif.Props.Argparse
import Verif.Props.Page

/-!
# C137: `lulua-report` as a whole
-/

namespace Lulua.Props
open Lulua Spec

theorem readNamed_ok {α : Type} {file : Text → Option (Py α)} {v : Option ArgVal} {xs : List α} :
    readNamed file v = .ok xs ↔ ∃ ts, v = some (.texts ts) ∧ Contents file ts xs := by
  have key : ∀ ts : List Text, readNamed file (some (.texts ts)) = .ok xs ↔ Contents file ts xs := by
    intro ts
    unfold readNamed Contents
    rw [mapM_ok_iff]
    constructor
    · refine fun h => h.imp fun n x hx => ?_
      cases hf : file n with
      | none => rw [hf] at hx; cases hx
      | some r => rw [hf] at hx; exact congrArg some hx
    · refine fun h => h.imp fun n x hx => ?_
      rw [hx]
  constructor
  · intro h
    unfold readNamed at h
    split at h
    · rename_i ts
      exact ⟨ts, rfl, (key ts).1 h⟩
    · cases h
  · rintro ⟨ts, rfl, h⟩
    exact (key ts).2 h

theorem report_attrs (w : ArgWorld) {os : List ReportOpt} (hos : ∀ o ∈ os, o.Good) : ∃ ns, reportProgram.start w (reportWords os) = .ok ns ∧
    ns.get? "corpus" = some (orElse (lastOf ReportOpt.corpus? os) .texts .none) ∧
    ns.get? "layoutstats" = some (orElse (lastOf ReportOpt.layoutstats? os) .texts .none) := by
  obtain ⟨ns, h1, h2⟩ := C127_report w os hos
  exact ⟨ns, h1, (h2 _ _).2 (by simp), (h2 _ _).2 (by simp)⟩

theorem report_eq (w : ReportWorld) {os : List ReportOpt} (hos : ∀ o ∈ os, o.Good) : reportMain w (reportWords os) = .ok (do
    let c ← readNamed w.corpus (some (orElse (lastOf ReportOpt.corpus? os) .texts .none))
    let s ← readNamed w.stats (some (orElse (lastOf ReportOpt.layoutstats? os) .texts .none))
    renderPage w.lower c s) := by
  obtain ⟨ns, h1, h2, h3⟩ := report_attrs w.args hos
  simp only [reportMain, reportPage, h1, h2, h3, bind, Except.bind]

theorem orElse_texts {x : Option (List Text)} {ts : List Text} : some (orElse x .texts .none) = some (ArgVal.texts ts) ↔ x = some ts := by
  cases x <;> simp [orElse]

/-- A page is made exactly of the contents of the files named last. -/
theorem report_ok (w : ReportWorld) {os : List ReportOpt} (hos : ∀ o ∈ os, o.Good) (p : Page) :
    reportMain w (reportWords os) = .ok (.ok p) ↔ ∃ cs ss corpora stats, lastOf ReportOpt.corpus? os = some cs ∧
      lastOf ReportOpt.layoutstats? os = some ss ∧ Contents w.corpus cs corpora ∧ Contents w.stats ss stats ∧
      renderPage w.lower corpora stats = .ok p := by
  rw [report_eq w hos]
  simp only [Except.ok.injEq, bind_ok_iff, readNamed_ok, orElse_texts]
  constructor
  · rintro ⟨c, ⟨cs, h1, h2⟩, s, ⟨ss, h3, h4⟩, h5⟩
    exact ⟨cs, ss, c, s, h1, h3, h2, h4, h5⟩
  · rintro ⟨cs, ss, c, s, h1, h3, h2, h4, h5⟩
    exact ⟨c, ⟨cs, h1, h2⟩, s, ⟨ss, h3, h4⟩, h5⟩

theorem canRender_iff (lower : Text → Text) (corpora : List (List (Option CorpusDoc))) (stats : List (String × LayoutStats)) :
    (∃ p, renderPage lower corpora stats = .ok p) ↔ CanRender corpora stats := by
  have hm : ∀ P : CorpusDoc → Prop, (∀ d ∈ corpusDocs corpora, P d) ↔ ∀ f ∈ corpora, ∀ d, some d ∈ f → P d := by
    intro P
    simp only [corpusDocs, List.mem_flatMap, List.mem_filterMap, id_eq, exists_eq_right]
    exact ⟨fun h f hf d hd => h d ⟨f, hf, hd⟩, fun h d ⟨f, hf, hd⟩ => h f hf d hd⟩
  rw [C119_renders_iff, hm, hm]
  rfl

theorem lastOf_once {α β : Type} {f : α → Option (List β)} {os : List α} (h : (os.filterMap f).length = 1) :
    lastOf f os = some (os.filterMap f).flatten := by
  unfold lastOf
  obtain ⟨x, hx⟩ := List.length_eq_one_iff.1 h
  rw [hx]
  simp

/-- **C137** (partial: if each of the two options is given once): with the options in either order and form there is a page exactly if all
files named can be read and have what is needed. -/
theorem C137_renders_partial (w : ReportWorld) (os : List ReportOpt) (hos : ∀ o ∈ os, o.Good) (ho : OnceEach os) :
    (∃ p, reportMain w (reportWords os) = .ok (.ok p)) ↔
      ∃ corpora stats, Contents w.corpus (namedCorpora os) corpora ∧ Contents w.stats (namedStats os) stats ∧ CanRender corpora stats := by
  simp only [report_ok w hos, lastOf_once ho.1, lastOf_once ho.2, ← canRender_iff w.lower]
  constructor
  · rintro ⟨p, cs, ss, c, s, h1, h2, h3, h4, h5⟩
    cases h1
    cases h2
    exact ⟨c, s, h3, h4, p, h5⟩
  · rintro ⟨c, s, h3, h4, p, h5⟩
    exact ⟨p, _, _, c, s, rfl, rfl, h3, h4, h5⟩

/-- **C137** (partial: if each of the two options is given once): the page has a row for every document of every file named, sums over all of
them, and for each layout the figures of the last file named that is about it. -/
theorem C137_page_partial (w : ReportWorld) (os : List ReportOpt) (hos : ∀ o ∈ os, o.Good) (ho : OnceEach os) (p : Page)
    (h : reportMain w (reportWords os) = .ok (.ok p)) :
    ∃ corpora stats docs, Contents w.corpus (namedCorpora os) corpora ∧ Contents w.stats (namedStats os) stats ∧
      docs.Perm (corpora.flatMap fun f => f.filterMap id) ∧
      List.Forall₂ (RowShows .ar) docs p.ar.rows ∧ List.Forall₂ (RowShows .en) docs p.en.rows ∧
      ShowsAbout .en (sumOf Prod.snd docs) p.en.words ∧ ShowsAbout .en (sumOf Prod.fst docs) p.en.characters ∧
      ShowsAbout .ar (sumOf Prod.snd docs) p.ar.words ∧ ShowsAbout .ar (sumOf Prod.fst docs) p.ar.characters ∧
      (p.layouts.map LayoutTable.layout).Perm genLayouts ∧
      (∀ t ∈ p.layouts, ∃ s, LastOf stats t.layout s ∧ fingerHandStats s.toHandStats = .ok t.bars ∧ t.asymmetry = s.asymmetry) ∧
      ∃ s, LastOf stats "ar-osx" s ∧ p.hamzaImpact = s.hamzaImpact * 100 ∧ fraction s.hamzaOnAlef 10 = .ok p.hamzaOnAlef := by
  obtain ⟨cs, ss, c, s, h1, h2, h3, h4, h5⟩ := (report_ok w hos p).1 h
  rw [lastOf_once ho.1] at h1
  rw [lastOf_once ho.2] at h2
  cases h1
  cases h2
  obtain ⟨docs, a1, -, a2, a3, a4, a5, a6, a7⟩ := C119_corpora _ _ _ _ h5
  obtain ⟨b1, b2, b3⟩ := C119_layouts _ _ _ _ h5
  exact ⟨c, s, docs, h3, h4, a1, a2, a3, a6, a7, a4, a5, b1, b2, b3⟩

/-- **C137** is false: of options given several times all but the last are ignored without a word; the files need not even exist. -/
theorem C137_false (w : ReportWorld) (os : List ReportOpt) (hos : ∀ o ∈ os, o.Good) (o : ReportOpt) (ho : o.Good)
    (h : (∃ b ts, o = .corpus b ts) ∧ lastOf ReportOpt.corpus? os ≠ none ∨
      (∃ b ts, o = .layoutstats b ts) ∧ lastOf ReportOpt.layoutstats? os ≠ none) :
    reportMain w (reportWords (o :: os)) = reportMain w (reportWords os) := by
  have hlast : ∀ {f : ReportOpt → Option (List Text)}, (f o = none ∨ lastOf f os ≠ none) → lastOf f (o :: os) = lastOf f os := by
    intro f hf
    unfold lastOf at hf ⊢
    rw [List.filterMap_cons]
    cases hfo : f o with
    | none => rfl
    | some x =>
      rcases hf with hf | hf
      · rw [hf] at hfo; cases hfo
      · dsimp only
        rw [List.getLast?_cons]
        cases hl : (os.filterMap f).getLast? with
        | none => exact absurd hl hf
        | some y => rfl
  rw [report_eq w hos, report_eq w fun x hx => (List.mem_cons.1 hx).elim (fun e => e ▸ ho) (hos x), hlast, hlast]
  · rcases h with ⟨⟨b, ts, rfl⟩, _⟩ | ⟨_, h⟩
    · exact .inl rfl
    · exact .inr h
  · rcases h with ⟨_, h⟩ | ⟨⟨b, ts, rfl⟩, _⟩
    · exact .inr h
    · exact .inl rfl

/-- **C137** is false: without files of corpora there is a `TypeError`, not a message about the command line, and the same without
statistics once the corpora are read. -/
theorem C137_missing_false (w : ReportWorld) (os : List ReportOpt) (hos : ∀ o ∈ os, o.Good) :
    (lastOf ReportOpt.corpus? os = none → reportMain w (reportWords os) = .ok (.error .typeError)) ∧
    ∀ cs corpora, lastOf ReportOpt.corpus? os = some cs → Contents w.corpus cs corpora → lastOf ReportOpt.layoutstats? os = none →
      reportMain w (reportWords os) = .ok (.error .typeError) := by
  rw [report_eq w hos]
  constructor
  · intro h
    rw [h]
    rfl
  · intro cs corpora h1 h2 h3
    rw [readNamed_ok.2 ⟨cs, by rw [h1]; rfl, h2⟩, h3]
    rfl

/-- **C137** (unreadable files): if one of the corpora named last is not there, or cannot be read, there is no page. -/
theorem C137_unreadable (w : ReportWorld) (os : List ReportOpt) (hos : ∀ o ∈ os, o.Good) (p : Page)
    (h : reportMain w (reportWords os) = .ok (.ok p)) :
    (∀ cs, lastOf ReportOpt.corpus? os = some cs → ∀ t ∈ cs, ∃ x, w.corpus t = some (.ok x)) ∧
    ∀ ss, lastOf ReportOpt.layoutstats? os = some ss → ∀ t ∈ ss, ∃ x, w.stats t = some (.ok x) := by
  obtain ⟨cs, ss, c, s, h1, h2, h3, h4, h5⟩ := (report_ok w hos p).1 h
  constructor
  · intro cs' h t ht
    rw [h1] at h
    cases h
    obtain ⟨x, -, hx⟩ := forall₂_left_mem h3 ht
    exact ⟨x, hx⟩
  · intro cs' h t ht
    rw [h2] at h
    cases h
    obtain ⟨x, -, hx⟩ := forall₂_left_mem h4 ht
    exact ⟨x, hx⟩

/-- **C137** (which error): the first file that is not there, or cannot be read, says so. -/
theorem C137_first_error (w : ReportWorld) (os : List ReportOpt) (hos : ∀ o ∈ os, o.Good) (good : List Text) (bad : Text) (rest : List Text)
    (h : lastOf ReportOpt.corpus? os = some (good ++ bad :: rest)) (hg : ∀ t ∈ good, ∃ x, w.corpus t = some (.ok x)) :
    (w.corpus bad = none → reportMain w (reportWords os) = .ok (.error .fileNotFound)) ∧
    ∀ e, w.corpus bad = some (.error e) → reportMain w (reportWords os) = .ok (.error e) := by
  have key : ∀ e, (w.corpus bad = none ∧ e = .fileNotFound ∨ w.corpus bad = some (.error e)) →
      readNamed w.corpus (some (.texts (good ++ bad :: rest))) = .error e := by
    intro e he
    unfold readNamed
    dsimp only
    clear h
    induction good with
    | nil =>
      rw [List.nil_append, List.mapM_cons]
      rcases he with ⟨h, rfl⟩ | h <;> rw [h] <;> rfl
    | cons t good ih =>
      obtain ⟨x, hx⟩ := hg t (by simp)
      rw [List.cons_append, List.mapM_cons, hx, ih fun t ht => hg t (List.mem_cons_of_mem _ ht)]
      rfl
  rw [report_eq w hos, h]
  constructor
  · intro hb
    simp only [orElse, key _ (.inl ⟨hb, rfl⟩)]
    rfl
  · intro e he
    simp only [orElse, key e (.inr he)]
    rfl

/-! ### Cases meeting the hypotheses -/

/-- Two corpora and the statistics of all layouts; the files of statistics are called like the layouts. -/
def demoReportWorld : ReportWorld where
  args := argWorld
  lower := fun s => s.map Char.toLower
  corpus := fun f =>
    if f = "a".toList then some (.ok [some (Data.corpusHindawi (some (123456, 20000)))])
    else if f = "b".toList then some (.ok [none, some (Data.corpusAljazeera (some (2500000, 1000000)))])
    else none
  stats := fun f => if String.ofList f ∈ genLayouts then some (.ok (String.ofList f, demoLayoutStats 0)) else none

/-- The names in the table. -/
def shownNames (r : Except ArgStop (Py Page)) : Option (List Text) :=
  match r with
  | .ok (.ok p) => some (p.en.rows.map (·.name))
  | _ => none

def demoStatsFiles : List Text := genLayouts.map String.toList

example : shownNames (reportMain demoReportWorld (reportWords [.layoutstats true demoStatsFiles, .corpus false ["a".toList, "b".toList]])) =
    some ["Al-Jazeera".toList, "hindawi.org".toList] := by
  decide +kernel

/-- The first corpus is lost. -/
theorem demoReport_lost : shownNames (reportMain demoReportWorld
      (reportWords [.corpus false ["a".toList], .corpus false ["b".toList], .layoutstats false demoStatsFiles])) =
    some ["Al-Jazeera".toList] := by
  decide +kernel

/-- **C137** is false: there is a page without a row for a document of a file that is named and can be read. -/
theorem C137_lost_false : ∃ (w : ReportWorld) (os : List ReportOpt) (p : Page), (∀ o ∈ os, o.Good) ∧
    reportMain w (reportWords os) = .ok (.ok p) ∧ ∃ f ∈ namedCorpora os, ∃ docs, w.corpus f = some (.ok docs) ∧
      ∃ d, some d ∈ docs ∧ HasMetadata d ∧ ∀ r ∈ p.en.rows, ¬ RowShows .en d r := by
  have h := demoReport_lost
  unfold shownNames at h
  split at h
  · rename_i p hp
    refine ⟨_, _, p, ?_, hp, "a".toList, by simp [namedCorpora, ReportOpt.corpus?],
      [some (Data.corpusHindawi (some (123456, 20000)))], by simp only [demoReportWorld, if_true], _, List.mem_singleton.2 rfl, ?_, ?_⟩
    · have hs : ∀ t ∈ demoStatsFiles, PlainWord t := by
        unfold PlainWord
        decide +kernel
      have hne : demoStatsFiles ≠ [] := by decide
      simpa [ReportOpt.Good, PlainWord] using And.intro hne hs
    · exact ⟨⟨_, _, rfl, rfl⟩, by rintro c ⟨⟩; simp, by simp [Data.corpusHindawi]⟩
    · intro r hr hshow
      obtain ⟨s, n, h1, h2, -, h4⟩ := hshow.source
      cases h1
      cases h2
      have h5 : r.name ∈ p.en.rows.map (·.name) := List.mem_map_of_mem hr
      rw [Option.some.inj h, List.mem_singleton, h4] at h5
      exact absurd h5 (by decide +kernel)
  · cases h

example : OnceEach [.layoutstats true demoStatsFiles, .corpus false ["a".toList, "b".toList]] := ⟨rfl, rfl⟩

example : reportMain demoReportWorld (reportWords [.corpus false ["a".toList, "c".toList]]) = .ok (.error .fileNotFound) :=
  (C137_first_error _ _ (by simp [ReportOpt.Good, PlainWord]) ["a".toList] "c".toList [] rfl
    (by simp only [List.mem_singleton, forall_eq]; exact ⟨_, rfl⟩)).1 (by decide +kernel)

end Lulua.Props
