import Verif.Proofs.Filters
import Verif.Props.Formats
import Verif.Props.Mediawiki
import Verif.Props.Pipeline

/-!
# C118: the filters of the corpora
-/

namespace Lulua.Props
open Lulua Spec

/-! ### Filters that fit -/

/-- **C118** (filters of the corpora): every corpus is read with existing filters that fit together, from lines to
texts. -/
theorem C118_fit : ∀ c ∈ corpusFilters, ∃ fs, filterSel c.2 = some fs ∧ PipelineFits fs .str .str := by
  intro c hc
  simp only [corpusFilters, List.mem_cons, List.not_mem_nil, or_false] at hc
  rcases hc with rfl | rfl | rfl | rfl | rfl | rfl | rfl | rfl
  · exact ⟨[.file, .brotli, .tar, .bbcarabic], by decide +kernel,
      .cons .file (.cons .brotli (.cons .tar (.cons .bbcarabic (.nil _))))⟩
  · exact ⟨[.file, .brotli, .tar, .aljazeera], by decide +kernel,
      .cons .file (.cons .brotli (.cons .tar (.cons .aljazeera (.nil _))))⟩
  · exact ⟨[.file, .text], by decide +kernel, .cons .file (.cons .text (.nil _))⟩
  · exact ⟨[.json], by decide +kernel, .cons .json (.nil _)⟩
  · exact ⟨[.lines], by decide +kernel, .cons (.lines _) (.nil _)⟩
  · exact ⟨[.epub], by decide +kernel, .cons .epub (.nil _)⟩
  · exact ⟨[.file, .brotli, .tar, .xml, .tei2], by decide +kernel,
      .cons .file (.cons .brotli (.cons .tar (.cons .xml (.cons .tei2 (.nil _)))))⟩
  · exact ⟨[.file, .brotli, .tar, .xml, .opensubtitles], by decide +kernel,
      .cons .file (.cons .brotli (.cons .tar (.cons .xml (.cons .opensubtitles (.nil _)))))⟩

/-- **C118** (failures): filters that fit together fail only because of the data, whatever the line is. -/
theorem C118_errors (w : FilterWorld) (fs : List FilterName) (h : PipelineFits fs .str .str) (line : Text) (e : PyErr)
    (he : (w.extract fs line).error = some e) : DataError w e := by
  have hp := pipeline_fits (w := w) h (.ofList [.str line])
    (by
      intro i hi
      rw [List.mem_singleton.1 hi]
      exact ⟨rfl, fun f e h => by cases h⟩) (by intro e h; cases h)
  rcases Gen.flatMap_error he with ⟨i, hi, h1⟩ | h1
  · have := (hp.1 i hi).1
    cases i with
    | str t => cases h1
    | file f => cases this
    | doc d => cases this
  · exact hp.2 e h1

/-- **C118** (wrong filters): from filters that do not fit together no text is ever typed, whatever the line is. (An
empty file counts as an empty text.) -/
theorem C118_misfits (w : FilterWorld) (fs : List FilterName) (h : ¬ PipelineFits fs .str .str) (line : Text) :
    ∀ t ∈ (w.extract fs line).items, t = [] := by
  intro t ht
  obtain ⟨i, hi, h1⟩ := Gen.mem_flatMap ht
  have := pipeline_misfit (w := w) fs (.ofList [.str line])
    (by intro i hi; rw [List.mem_singleton.1 hi]; exact .inr h) i hi
  rcases this with ⟨e, b, rfl⟩ | hk
  · simp [FilterWorld.asText, Gen.ofPy] at h1
  · cases i with
    | str t => exact absurd rfl hk
    | file f =>
      simp only [FilterWorld.asText] at h1
      split at h1
      · simpa [Gen.ofPy, Gen.ofList] using h1
      · simp [Gen.ofPy] at h1
    | doc d => simp [FilterWorld.asText, Gen.ofPy] at h1

example : ¬ PipelineFits [.file, .tar, .tei2] .str .str := by
  intro h
  cases h with
  | cons h1 h =>
    cases h1
    cases h with
    | cons h1 h =>
      cases h1
      cases h with
      | cons h1 h => cases h1

/-! ### Intact corpora -/

theorem consume_texts (ts : List Text) :
    Gen.flatMap (fun i => .ofPy (FilterWorld.asText i)) (ts.map FilterItem.str) none = ⟨ts, none⟩ := by
  induction ts with
  | nil => rfl
  | cons t ts ih =>
    rw [List.map_cons, Gen.flatMap, ih]
    rfl

/-- The members of an archive reach the filter after `tar`. -/
theorem archive_items {w : FilterWorld} {line name : Text} {members : List Bytes} (hn : NameLine w line name)
    (ha : ArchiveFile w name members) (fs : List FilterName) :
    applyFilters (([FilterName.file, .brotli, .tar] ++ fs).map w.filter) (.ofList [.str line]) =
      applyFilters (fs.map w.filter) (.ofList (members.map fun m => .file ⟨m, none, true⟩)) := by
  obtain ⟨file, content, es, tail, h1, h2, h3, rfl, h5, rfl⟩ := ha
  have e1 : w.filter .file (.str line) = ⟨[.file ⟨file, none, true⟩], none⟩ := by
    simp only [FilterWorld.filter, nameLine_rstrip hn, h1, bind, Except.bind, Gen.ofPy, Gen.ofList]
  have e2 : w.filter .brotli (.file ⟨file, none, true⟩) = ⟨[.file ⟨archive es ++ tail, none, false⟩], none⟩ := by
    simp only [FilterWorld.filter, FilterWorld.decompress, h2, Gen.ofList]
  have e3 : w.filter .tar (.file ⟨archive es ++ tail, none, false⟩) =
      ⟨((es.map TarEntry.content).filter (fun c => decide (c ≠ []))).map fun m => .file ⟨m, none, true⟩, none⟩ := by
    simp only [FilterWorld.filter, tarFrom_none, C51_contents es h3 tail h5, Gen.map]
  simp only [List.cons_append, List.nil_append, List.map_cons, applyFilters, Gen.ofList, Gen.flatMap_single e1,
    Gen.flatMap_single e2, Gen.flatMap_single e3]

/-- The text of a page. -/
theorem page_text {w : FilterWorld} {f : Text → Attrs → Bool} {attr value : String} (hf : f = IsArticle attr value)
    {m : Bytes} {t : Text} (h : PageText w attr value m t) :
    w.html f (.file ⟨m, none, true⟩) = ⟨[.str t], none⟩ := by
  obtain ⟨d, h1, h2, h3, rfl⟩ := h
  subst hf
  simp only [FilterWorld.html, FilterWorld.parseHtml, FilterWorld.readAll, bind, Except.bind, h1,
    C53_selected w.entities _ d h2 h3, Gen.map, List.map_cons, List.map_nil]

theorem singletons_flatten {α β : Type} (f : α → β) (l : List α) : (l.map fun x => [f x]).flatten = l.map f := by
  induction l with
  | nil => rfl
  | cons x l ih => simp [ih]

/-- The texts of pages. -/
theorem news_texts {w : FilterWorld} {F : FilterName} {f : Text → Attrs → Bool} {attr value : String}
    (hF : ∀ i, w.filter F i = w.html f i) (hf : f = IsArticle attr value) {line name : Text} {members : List Bytes}
    {ts : List Text} (hn : NameLine w line name) (ha : ArchiveFile w name members)
    (h : List.Forall₂ (PageText w attr value) members ts) :
    w.extract [.file, .brotli, .tar, F] line = ⟨ts, none⟩ := by
  have hk : Gen.flatMap (w.filter F) (members.map fun m => .file ⟨m, none, true⟩) none = ⟨ts.map .str, none⟩ := by
    have := Gen.flatMap_forall₂ (f := w.filter F) (xs := members.map fun m => FilterItem.file ⟨m, none, true⟩)
      (yss := ts.map fun t => [FilterItem.str t]) (by
        rw [List.forall₂_map_left_iff, List.forall₂_map_right_iff]
        exact h.imp fun m t hm => by rw [hF, page_text hf hm])
    rwa [singletons_flatten] at this
  have := archive_items hn ha [F]
  simp only [List.cons_append, List.nil_append] at this
  unfold FilterWorld.extract
  dsimp only
  rw [this]
  simp only [List.map_cons, List.map_nil, applyFilters, Gen.ofList, hk, consume_texts]

/-- The texts of XML documents. -/
theorem xml_texts {w : FilterWorld} {F : FilterName} {text : List XNode → Text → Prop}
    (hF : ∀ d t, text d t → w.filter F (.doc d) = ⟨[.str t], none⟩) {line name : Text} {members : List Bytes}
    {tss : List (List Text)} (hn : NameLine w line name) (ha : ArchiveFile w name members)
    (h : List.Forall₂ (XmlTexts w text) members tss) :
    w.extract [.file, .brotli, .tar, .xml, F] line = ⟨tss.flatten, none⟩ := by
  have hk : ∃ docs, Gen.flatMap (w.filter .xml) (members.map fun m => .file ⟨m, none, true⟩) none = ⟨docs, none⟩ ∧
      Gen.flatMap (w.filter F) docs none = ⟨tss.flatten.map .str, none⟩ := by
    clear ha
    induction h with
    | nil => exact ⟨[], rfl, rfl⟩
    | @cons m ts members tss h _ ih =>
      obtain ⟨docs, h1, h2⟩ := ih
      rcases h with ⟨e, he, rfl⟩ | ⟨d, t, hd, ht, rfl⟩
      · refine ⟨docs, ?_, by simpa using h2⟩
        have : w.filter .xml (.file ⟨m, none, true⟩) = ⟨[], none⟩ := by
          simp only [FilterWorld.filter, FilterWorld.minidomParse, FilterWorld.readAll, bind, Except.bind, he, Gen.ofList]
        rw [List.map_cons, Gen.flatMap, this, h1]; rfl
      · refine ⟨.doc d :: docs, ?_, ?_⟩
        · have : w.filter .xml (.file ⟨m, none, true⟩) = ⟨[.doc d], none⟩ := by
            simp only [FilterWorld.filter, FilterWorld.minidomParse, FilterWorld.readAll, bind, Except.bind, hd, Gen.ofList]
          rw [List.map_cons, Gen.flatMap, this, h1]; rfl
        · rw [Gen.flatMap, hF d t ht, h2]; rfl
  obtain ⟨docs, h1, h2⟩ := hk
  have := archive_items hn ha [.xml, F]
  simp only [List.cons_append, List.nil_append] at this
  unfold FilterWorld.extract
  dsimp only
  rw [this]
  simp only [List.map_cons, List.map_nil, applyFilters, Gen.ofList, h1, h2, consume_texts]

theorem docBefore_asymm : ∀ {p q : List Nat}, DocBefore p q → ¬ DocBefore q p
  | [], [], h => by simp [DocBefore] at h
  | [], _ :: _, _ => by simp [DocBefore]
  | _ :: _, [], h => by simp [DocBefore] at h
  | i :: p, j :: q, h => by
    rw [DocBefore] at h ⊢
    rintro (h' | ⟨h', h2⟩)
    · rcases h with h | ⟨h, _⟩ <;> omega
    · rcases h with h | ⟨_, h1⟩
      · omega
      · exact docBefore_asymm h1 h2

/-- Positions in document order are determined by which they are. -/
theorem docBefore_unique {ps qs : List (List Nat)} (hp : ps.Pairwise DocBefore) (hq : qs.Pairwise DocBefore)
    (h : ∀ p, p ∈ ps ↔ p ∈ qs) : ps = qs := by
  have nd : ∀ {l : List (List Nat)}, l.Pairwise DocBefore → l.Nodup := fun hl =>
    hl.imp fun {a b} hab he => by subst he; exact docBefore_asymm hab hab
  exact ((List.perm_ext_iff_of_nodup (nd hp) (nd hq)).2 h).eq_of_pairwise
    (fun a b _ _ h1 h2 => absurd h2 (docBefore_asymm h1)) hp hq

/-- **C118** (texts): for every line of a corpus, exactly the texts in it are typed, in order, without an error. -/
theorem C118_texts (w : FilterWorld) (c : String × List String) (hc : c ∈ corpusFilters) (fs : List FilterName)
    (hfs : filterSel c.2 = some fs) (line : Text) (ts : List Text) (h : LineTexts w c.1 line ts) :
    w.extract fs line = ⟨ts, none⟩ := by
  obtain ⟨name, names⟩ := c
  have key : ∀ (n : String) (l : List FilterName), filterSel (corpusFilters.lookup n |>.getD []) = some l →
      name = n → fs = l := by
    rintro n l hl rfl
    have : corpusFilters.lookup name = some names := by
      simp only [corpusFilters, List.mem_cons, List.not_mem_nil, or_false, Prod.mk.injEq] at hc
      rcases hc with ⟨rfl, rfl⟩ | ⟨rfl, rfl⟩ | ⟨rfl, rfl⟩ | ⟨rfl, rfl⟩ | ⟨rfl, rfl⟩ | ⟨rfl, rfl⟩ | ⟨rfl, rfl⟩ | ⟨rfl, rfl⟩ <;>
        decide +kernel
    rw [this, Option.getD_some] at hl
    rw [hl] at hfs
    exact (Option.some.inj hfs).symm
  dsimp only at h
  cases h with
  | bbcarabic h1 h2 h3 =>
    rw [key "bbcarabic" [.file, .brotli, .tar, .bbcarabic] (by decide +kernel) rfl]
    exact news_texts (f := selBbcarabic) (fun _ => rfl) rfl h1 h2 h3
  | aljazeera h1 h2 h3 =>
    rw [key "aljazeera" [.file, .brotli, .tar, .aljazeera] (by decide +kernel) rfl]
    exact news_texts (f := selAljazeera) (fun _ => rfl) rfl h1 h2 h3
  | @tanzil _ _ b t h1 h2 h3 =>
    rw [key "tanzil-quaran" [.file, .text] (by decide +kernel) rfl]
    have e1 : w.filter .file (.str line) = ⟨[.file ⟨b, none, true⟩], none⟩ := by
      simp only [FilterWorld.filter, nameLine_rstrip h1, h2, bind, Except.bind, Gen.ofPy, Gen.ofList]
    have e2 : w.filter .text (.file ⟨b, none, true⟩) = ⟨[.str t], none⟩ := by
      simp only [FilterWorld.filter, FilterWorld.readAll, h3, bind, Except.bind, Gen.ofPy, Gen.ofList]
    simp only [FilterWorld.extract, List.map_cons, List.map_nil, applyFilters, Gen.ofList, Gen.flatMap_single e1,
      Gen.flatMap_single e2]
    exact consume_texts [t]
  | @arwiki before enc after t h1 h2 h3 =>
    rw [key "arwiki" [.json] (by decide +kernel) rfl]
    have e1 : w.filter .json (.str (before ++ '"' :: enc ++ '"' :: after)) = ⟨[.str t], none⟩ := by
      simp only [FilterWorld.filter, C100_reads _ _ _ _ _ h1 h2 h3]; rfl
    simp only [FilterWorld.extract, List.map_cons, List.map_nil, applyFilters, Gen.ofList, Gen.flatMap_single e1]
    exact consume_texts [t]
  | osm =>
    rw [key "osm" [.lines] (by decide +kernel) rfl]
    rfl
  | @hindawi _ _ docs _ h1 h2 h3 =>
    rw [key "hindawi" [.epub] (by decide +kernel) rfl]
    have e1 : Gen.flatMap (fun d => Gen.ofPy (w.epubText d)) docs none = ⟨ts, none⟩ := by
      have := Gen.flatMap_forall₂ (f := fun d => Gen.ofPy (w.epubText d)) (xs := docs)
        (yss := ts.map fun t => [t]) (by
          rw [List.forall₂_map_right_iff]
          refine h3.imp fun d t hm => ?_
          obtain ⟨s, doc, g1, g2, rfl⟩ := hm
          simp only [FilterWorld.epubText, g1, g2, C53_document, bind, Except.bind, Gen.ofPy, Gen.ofList])
      rwa [singletons_flatten (fun x => x), List.map_id'] at this
    have e2 : w.filter .epub (.str line) = ⟨ts.map .str, none⟩ := by
      simp only [FilterWorld.filter, nameLine_rstrip h1, h2, e1, Gen.map]
    simp only [FilterWorld.extract, List.map_cons, List.map_nil, applyFilters, Gen.ofList, Gen.flatMap_single e2,
      consume_texts]
  | un h1 h2 h3 =>
    rw [key "un-v1.0-tei" [.file, .brotli, .tar, .xml, .tei2] (by decide +kernel) rfl]
    refine xml_texts ?_ h1 h2 h3
    rintro d t ⟨hx, rfl⟩
    simp only [FilterWorld.filter, C54_tei2 d (hx "text" (by simp)) (hx "body" (by simp)) (hx "p" (by simp))
      (hx "s" (by simp)), Gen.map, List.map_cons, List.map_nil]
  | subtitles h1 h2 h3 =>
    rw [key "opensubtitles-2018" [.file, .brotli, .tar, .xml, .opensubtitles] (by decide +kernel) rfl]
    refine xml_texts ?_ h1 h2 h3
    rintro d t ⟨ps, g1, g2, ss, g3, rfl⟩
    obtain ⟨ps', g1', g2', ss', g3', h⟩ := C54_subtitles w.isSpace d
    have hps : ps = ps' := docBefore_unique g1 g1' fun p => (g2 p).trans (g2' p).symm
    subst hps
    have : ss = ss' := by
      clear g1 g2 g1' g2' h
      induction g3 generalizing ss' with
      | nil => cases g3'; rfl
      | cons h1 _ ih =>
        cases g3' with
        | cons h2 h3 =>
          obtain ⟨cs, h4, h5⟩ := h1
          obtain ⟨cs', h6, h7⟩ := h2
          rw [h4] at h6
          simp only [Option.some.injEq, XNode.element.injEq, true_and] at h6
          subst h6
          rw [h5, h7, ih _ h3]
    subst this
    simp only [FilterWorld.filter, h, Gen.map, List.map_cons, List.map_nil]

/-- **C118** (the report): if every line of the eight corpora is intact, then whatever the number of workers and the
schedule, `all.pickle` has the counts of typing every text of every corpus once. -/
theorem C118_report (w : FilterWorld) (su : Setup) (layers : List Layer) (hu : Usable su layers) (runs : List CorpusRun)
    (texts : List (List (List Text)))
    (hr : List.Forall₂ (fun c r => (∃ fs, filterSel (Prod.snd c) = some fs ∧ r.extract = w.extract fs) ∧ 0 < r.jobs ∧
      PoolReachable r.jobs r.lines (fun l => ¬ ItemOk su r.extract l) False False r.final ∧
      Stuck r.jobs (fun l => ¬ ItemOk su r.extract l) False False r.final) corpusFilters runs)
    (hl : List.Forall₂ (fun cr tss => List.Forall₂ (LineTexts w (Prod.fst (Prod.fst cr))) (Prod.snd cr).lines tss)
      (corpusFilters.zip runs) texts) :
    ∃ f, allPickle su runs = .ok f ∧ CountsOf su texts.flatten.flatten f := by
  have key : ∀ (cs : List (String × List String)) (runs : List CorpusRun) (texts : List (List (List Text))),
      (∀ c ∈ cs, c ∈ corpusFilters) →
      List.Forall₂ (fun c r => (∃ fs, filterSel (Prod.snd c) = some fs ∧ r.extract = w.extract fs) ∧ 0 < r.jobs ∧
        PoolReachable r.jobs r.lines (fun l => ¬ ItemOk su r.extract l) False False r.final ∧
        Stuck r.jobs (fun l => ¬ ItemOk su r.extract l) False False r.final) cs runs →
      List.Forall₂ (fun cr tss => List.Forall₂ (LineTexts w (Prod.fst (Prod.fst cr))) (Prod.snd cr).lines tss)
        (cs.zip runs) texts →
      (∀ r ∈ runs, Built su r ∧ 0 < r.jobs ∧ r.final.main = .done) ∧ runs.flatMap corpusTexts = texts.flatten.flatten := by
    intro cs runs texts hcs h
    induction h generalizing texts with
    | nil => intro h; cases h; exact ⟨by simp, rfl⟩
    | @cons c r cs runs h _ ih =>
      intro ht
      rw [List.zip_cons_cons] at ht
      cases ht with
      | @cons _ tss _ texts h1 h2 =>
        obtain ⟨i1, i2⟩ := ih texts (fun c hc => hcs c (.tail _ hc)) h2
        obtain ⟨⟨fs, hfs, hx⟩, hj, hp, hst⟩ := h
        have hlines : List.Forall₂ (fun l ts => r.extract l = ⟨ts, none⟩) r.lines tss := by
          refine h1.imp fun l ts hlt => ?_
          rw [hx]
          exact C118_texts w c (hcs c (by simp)) fs hfs l ts hlt
        have hok : ∀ l ∈ r.lines, (r.extract l).error = none := by
          intro l hl
          obtain ⟨ts, _, h⟩ := forall2_mem_left hlines hl
          rw [h]
        have hb := C117_returns su layers hu r hj hok hp hst
        refine ⟨?_, ?_⟩
        · intro x hx
          rcases List.mem_cons.1 hx with rfl | hx
          · exact ⟨hb.1, hj, hb.2⟩
          · exact i1 x hx
        · rw [List.flatMap_cons, i2, List.flatten_cons, List.flatten_append]
          congr 1
          unfold corpusTexts
          clear hok hb i1 i2 hst hp h1
          generalize r.lines = ls at hlines
          induction hlines with
          | nil => rfl
          | cons h _ ih => rw [List.flatMap_cons, h, ih]; rfl
  obtain ⟨h1, h2⟩ := key corpusFilters runs texts (fun _ h => h) hr hl
  obtain ⟨f, h3, h4⟩ := C117_counts_partial su layers hu runs (fun r hr => (h1 r hr).1) fun r hr => (h1 r hr).2
  exact ⟨f, h3, h2 ▸ h4⟩

/-- **C118** (invalid documents): XML documents that are not valid are left out without an error. -/
theorem C118_invalid_lost (w : FilterWorld) (line name : Text) (members : List Bytes) (hn : NameLine w line name)
    (ha : ArchiveFile w name members) (hx : ∀ m ∈ members, ∃ e, w.parseXml m = .error e) :
    w.extract [.file, .brotli, .tar, .xml, .tei2] line = ⟨[], none⟩ := by
  have := xml_texts (w := w) (F := .tei2) (text := TeiText) (tss := members.map fun _ => []) ?_ hn ha ?_
  · rw [this]
    simp
  · rintro d t ⟨hx, rfl⟩
    simp only [FilterWorld.filter, C54_tei2 d (hx "text" (by simp)) (hx "body" (by simp)) (hx "p" (by simp))
      (hx "s" (by simp)), Gen.map, List.map_cons, List.map_nil]
  · rw [List.forall₂_map_right_iff]
    exact List.forall₂_same.2 fun m hm => .inl ⟨_, (hx m hm).choose_spec, rfl⟩

/-- **C118** (choice of filters): exactly the non-empty lists of the thirteen names are accepted, and each name stands for
the filter of that name. -/
theorem C118_choice (names : List String) (fs : List FilterName) : filterSel names = some fs ↔
    names ≠ [] ∧ List.Forall₂ (fun n f => (n, f) ∈ filterNames) names fs := by
  have hone : ∀ n f, filterAvail.get? n = some f ↔ (n, f) ∈ filterNames := by
    have h1 : ∀ x ∈ filterAvail, x ∈ filterNames := by decide +kernel
    have h2 : ∀ x ∈ filterNames, filterAvail.get? x.1 = some x.2 := by decide +kernel
    exact fun n f => ⟨fun h => h1 _ (Dict.mem_of_get? h), fun h => h2 _ h⟩
  have hall : ∀ (names : List String) fs, names.mapM (fun n => filterAvail.get? n) = some fs ↔
      List.Forall₂ (fun n f => filterAvail.get? n = some f) names fs := by
    intro names
    induction names with
    | nil => intro fs; simp [eq_comm]
    | cons n names ih =>
      intro fs
      rw [List.mapM_cons]
      cases fs with
      | nil =>
        simp only [List.forall₂_cons_left_iff, Option.bind_eq_bind, Option.bind_eq_some_iff, Option.pure_def]
        simp
      | cons f fs => simp [List.forall₂_cons, Option.bind_eq_some_iff, ih]
  unfold filterSel
  by_cases h : names = []
  · simp [h]
  · rw [if_neg h, hall]
    simp only [hone]
    exact ⟨fun h' => ⟨h, h'⟩, fun h' => h'.2⟩

/-- **C118** (damaged archives): if decompression fails somewhere within an entry, all files whose content is complete are
extracted, none in part, and then there is the exception. -/
theorem C118_damaged (w : FilterWorld) (es : List TarEntry) (hes : ∀ e ∈ es, e.Ok) (b : TarEntry) (hb : b.Ok) (n : Nat)
    (hn : n < (b.header ++ b.content ++ b.padding).length) (file : Bytes) (e : PyErr)
    (hf : w.unbrotli file = (archive es ++ (b.header ++ b.content ++ b.padding).take n, .corrupt e)) (it : Bool) :
    applyFilters ([.brotli, .tar].map w.filter) (.ofList [.file ⟨file, none, it⟩]) =
      ⟨((es.map TarEntry.content).filter (fun c => decide (c ≠ [])) ++
        if b.header.length + b.content.length ≤ n then [b.content] else []).map (fun c => .file ⟨c, none, true⟩), some e⟩ := by
  obtain ⟨pos, hp, h⟩ := tarFrom_archive (some e) es hes ((b.header ++ b.content ++ b.padding).take n) 0 ⟨0, rfl⟩
  rw [tarFrom_cut e hb n hn pos hp] at h
  simp only [List.map_cons, List.map_nil, applyFilters, Gen.ofList, Gen.flatMap, FilterWorld.filter, FilterWorld.decompress, hf,
    h, hb.header.length, Gen.map, List.append_nil]

/-- **C118** (`xml` without `file`): a line is taken as the name of a file, with its newline; if there is none, or it is not
valid, nothing is extracted and there is no exception. -/
theorem C118_xml_line (w : FilterWorld) (fs : List FilterName) (line : Text) :
    (∀ e, w.openFile line = .error e → w.extract (.xml :: fs) line = ⟨[], none⟩) ∧
    (∀ b e, w.openFile line = .ok b → w.parseXml b = .error e → w.extract (.xml :: fs) line = ⟨[], none⟩) ∧
    ∀ b d, w.openFile line = .ok b → w.parseXml b = .ok d → applyFilters ([.xml].map w.filter) (.ofList [.str line]) =
      .ofList [.doc d] := by
  have hn : ∀ fs : List (FilterItem → Gen FilterItem), applyFilters fs ⟨[], none⟩ = ⟨[], none⟩ := by
    intro fs
    induction fs with
    | nil => rfl
    | cons f fs ih => rw [applyFilters]; exact ih
  refine ⟨fun e h => ?_, fun b e h h' => ?_, fun b d h h' => ?_⟩
  · have : w.minidomParse (.str line) = .error e := by simp [FilterWorld.minidomParse, h]; rfl
    simp only [FilterWorld.extract, List.map_cons, applyFilters, Gen.ofList, Gen.flatMap, FilterWorld.filter, this, hn,
      List.append_nil]
  · have : w.minidomParse (.str line) = .error e := by simp [FilterWorld.minidomParse, h]; exact h'
    simp only [FilterWorld.extract, List.map_cons, applyFilters, Gen.ofList, Gen.flatMap, FilterWorld.filter, this, hn,
      List.append_nil]
  · have : w.minidomParse (.str line) = .ok d := by simp [FilterWorld.minidomParse, h]; exact h'
    simp only [List.map_cons, List.map_nil, applyFilters, Gen.ofList, Gen.flatMap, FilterWorld.filter, this, List.append_nil]

/-- **C118** (`README.rst:21-24`, false): with the filters `file text` the lines of a corpus are names of files, and a text
that is not one is not typed but an exception; `lines` types it. -/
theorem C118_readme_false (w : FilterWorld) (line name : Text) (h : NameLine w line name) (e : PyErr)
    (hf : w.openFile name = .error e) :
    w.extract [.file, .text] line = ⟨[], some e⟩ ∧ w.extract [.lines] line = ⟨[line], none⟩ := by
  constructor
  · simp only [FilterWorld.extract, List.map_cons, List.map_nil, applyFilters, Gen.ofList, Gen.flatMap, FilterWorld.filter,
      nameLine_rstrip h, hf]
    rfl
  · rfl

/-! ### Examples -/

/-- An archive of an empty file, a page of one byte and another one of two. -/
def demoEntries : List TarEntry :=
  [ ⟨demoHeader 0, [], []⟩, ⟨demoHeader 1, [1], List.replicate 511 0⟩, ⟨demoHeader 2, [2, 3], List.replicate 510 0⟩ ]

theorem demoEntries_ok : ∀ e ∈ demoEntries, e.Ok := by
  intro e he
  simp only [demoEntries, List.mem_cons, List.not_mem_nil, or_false] at he
  rcases he with rfl | rfl | rfl
  · exact ⟨demoHeader_ok 0, by decide, by decide⟩
  · refine ⟨demoHeader_ok 1, by decide, ?_⟩
    rw [List.length_replicate]; decide
  · refine ⟨demoHeader_ok 2, by decide, ?_⟩
    rw [List.length_replicate]; decide

/-- A single file, whose first byte is compression, and simple-minded parsers. -/
def demoFilters (file : Bytes) : FilterWorld where
  isSpace c := c == '\n'
  entities := []
  openFile n := if n = ['a'] then .ok file else .error .fileNotFound
  unbrotli b := match b with
    | [] => ([], .starved)
    | _ :: b => (b, .finished)
  unbrotli_nil := rfl
  parseHtmlBytes b := if b.length = 1 then .ok demoPage else .ok []
  parseHtmlText _ := .ok demoPage
  parseXml b := if b.length = 1 then .ok demoTei else .error .otherError
  decode b := if b = [1] then .ok ['t'] else .error .valueError
  readEpub _ := .ok [[1], [1]]
  jsonOther _ := .error .typeError
  pandoc t := .ok (some t)

theorem demo_nameLine (file : Bytes) : NameLine (demoFilters file) ['a', '\n'] ['a'] :=
  ⟨⟨['\n'], by decide, by simp [demoFilters]⟩, by intro c hc; simp at hc; subst hc; simp [demoFilters]⟩

theorem demo_archive (content : Bytes) (h : content = archive demoEntries) :
    ArchiveFile (demoFilters (7 :: content)) ['a'] [[1], [2, 3]] :=
  ⟨7 :: content, content, demoEntries, [], by simp [demoFilters], by simp [demoFilters], demoEntries_ok,
    by rw [h, List.append_nil], .inl rfl, by rfl⟩

example : ∃ content, LineTexts (demoFilters (7 :: content)) "un-v1.0-tei" ['a', '\n']
    ["ab\nc\n\nd\n".toList] := by
  generalize h : archive demoEntries = content
  exact ⟨content, .un (tss := [["ab\nc\n\nd\n".toList], []]) (demo_nameLine _) (demo_archive _ h.symm)
    (.cons (.inr ⟨demoTei, _, by simp [demoFilters],
      ⟨by simp [demoTei, XNotNestedAll, XNotNested, XNone, XNone1], by decide +kernel⟩, rfl⟩)
    (.cons (.inl ⟨.otherError, by simp [demoFilters], rfl⟩) .nil))⟩

example : ∃ content t, t ≠ [] ∧ LineTexts (demoFilters (7 :: content)) "bbcarabic" ['a', '\n'] [t, []] := by
  generalize h : archive demoEntries = content
  refine ⟨content, nodesText true (selectedElementsAll (IsArticle "property" "articleBody") demoPage), by decide +kernel,
    .bbcarabic (demo_nameLine _) (demo_archive _ h.symm)
      (.cons ⟨demoPage, by simp [demoFilters], ?_, ?_, rfl⟩ (.cons ⟨[], by simp [demoFilters], trivial, trivial, rfl⟩ .nil))⟩
  · simp [demoPage, ScriptsOkAll, ScriptsOk, NoElementAll, NoElement, IsScript, IsArticle]
  · simp [demoPage, NotNestedAll, NotNested, NoElementAll, NoElement, IsArticle, Dict.get?]

example (file : Bytes) :
    LineTexts (demoFilters file) "hindawi" ['b', '\n'] [nodesText false demoPage, nodesText false demoPage] :=
  .hindawi (name := ['b']) (docs := [[1], [1]])
    ⟨⟨['\n'], by decide, by simp [demoFilters]⟩, by intro c hc; simp at hc; subst hc; simp [demoFilters]⟩ rfl
    (.cons ⟨['t'], demoPage, by simp [demoFilters], rfl, rfl⟩
      (.cons ⟨['t'], demoPage, by simp [demoFilters], rfl, rfl⟩ .nil))

/-- The first two entries are complete, decompression fails in the padding of the third. -/
example : ∃ w : FilterWorld, ∃ file, w.unbrotli file = (archive (demoEntries.take 2) ++
    ((demoHeader 2) ++ [2, 3] ++ List.replicate 510 0).take 600, .corrupt .valueError) := by
  generalize archive (demoEntries.take 2) ++ ((demoHeader 2) ++ [2, 3] ++ List.replicate 510 0).take 600 = content
  refine ⟨{ demoFilters [] with
            unbrotli := fun b => match b with
              | [] => ([], .starved)
              | _ :: b => (b, .corrupt .valueError)
            unbrotli_nil := rfl }, 7 :: content, rfl⟩

/-- A line of text. -/
example : NameLine (demoFilters []) ['t', 'e', 'x', 't', '\n'] ['t', 'e', 'x', 't'] ∧
    (demoFilters []).openFile ['t', 'e', 'x', 't'] = .error .fileNotFound :=
  ⟨⟨⟨['\n'], by decide, by simp [demoFilters]⟩, by intro c hc; simp at hc; subst hc; simp [demoFilters]⟩, rfl⟩

end Lulua.Props
