import Verif.Proofs.Page
import Verif.Props.Analyze
import Verif.Data.Corpora
import Verif.Data.Layouts

/-!
# C119: the page of the report
-/

namespace Lulua.Props
open Lulua Spec

/-- The documents in the metadata files. -/
def corpusDocs (files : List (List (Option CorpusDoc))) : List CorpusDoc := files.flatMap fun f => f.filterMap id

theorem corpusTable_works (lower : Text → Text) (lang : PageLang) (docs : List CorpusDoc) (total : Nat × Nat) :
    (∃ t, corpusTable lower lang docs total = .ok t) ↔
      (∀ d ∈ docs, HasMetadata d ∧ ∀ x, d.stats = some x → x.1 < 10 ^ 27 ∧ x.2 < 10 ^ 27) ∧
      (2 ≤ docs.length → ∀ d ∈ docs, englishName d ≠ none) ∧ total.1 < 10 ^ 27 ∧ total.2 < 10 ^ 27 := by
  simp only [corpusTable, bind_ok_iff]
  constructor
  · rintro ⟨t, sorted, hs, rows, hr, w, hw, c, hc, _⟩
    obtain ⟨h1, h2, rfl⟩ := sortCorpora_ok.1 hs
    refine ⟨fun d hd => ?_, h2, (figureCell_works lang _).1 ⟨c, hc⟩, (figureCell_works lang _).1 ⟨w, hw⟩⟩
    rw [mapM_ok_iff] at hr
    obtain ⟨r, _, hr⟩ := forall₂_left_mem hr ((sortCorpora_sorted lower docs).1.symm.subset hd)
    exact (corpusRow_works lang d).1 ⟨r, hr⟩
  · rintro ⟨h1, h2, h3, h4⟩
    obtain ⟨w, hw⟩ := (figureCell_works lang total.2).2 h4
    obtain ⟨c, hc⟩ := (figureCell_works lang total.1).2 h3
    obtain ⟨rows, hr⟩ := (mapM_exists_iff (corpusRow lang) (docs.insertionSort fun a b => textLe (keyOf lower a) (keyOf lower b))).2
      fun d hd => (corpusRow_works lang d).2 (h1 d ((sortCorpora_sorted lower docs).1.subset hd))
    exact ⟨_, _, sortCorpora_ok.2 ⟨fun d hd => (h1 d hd).1.source, h2, rfl⟩, rows, hr, w, hw, c, hc, rfl⟩

theorem corpusTotal_docs {docs : List CorpusDoc} {r : Nat × Nat} : corpusTotal (docs.map (·.stats)) = .ok r ↔
    (∀ d ∈ docs, d.stats ≠ none) ∧ r = (sumOf Prod.fst docs, sumOf Prod.snd docs) := by
  by_cases h : ∀ d ∈ docs, d.stats ≠ none
  · have e : docs.map (·.stats) = (docs.filterMap (·.stats)).map some := by
      induction docs with
      | nil => rfl
      | cons d docs ih =>
        obtain ⟨x, hx⟩ := Option.ne_none_iff_exists'.1 (h d List.mem_cons_self)
        rw [List.map_cons, List.filterMap_cons_some hx, List.map_cons, ih fun d hd => h d (List.mem_cons_of_mem _ hd), hx]
    rw [(C90_report_total _).1 _ e, Except.ok.injEq]
    exact ⟨fun hr => ⟨h, hr.symm⟩, fun hr => hr.2.symm⟩
  · refine iff_of_false (fun hr => ?_) fun hr => h hr.1
    simp only [not_forall] at h
    obtain ⟨d, hd, hno⟩ := h
    simp only [ne_eq, not_not] at hno
    obtain ⟨e, he⟩ := (C90_report_total _).2.2 (List.mem_map.2 ⟨d, hd, hno⟩)
    rw [hr] at he
    cases he

theorem le_sumOf {docs : List CorpusDoc} {d : CorpusDoc} (hd : d ∈ docs) {x : Nat × Nat} (hx : d.stats = some x) (f : Nat × Nat → Nat) :
    f x ≤ sumOf f docs := by
  unfold sumOf
  exact List.single_le_sum (fun _ _ => Nat.zero_le _) _ (List.mem_map.2 ⟨x, List.mem_filterMap.2 ⟨d, hd, hx⟩, rfl⟩)

theorem layoutTable_ok {files : List (String × LayoutStats)} {name : String} {t : LayoutTable} :
    layoutTable (files.foldl (fun d x => Dict.set d x.1 x.2) []) name = .ok t ↔
      ∃ s bars, LastOf files name s ∧ fingerHandStats s.toHandStats = .ok bars ∧ t = ⟨name, bars, s.asymmetry⟩ := by
  simp only [layoutTable, bind_ok_iff, used_ok, lastOf_iff, Except.ok.injEq]
  constructor
  · rintro ⟨s, hs, bars, hb, rfl⟩
    exact ⟨s, bars, hs, hb, rfl⟩
  · rintro ⟨s, bars, hs, hb, rfl⟩
    exact ⟨s, hs, bars, hb, rfl⟩

/-- **C119** (when there is a page): exactly if every document has a source with a name, a number and a kind for its texts
if it has any of both, and figures; several documents have English names; the sums are below 10²⁷; and there is a file
for each of the twelve layouts whose last one has presses of every finger. -/
theorem C119_renders_iff (lower : Text → Text) (corpusFiles : List (List (Option CorpusDoc)))
    (statsFiles : List (String × LayoutStats)) :
    (∃ p, renderPage lower corpusFiles statsFiles = .ok p) ↔
      (∀ d ∈ corpusDocs corpusFiles, HasMetadata d) ∧
      (2 ≤ (corpusDocs corpusFiles).length → ∀ d ∈ corpusDocs corpusFiles, englishName d ≠ none) ∧
      sumOf Prod.fst (corpusDocs corpusFiles) < 10 ^ 27 ∧ sumOf Prod.snd (corpusDocs corpusFiles) < 10 ^ 27 ∧
      ∀ name ∈ genLayouts, ∃ s, LastOf statsFiles name s ∧ AllFingers s := by
  have hperm : ∀ x, x ∈ pageLayouts ↔ x ∈ genLayouts := by
    have : pageLayouts.Perm genLayouts := by decide +kernel
    exact fun x => this.mem_iff
  simp only [renderPage, bind_ok_iff, used_ok, lastOf_iff, ← hperm]
  change (∃ p t, corpusTotal ((corpusDocs corpusFiles).map (·.stats)) = .ok t ∧ ∃ ar, corpusTable lower .ar (corpusDocs corpusFiles) t = .ok ar ∧
    ∃ en, corpusTable lower .en (corpusDocs corpusFiles) t = .ok en ∧ _) ↔ _
  generalize corpusDocs corpusFiles = docs
  constructor
  · rintro ⟨p, t, ht, ar, har, en, hen, osx, hosx, f, hf, ls, hls, _⟩
    obtain ⟨_, rfl⟩ := corpusTotal_docs.1 ht
    obtain ⟨h1, h2, h3, h4⟩ := (corpusTable_works lower .ar docs _).1 ⟨ar, har⟩
    refine ⟨fun d hd => (h1 d hd).1, h2, h3, h4, fun name hn => ?_⟩
    rw [mapM_ok_iff] at hls
    obtain ⟨t, _, ht⟩ := forall₂_left_mem hls hn
    obtain ⟨s, bars, hs, hb, _⟩ := layoutTable_ok.1 ht
    exact ⟨s, hs, allFingers_iff.1 ⟨bars, hb⟩⟩
  · rintro ⟨h1, h2, h3, h4, h5⟩
    have hcond : ∀ d ∈ docs, HasMetadata d ∧ ∀ x, d.stats = some x → x.1 < 10 ^ 27 ∧ x.2 < 10 ^ 27 := fun d hd =>
      ⟨h1 d hd, fun x hx => ⟨lt_of_le_of_lt (le_sumOf hd hx Prod.fst) h3, lt_of_le_of_lt (le_sumOf hd hx Prod.snd) h4⟩⟩
    obtain ⟨ar, har⟩ := (corpusTable_works lower .ar docs (sumOf Prod.fst docs, sumOf Prod.snd docs)).2 ⟨hcond, h2, h3, h4⟩
    obtain ⟨en, hen⟩ := (corpusTable_works lower .en docs (sumOf Prod.fst docs, sumOf Prod.snd docs)).2 ⟨hcond, h2, h3, h4⟩
    obtain ⟨osx, hosx, _⟩ := h5 "ar-osx" (by decide +kernel)
    obtain ⟨f, hf, _⟩ := C76_nearest osx.hamzaOnAlef 10 (by norm_num)
    obtain ⟨ls, hls⟩ := (mapM_exists_iff (layoutTable (statsFiles.foldl (fun d x => Dict.set d x.1 x.2) [])) pageLayouts).2
      fun name hn => by
        obtain ⟨s, hs, ha⟩ := h5 name hn
        obtain ⟨bars, hb⟩ := allFingers_iff.2 ha
        exact ⟨_, layoutTable_ok.2 ⟨s, bars, hs, hb, rfl⟩⟩
    exact ⟨_, _, corpusTotal_docs.2 ⟨fun d hd => (h1 d hd).stats, rfl⟩, ar, har, en, hen, osx, hosx, _, hf, ls, hls, rfl⟩

/-- **C119** (the corpora): every document has one row, the rows are in the order of the English names without regard to
case, the same for both languages; the last row shows the sums. -/
theorem C119_corpora (lower : Text → Text) (corpusFiles : List (List (Option CorpusDoc)))
    (statsFiles : List (String × LayoutStats)) (p : Page) (h : renderPage lower corpusFiles statsFiles = .ok p) :
    ∃ docs, docs.Perm (corpusDocs corpusFiles) ∧
      docs.Pairwise (fun a b => NotAfter (lower ((englishName a).getD [])) (lower ((englishName b).getD []))) ∧
      List.Forall₂ (RowShows .ar) docs p.ar.rows ∧ List.Forall₂ (RowShows .en) docs p.en.rows ∧
      ShowsAbout .ar (sumOf Prod.snd docs) p.ar.words ∧ ShowsAbout .ar (sumOf Prod.fst docs) p.ar.characters ∧
      ShowsAbout .en (sumOf Prod.snd docs) p.en.words ∧ ShowsAbout .en (sumOf Prod.fst docs) p.en.characters := by
  simp only [renderPage, bind_ok_iff, Except.ok.injEq] at h
  obtain ⟨t, ht, ar, har, en, hen, osx, _, f, _, ls, _, rfl⟩ := h
  change corpusTotal ((corpusDocs corpusFiles).map (·.stats)) = .ok t at ht
  change corpusTable lower .ar (corpusDocs corpusFiles) t = .ok ar at har
  change corpusTable lower .en (corpusDocs corpusFiles) t = .ok en at hen
  generalize corpusDocs corpusFiles = docs at ht har hen
  obtain ⟨_, rfl⟩ := corpusTotal_docs.1 ht
  obtain ⟨hp, hs⟩ := sortCorpora_sorted lower docs
  have hsum : ∀ f, sumOf f (docs.insertionSort fun a b => textLe (keyOf lower a) (keyOf lower b)) = sumOf f docs := by
    intro f
    unfold sumOf
    exact ((hp.filterMap _).map f).sum_eq
  simp only [corpusTable, bind_ok_iff, mapM_ok_iff, Except.ok.injEq] at har hen
  obtain ⟨s1, hs1, r1, hr1, w1, hw1, c1, hc1, rfl⟩ := har
  obtain ⟨s2, hs2, r2, hr2, w2, hw2, c2, hc2, rfl⟩ := hen
  obtain ⟨_, _, rfl⟩ := sortCorpora_ok.1 hs1
  obtain ⟨_, _, rfl⟩ := sortCorpora_ok.1 hs2
  refine ⟨_, hp, hs, hr1.imp fun _ _ => corpusRow_shows, hr2.imp fun _ _ => corpusRow_shows, ?_⟩
  rw [hsum, hsum]
  exact ⟨figureCell_shows hw1, figureCell_shows hc1, figureCell_shows hw2, figureCell_shows hc2⟩

/-- **C119** (the layouts): the tables are those of the last files of the layouts, every layout of `gen.sh` has one, and
the figures about hamza are those of `ar-osx`. -/
theorem C119_layouts (lower : Text → Text) (corpusFiles : List (List (Option CorpusDoc)))
    (statsFiles : List (String × LayoutStats)) (p : Page) (h : renderPage lower corpusFiles statsFiles = .ok p) :
    (p.layouts.map LayoutTable.layout).Perm genLayouts ∧
    (∀ t ∈ p.layouts, ∃ s, LastOf statsFiles t.layout s ∧ fingerHandStats s.toHandStats = .ok t.bars ∧ t.asymmetry = s.asymmetry) ∧
    ∃ s, LastOf statsFiles "ar-osx" s ∧ p.hamzaImpact = s.hamzaImpact * 100 ∧ fraction s.hamzaOnAlef 10 = .ok p.hamzaOnAlef := by
  simp only [renderPage, bind_ok_iff, used_ok, lastOf_iff, mapM_ok_iff, Except.ok.injEq] at h
  obtain ⟨t, _, ar, _, en, _, osx, hosx, f, hf, ls, hls, rfl⟩ := h
  refine ⟨?_, ?_, osx, hosx, rfl, hf⟩
  · have e : ls.map LayoutTable.layout = pageLayouts := by
      have : ∀ {names : List String} {ts : List LayoutTable}, List.Forall₂ (fun n t =>
          layoutTable (statsFiles.foldl (fun d x => Dict.set d x.1 x.2) []) n = .ok t) names ts →
          ts.map LayoutTable.layout = names := by
        intro names ts hh
        induction hh with
        | nil => rfl
        | cons h _ ih =>
          obtain ⟨s, bars, _, _, rfl⟩ := layoutTable_ok.1 h
          rw [List.map_cons, ih]
      exact this hls
    dsimp only
    rw [e]
    decide +kernel
  · intro t ht
    obtain ⟨n, _, hn⟩ := forall₂_right_mem hls ht
    obtain ⟨s, bars, hs, hb, rfl⟩ := layoutTable_ok.1 hn
    exact ⟨s, hs, hb, rfl⟩

theorem genLayouts_shipped : genLayouts.all (fun n => Data.layouts.any fun d => d.name = n) = true := by decide +kernel

/-! ### Links -/

theorem takeWhile_stop {p : Char → Bool} {s : Text} {c : Char} {t : Text} (hs : ∀ x ∈ s, p x = true) (hc : p c = false) :
    (s ++ c :: t).takeWhile p = s := by
  rw [List.takeWhile_append_of_pos hs, List.takeWhile_cons_of_neg (by simp [hc]), List.append_nil]

/-- **C119**, true part (links): without quotation mark in the address and `<` in the name the cell has this address and
this name. -/
theorem C119_link_partial (r : CorpusRow) (hu : '"' ∉ r.url) (hn : '<' ∉ r.name) : readLink (linkCell r) = some (r.url, r.name) := by
  have e : linkCell r = "<td><a href=\"".toList ++ (r.url ++ '"' :: '>' :: (r.name ++ '<' :: "/a></td>".toList)) := by
    unfold linkCell
    simp [List.append_assoc]
  generalize hst : "<td><a href=\"".toList = start at e
  have h1 : (r.url ++ '"' :: '>' :: (r.name ++ '<' :: "/a></td>".toList)).takeWhile (· ≠ '"') = r.url :=
    takeWhile_stop (fun x hx => by simp only [decide_eq_true_eq]; rintro rfl; exact hu hx) rfl
  have h2 : (r.name ++ '<' :: "/a></td>".toList).takeWhile (· ≠ '<') = r.name :=
    takeWhile_stop (fun x hx => by simp only [decide_eq_true_eq]; rintro rfl; exact hn hx) rfl
  unfold readLink
  dsimp only
  rw [hst, e, if_pos (List.isPrefixOf_iff_prefix.2 (List.prefix_append _ _)), List.drop_left, h1, List.drop_left,
    if_pos (by simp)]
  rw [show List.drop 2 ('"' :: '>' :: (r.name ++ '<' :: "/a></td>".toList)) = r.name ++ '<' :: "/a></td>".toList from rfl, h2,
    List.drop_left, if_pos (by simp)]

/-- **C119** is false as a user expects it: a name with `<` is taken as markup. -/
theorem C119_link_false : ∃ (d : CorpusDoc) (r : CorpusRow), HasMetadata d ∧ corpusRow .en d = .ok r ∧
    r.name = ['a', '<', 'b'] ∧ readLink (linkCell r) = none := by
  refine ⟨⟨some ⟨some ⟨some ['a', '<', 'b'], none⟩, none⟩, none, some (1, 1)⟩, _, ⟨⟨_, _, rfl, rfl⟩, by simp, by simp⟩, rfl, rfl, ?_⟩
  decide +kernel

/-! ### The shipped corpora -/

/-- Checks on the metadata of a corpus. -/
def metadataOk (d : CorpusDoc) : Bool :=
  match d.source with
  | none => false
  | some s =>
    match s.name, s.url with
    | some n, some u => n.en.isSome && n.ar.isSome && !u.contains '"' && !(printed n.en).contains '<' && !(printed n.ar).contains '<' &&
        match d.count with
        | none => true
        | some c => c.num.isSome && c.kind.isSome
    | _, _ => false

/-- The documents of the shipped corpora have what the page uses, and the figures they were given. -/
theorem corpora_docs (figures : List (Nat × Nat)) (hlen : figures.length = 8) :
    (∀ m ∈ Data.corpora, ∀ x, metadataOk (m x) = true ∧ (m x).stats = x) ∧
    corpusDocs (List.zipWith (fun m x => [some (m (some x))]) Data.corpora figures) =
      List.zipWith (fun m x => m (some x)) Data.corpora figures ∧
    (List.zipWith (fun m x => m (some x)) Data.corpora figures).filterMap (·.stats) = figures := by
  have hck : ∀ m ∈ Data.corpora, ∀ x, metadataOk (m x) = true ∧ (m x).stats = x := by
    intro m hm x
    have h1 : Data.corpora.all (fun m => metadataOk (m none)) = true := by decide +kernel
    have h2 : ∀ m ∈ Data.corpora, metadataOk (m x) = metadataOk (m none) ∧ (m x).stats = x := by
      intro m hm
      simp only [Data.corpora, List.mem_cons, List.not_mem_nil, or_false] at hm
      rcases hm with rfl | rfl | rfl | rfl | rfl | rfl | rfl | rfl <;> exact ⟨rfl, rfl⟩
    exact ⟨(h2 m hm).1.trans (List.all_eq_true.1 h1 m hm), (h2 m hm).2⟩
  have hlenC : Data.corpora.length = 8 := rfl
  have hdocs : corpusDocs (List.zipWith (fun m x => [some (m (some x))]) Data.corpora figures) =
      List.zipWith (fun m x => m (some x)) Data.corpora figures := by
    unfold corpusDocs
    generalize Data.corpora = cs
    clear hlen
    induction cs generalizing figures with
    | nil => rfl
    | cons c cs ih =>
      cases figures with
      | nil => rfl
      | cons f fs => simp only [List.zipWith_cons_cons, List.flatMap_cons, ih fs]; rfl
  have hstats : (List.zipWith (fun m x => m (some x)) Data.corpora figures).filterMap (·.stats) = figures := by
    have hck' : ∀ m ∈ Data.corpora, ∀ x, (m x).stats = x := fun m hm x => (hck m hm x).2
    have hl : figures.length = Data.corpora.length := by rw [hlen, hlenC]
    clear hck hdocs hlenC hlen
    revert hck' hl
    generalize Data.corpora = cs
    intro hck' hl
    induction cs generalizing figures with
    | nil => exact (List.eq_nil_of_length_eq_zero hl).symm
    | cons c cs ih =>
      cases figures with
      | nil => simp at hl
      | cons f fs =>
        rw [List.zipWith_cons_cons, List.filterMap_cons_some (hck' c List.mem_cons_self _),
          ih fs (fun m hm x => hck' m (List.mem_cons_of_mem _ hm) x) (by simpa using hl)]
  exact ⟨hck, hdocs, hstats⟩

/-- **C119** (shipped): with figures for each of the eight corpora and statistics of the twelve layouts in which every
finger has pressed something there is a page, and its rows have the addresses and the names of the metadata. -/
theorem C119_shipped (lower : Text → Text) (figures : List (Nat × Nat)) (hlen : figures.length = 8)
    (hsum : (figures.map Prod.fst).sum < 10 ^ 27 ∧ (figures.map Prod.snd).sum < 10 ^ 27)
    (statsFiles : List (String × LayoutStats)) (hnames : statsFiles.map Prod.fst = genLayouts)
    (hall : ∀ x ∈ statsFiles, AllFingers x.2) :
    ∃ p, renderPage lower (List.zipWith (fun m x => [some (m (some x))]) Data.corpora figures) statsFiles = .ok p ∧
      p.ar.rows.length = 8 ∧ p.en.rows.length = 8 ∧
      ∀ r, r ∈ p.ar.rows ∨ r ∈ p.en.rows → readLink (linkCell r) = some (r.url, r.name) := by
  obtain ⟨hck, hdocs, hstats⟩ := corpora_docs figures hlen
  have hlenC : Data.corpora.length = 8 := rfl
  have hmem : ∀ d ∈ List.zipWith (fun m x => m (some x)) Data.corpora figures, metadataOk d = true ∧ d.stats ≠ none := by
    intro d hd
    obtain ⟨m, hm, x, hx⟩ : ∃ m ∈ Data.corpora, ∃ x, d = m (some x) := by
      rw [← List.map_uncurry_zip_eq_zipWith] at hd
      obtain ⟨p, hp, rfl⟩ := List.mem_map.1 hd
      exact ⟨p.1, (List.of_mem_zip hp).1, p.2, rfl⟩
    rw [hx, (hck m hm _).2]
    exact ⟨(hck m hm _).1, by simp⟩
  have hmeta : ∀ d, metadataOk d = true → d.stats ≠ none → HasMetadata d ∧ englishName d ≠ none ∧
      ∃ s n u, d.source = some s ∧ s.name = some n ∧ s.url = some u ∧ '"' ∉ u ∧ ∀ lang, '<' ∉ nameIn lang n := by
    intro d h1 h2
    unfold metadataOk at h1
    cases hs : d.source with
    | none => rw [hs] at h1; cases h1
    | some s =>
      rw [hs] at h1
      dsimp only at h1
      cases hn : s.name with
      | none => rw [hn] at h1; cases h1
      | some n =>
        cases hu : s.url with
        | none => rw [hn, hu] at h1; cases h1
        | some u =>
          rw [hn, hu] at h1
          simp only [Bool.and_eq_true, Bool.not_eq_true', List.contains_eq_mem, decide_eq_false_iff_not] at h1
          obtain ⟨⟨⟨⟨⟨he, ha⟩, hq⟩, hle⟩, hla⟩, hc⟩ := h1
          refine ⟨⟨⟨s, n, hs, hn⟩, fun c hcc => ?_, h2⟩, ?_, s, n, u, rfl, hn, hu, hq, fun lang => ?_⟩
          · rw [hcc] at hc
            simp only [Bool.and_eq_true] at hc
            exact ⟨Option.isSome_iff_ne_none.1 hc.1, Option.isSome_iff_ne_none.1 hc.2⟩
          · have : englishName d = n.en := by simp [englishName, hs, hn]
            rw [this]
            exact Option.isSome_iff_ne_none.1 he
          · cases lang
            · exact hla
            · exact hle
  have hlast : ∀ name ∈ genLayouts, ∃ s, LastOf statsFiles name s ∧ AllFingers s := by
    intro name hname
    have hnd : (statsFiles.map Prod.fst).Nodup := by rw [hnames]; decide +kernel
    rw [← hnames] at hname
    obtain ⟨x, hx, rfl⟩ := List.mem_map.1 hname
    obtain ⟨a, b, rfl⟩ := List.append_of_mem hx
    refine ⟨x.2, ⟨a, b, rfl, fun y hy e => ?_⟩, hall x hx⟩
    rw [List.map_append, List.map_cons, List.nodup_append] at hnd
    exact (List.nodup_cons.1 hnd.2.1).1 (List.mem_map.2 ⟨y, hy, e⟩)
  obtain ⟨p, hp⟩ := (C119_renders_iff lower (List.zipWith (fun m x => [some (m (some x))]) Data.corpora figures) statsFiles).2 (by
    rw [hdocs]
    refine ⟨fun d hd => (hmeta d (hmem d hd).1 (hmem d hd).2).1, fun _ d hd => (hmeta d (hmem d hd).1 (hmem d hd).2).2.1, ?_, ?_, hlast⟩
    · unfold sumOf; rw [hstats]; exact hsum.1
    · unfold sumOf; rw [hstats]; exact hsum.2)
  obtain ⟨docs, h1, _, h3, h4, _⟩ := C119_corpora lower _ _ p hp
  rw [hdocs] at h1
  have hl : docs.length = 8 := by rw [h1.length_eq, List.length_zipWith, hlenC, hlen]; rfl
  refine ⟨p, hp, by rw [← h3.length_eq, hl], by rw [← h4.length_eq, hl], ?_⟩
  have key : ∀ lang d r, d ∈ docs → RowShows lang d r → readLink (linkCell r) = some (r.url, r.name) := by
    intro lang d r hd hr
    have hd' := hmem d (h1.subset hd)
    obtain ⟨_, _, s, n, u, e1, e2, e3, hq, hlt⟩ := hmeta d hd'.1 hd'.2
    obtain ⟨s', n', f1, f2, f3, f4⟩ := hr.source
    rw [e1] at f1
    cases f1
    rw [e2] at f2
    cases f2
    refine C119_link_partial r ?_ ?_
    · rw [f3, e3]; exact hq
    · rw [f4]; exact hlt lang
  rintro r (hr | hr)
  · obtain ⟨d, hd, hrow⟩ := forall₂_right_mem h3 hr
    exact key .ar d r hd hrow
  · obtain ⟨d, hd, hrow⟩ := forall₂_right_mem h4 hr
    exact key .en d r hd hrow

/-! ### Variables of the template -/

/-- The four variables of a letter. -/
def letterVars (lower : Text → Text) (x : String × Text × Text) : List (String × Text) :=
  [(x.1, letterText x.2.1 x.2.2), (x.1.toLower, lower (letterText x.2.1 x.2.2)), (x.1 ++ "_", x.2.1), (x.1.toLower ++ "_", lower x.2.1)]

theorem letterGlobals_eq (lower : Text → Text) (l : Dict String (Text × Text)) (g : Dict String Text) :
    letterGlobals lower g l = (l.flatMap (letterVars lower)).foldl (fun d x => d.set x.1 x.2) g := by
  induction l generalizing g with
  | nil => rfl
  | cons x l ih => rw [letterGlobals, ih, List.flatMap_cons, List.foldl_append]; rfl

/-- The names of the variables of a letter. -/
def letterVarNames (k : String) : List String := [k, k.toLower, k ++ "_", k.toLower ++ "_"]

theorem letterVars_fst (lower : Text → Text) (l : Dict String (Text × Text)) :
    (l.flatMap (letterVars lower)).map Prod.fst = l.flatMap fun x => letterVarNames x.1 := by
  rw [List.map_flatMap]; rfl

theorem letterVars_nodup : (letterNames.flatMap fun x => letterVarNames x.1).Nodup := by decide +kernel

/-- The variables the template uses besides those it sets itself (`index.html`, all of it). -/
def templateVars : List String :=
  ["bokehres", "hamzah", "tamarbutah", "alifmaqsurah", "corpus", "corpustotal", "alif", "lam", "ya", "mim", "waw", "nun", "Alif",
    "alifhamzah", "wawhamzah", "yahamzah", "alifhamzah_", "alif_", "hamzah_", "layoutstats", "fingerhandstats", "Direction",
    "fingerOrder", "ta", "ra", "lamalif", "dal", "dhal", "tha", "ba", "qaf"]

/-- **C119** (letters): each letter has its four variables, none of which replaces another one or one of jinja's, and
the template uses no variable that is not defined. -/
theorem C119_letters (lower : Text → Text) (globals : Dict String Text) :
    (∀ k romanized arabic, (k, romanized, arabic) ∈ letterNames →
      (letterGlobals lower globals letterNames).get? k = some (letterText romanized arabic) ∧
      (letterGlobals lower globals letterNames).get? k.toLower = some (lower (letterText romanized arabic)) ∧
      (letterGlobals lower globals letterNames).get? (k ++ "_") = some romanized ∧
      (letterGlobals lower globals letterNames).get? (k.toLower ++ "_") = some (lower romanized)) ∧
    (∀ n ∈ otherGlobals, (letterGlobals lower globals letterNames).get? n = globals.get? n) ∧
    ∀ n ∈ templateVars, n ∈ otherGlobals ∨ (letterGlobals lower globals letterNames).get? n ≠ none := by
  have hval : ∀ y ∈ letterNames.flatMap (letterVars lower), (letterGlobals lower globals letterNames).get? y.1 = some y.2 := by
    intro y hy
    rw [letterGlobals_eq, Dict.get?_foldl_set]
    have hnd : ((letterNames.flatMap (letterVars lower)).map Prod.fst).Nodup := by
      rw [letterVars_fst]; exact letterVars_nodup
    have hwf : Dict.WF (letterNames.flatMap (letterVars lower)).reverse := by
      unfold Dict.WF
      rw [List.map_reverse]
      exact List.nodup_reverse.2 hnd
    rw [Dict.get?_of_mem hwf (List.mem_reverse.2 hy)]
    rfl
  refine ⟨fun k r a hm => ?_, fun n hn => ?_, fun n hn => ?_⟩
  · have := fun y hy => hval y (List.mem_flatMap.2 ⟨(k, r, a), hm, hy⟩)
    simp only [letterVars, List.mem_cons, List.not_mem_nil, or_false, forall_eq_or_imp, forall_eq] at this
    exact this
  · rw [letterGlobals_eq, Dict.get?_foldl_set]
    have hno : otherGlobals.all (fun n => !(letterNames.flatMap fun x => letterVarNames x.1).contains n) = true := by decide +kernel
    have := List.all_eq_true.1 hno n hn
    simp only [Bool.not_eq_true', List.contains_eq_mem, decide_eq_false_iff_not] at this
    rw [← letterVars_fst lower] at this
    have h0 : Dict.get? (letterNames.flatMap (letterVars lower)).reverse n = none := by
      refine Dict.get?_eq_none_iff.2 fun hm => this ?_
      simpa [Dict.keys] using hm
    rw [h0]
    rfl
  · have hck : templateVars.all (fun n => otherGlobals.contains n || (letterNames.flatMap fun x => letterVarNames x.1).contains n) = true := by
      decide +kernel
    have := List.all_eq_true.1 hck n hn
    simp only [Bool.or_eq_true, List.contains_eq_mem, decide_eq_true_eq] at this
    refine this.imp id fun h => ?_
    rw [← letterVars_fst lower] at h
    obtain ⟨y, hy, rfl⟩ := List.mem_map.1 h
    rw [hval y hy]
    simp

/-- **C119** (letters): every name stands for its letter, in the script and romanised. -/
theorem C119_letter_names : letterNames.map (fun x => (x.1, x.2.2.map Char.toNat)) = letterShapes ∧
    ∀ k romanized arabic, (k, romanized, arabic) ∈ letterNames → asciiName romanized = k.toList := by
  constructor
  · decide +kernel
  · have : ∀ x ∈ letterNames, asciiName x.2.1 = x.1.toList := by decide +kernel
    exact fun k r a h => this _ h

/-! ### Files and places -/

/-- **C119** (references): every file the page refers to is a target of `gen.sh`, and every link within it leads somewhere. -/
theorem C119_references : (∀ f ∈ pageFiles, f ∈ reportFiles) ∧ (∀ a ∈ pageAnchors, a ∈ pageIds) ∧
    ∀ n ∈ genLayouts, n ++ "-heat.svg" ∈ pageFiles := by
  have h1 : pageFiles.all (fun f => reportFiles.contains f) = true := by decide +kernel
  have h2 : pageAnchors.all (fun f => pageIds.contains f) = true := by decide +kernel
  have h3 : genLayouts.all (fun n => pageFiles.contains (n ++ "-heat.svg")) = true := by decide +kernel
  simp only [List.all_eq_true, List.contains_eq_mem, decide_eq_true_eq] at h1 h2 h3
  exact ⟨h1, h2, h3⟩

/-- **C119** is false: the file with instructions is not in the archive, and two places have the same name as another. -/
theorem C119_references_false : pageInstructions ∉ zipFiles ∧ ¬ pageIds.Nodup := by
  constructor <;> decide +kernel

/-! ### Examples -/

/-- Statistics with one press of every finger. -/
def demoLayoutStats (asymmetry : Rat) : LayoutStats where
  hands := [(.left, 5), (.right, 5)]
  fingers := Direction.all.flatMap fun d => Finger.all.map fun f => ((d, f), 1)
  buttonPresses := 10
  asymmetry := asymmetry
  hamzaImpact := 1 / 8
  hamzaOnAlef := 21 / 100

theorem demoLayoutStats_all (a : Rat) : AllFingers (demoLayoutStats a) := by
  refine ⟨by simp [demoLayoutStats], fun d => ⟨⟨5, by simp, ?_⟩, fun f => ?_⟩⟩
  · cases d <;> rfl
  · cases d <;> cases f <;> simp [demoLayoutStats, Direction.all, Finger.all, Dict.get?]

/-- Rows of a page. -/
def rowNames (p : Page) : List (Text × Text × Text) := p.en.rows.map fun r => (r.name, r.words.num, r.words.unit)

/-- A page with three corpora; there are two files of `ar-osx`. -/
def demoReport : Py Page := renderPage (fun s => s.map Char.toLower) [[some (Data.corpusHindawi (some (123456, 20000)))],
  [none, some (Data.corpusAljazeera (some (2500000, 1000000)))], [some (Data.corpusTanzilQuaran (some (999, 100)))]]
  (("ar-osx", demoLayoutStats 1) :: genLayouts.map fun n => (n, demoLayoutStats 0))

/-- What is on the page. -/
def demoReportOk : Bool :=
  match demoReport with
  | .error _ => false
  | .ok p =>
    decide (rowNames p = [("Al-Jazeera".toList, numspace "  1.0".toList, "million".toList),
      ("hindawi.org".toList, numspace " 20.0".toList, "thousand".toList), ("tanzil.net Quran".toList, "100.0".toList, [])]) &&
    decide (p.ar.rows.map (fun r => (r.characters.num, r.count.map Cell.num)) =
      [("  ٢٫٥".toList, some "٥٤٧٬١١٠".toList), ("١٢٣٫٥".toList, some "  ٢٬٢٢٧".toList), ("٩٩٩٫٠".toList, none)]) &&
    decide (p.en.words = ⟨numspace "  1.0".toList, "million".toList⟩) && decide (p.hamzaOnAlef = "1⁄5".toList) &&
    decide (p.layouts.map LayoutTable.asymmetry = List.replicate 12 0)

example : demoReportOk = true := by decide +kernel

/-- Without the file of a layout there is no page. -/
example : (renderPage id [] (genLayouts.tail.map fun n => (n, demoLayoutStats 0))).map rowNames = .error .otherError := by
  decide +kernel

example : readNumber "١٬٢٣٤".toList = some 1234 ∧ readNumber " 20.5".toList = some (20 + 5 / 10 ^ 1) ∧ readNumber "a".toList = none := by
  refine ⟨?_, ?_, ?_⟩ <;> decide +kernel

end Lulua.Props
