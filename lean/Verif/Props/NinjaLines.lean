import Verif.Props.Ninja
import Verif.Spec.NinjaLines

/-!
# What the commands of the build file do (C120)
-/

namespace Lulua.Props
open Lulua Lulua.Spec

/-! ### Command lines -/

/-- The command with its variables replaced. -/
def expanded (settings : Dict String Text) (b : Build) (ps : List CmdPart) : Text :=
  ps.flatMap fun
    | .text t => t
    | .var n => (b.lookup settings n).getD []

theorem command_parts {settings rules : Dict String Text} {b : Build} {r : String} {ps : List CmdPart} (hr : b.rule = r)
    (h : (rules.get? r).map cmdParts = some ps) : b.command settings rules = some (expanded settings b ps) := by
  subst hr
  cases hc : rules.get? b.rule with
  | none => rw [hc] at h; cases h
  | some c =>
    rw [hc] at h
    simp only [Option.map_some, Option.some.injEq] at h
    simp only [Build.command, hc, Option.map_some, h]
    rfl

/-- The statements for a layout after those for the corpora. -/
theorem layoutBuilds_tail (w : GenWorld) (l : String) :
    mkdirBuild (statsdir ++ [l]) :: (layoutBuilds ⟨[], [], [], [], [], [], []⟩ l).drop 10 ⊆ layoutBuilds w l := by
  intro b hb
  rcases List.mem_cons.1 hb with rfl | hb
  · exact List.mem_cons_self
  · exact List.mem_of_mem_drop (i := 10) (l := layoutBuilds w l) hb

/-- **C120** (lines): the command for every file of a layout. -/
theorem C120_layout_lines (w : GenWorld) : ∀ l ∈ genLayouts, ∀ x ∈ layoutLines l, ∃ b ∈ genBuild w, b.outs = [x.1] ∧
    b.command settings rules = some (x.2.flatMap String.toList) := by
  have key : (genLayouts.all fun l => (layoutLines l).all fun x =>
      (mkdirBuild (statsdir ++ [l]) :: (layoutBuilds ⟨[], [], [], [], [], [], []⟩ l).drop 10).any fun b =>
        b.outs == [x.1] && b.command settings rules == some (x.2.flatMap String.toList)) = true := by decide +kernel
  intro l hl x hx
  rw [List.all_eq_true] at key
  have h1 := key l hl
  rw [List.all_eq_true] at h1
  obtain ⟨b, hb, h2⟩ := List.any_eq_true.1 (h1 x hx)
  rw [Bool.and_eq_true, beq_iff_eq, beq_iff_eq] at h2
  exact ⟨b, mem_layout hl (layoutBuilds_tail w l hb), h2⟩

/-- **C120** (lines): the command for every file made once. -/
theorem C120_once_lines (w : GenWorld) : ∀ x ∈ onceLines, ∃ b ∈ genBuild w, x.1 ∈ b.outs ∧
    b.command settings rules = some x.2.toList := by
  have key : (onceLines.all fun x => (firstBuilds ++ driverBuilds ⟨[], [], [], [], [], [], []⟩ ++ [xmodmapBuild "ar-lulua"]).any fun b =>
      decide (x.1 ∈ b.outs) && b.command settings rules == some x.2.toList) = true := by decide +kernel
  have hd : ∀ b ∈ driverBuilds ⟨[], [], [], [], [], [], []⟩, ∃ b' ∈ driverBuilds w, b'.outs = b.outs ∧
      b'.command settings rules = b.command settings rules := by
    intro b hb
    have h : (driverBuilds w).map (fun b => (b.outs, b.command settings rules)) =
        (driverBuilds ⟨[], [], [], [], [], [], []⟩).map (fun b => (b.outs, b.command settings rules)) := rfl
    have h1 := List.mem_map_of_mem (f := fun b : Build => (b.outs, b.command settings rules)) hb
    rw [← h] at h1
    obtain ⟨b', hb', he⟩ := List.mem_map.1 h1
    exact ⟨b', hb', congrArg (·.1) he, congrArg (·.2) he⟩
  intro x hx
  rw [List.all_eq_true] at key
  obtain ⟨b, hb, h2⟩ := List.any_eq_true.1 (key x hx)
  rw [Bool.and_eq_true, beq_iff_eq, decide_eq_true_eq] at h2
  rcases List.mem_append.1 hb with hb | hb
  · rcases List.mem_append.1 hb with hb | hb
    · exact ⟨b, mem_first hb, h2⟩
    · obtain ⟨b', hb', h3, h4⟩ := hd b hb
      exact ⟨b', mem_driver hb', h3 ▸ h2.1, h4 ▸ h2.2⟩
  · exact ⟨b, List.mem_singleton.1 hb ▸ mem_xmodmap, h2⟩

theorem source_line {w : GenWorld} {l : String} (x : String × String × List Path) (hx : x ∈ corpusSources w) (hl : l ∈ genLayouts)
    (fs : Text) (ps : List CmdPart) (s : Text)
    (h : (rules.get? x.2.1).map cmdParts = some (ps ++ [.var "layout", .text (' ' :: fs ++ " | lulua-analyze combine > ".toList),
      .var "out", .text []]))
    (hs : expanded settings (corpusBuild l x) ps = s ++ "| lulua-write ".toList) :
    ∃ b ∈ genBuild w, b.outs = [["_build", "_stats", l, x.1 ++ ".pickle"]] ∧
    b.command settings rules = some (s ++ "| lulua-write ".toList ++ l.toList ++ ' ' :: fs ++ " | lulua-analyze combine > ".toList ++
      pathText ["_build", "_stats", l, x.1 ++ ".pickle"]) := by
  refine ⟨corpusBuild l x, mem_layout hl ?_, rfl, ?_⟩
  · simp only [layoutBuilds, List.cons_append, List.mem_cons, List.mem_append, List.mem_map]
    exact .inr (.inl ⟨_, hx, rfl⟩)
  · rw [command_parts (b := corpusBuild l x) rfl h]
    have h1 : (corpusBuild l x).lookup settings "layout" = some l.toList := rfl
    have h2 : (corpusBuild l x).lookup settings "out" = some (pathText ["_build", "_stats", l, x.1 ++ ".pickle"]) := by
      rw [← pathsText_one]; rfl
    unfold expanded at hs ⊢
    generalize "| lulua-write ".toList = k at *
    generalize " | lulua-analyze combine > ".toList = m at *
    rw [List.flatMap_append, hs]
    simp only [List.flatMap_cons, List.flatMap_nil, h1, h2, Option.getD_some, List.append_nil, List.append_assoc, List.cons_append]

/-- **C120** (lines): the command for the statistics of a corpus. -/
theorem C120_corpus_lines (w : GenWorld) : ∀ l ∈ genLayouts, ∀ x ∈ sourceLine w, ∃ fs, (x.1, fs) ∈ corpusFilters ∧
    ∃ b ∈ genBuild w, b.outs = [["_build", "_stats", l, x.1 ++ ".pickle"]] ∧
    b.command settings rules = some (x.2 ++ "| lulua-write ".toList ++ l.toList ++ ' ' :: [' '].intercalate (fs.map String.toList) ++
      " | lulua-analyze combine > ".toList ++ pathText ["_build", "_stats", l, x.1 ++ ".pickle"]) := by
  intro l hl x hx
  have find : ∀ (c rule : String) (ps : List Path) (fs : Text), (c, rule, ps) ∈ corpusSources w →
      (rules.get? rule).map cmdParts = some [.text "find ".toList, .var "in", .text " | lulua-write ".toList, .var "layout",
        .text (' ' :: fs ++ " | lulua-analyze combine > ".toList), .var "out", .text []] →
      ∃ b ∈ genBuild w, b.outs = [["_build", "_stats", l, c ++ ".pickle"]] ∧
      b.command settings rules = some ("find ".toList ++ pathsText ps ++ " ".toList ++ "| lulua-write ".toList ++ l.toList ++ ' ' :: fs ++
        " | lulua-analyze combine > ".toList ++ pathText ["_build", "_stats", l, c ++ ".pickle"]) := by
    intro c rule ps fs hc h
    refine source_line (c, rule, ps) hc hl fs [.text "find ".toList, .var "in", .text " | lulua-write ".toList] _ h ?_
    have h1 : (corpusBuild l (c, rule, ps)).lookup settings "in" = some (pathsText ps) := rfl
    have h2 : " | lulua-write ".toList = " ".toList ++ "| lulua-write ".toList := by decide
    simp only [expanded, List.flatMap_cons, List.flatMap_nil, h1, h2, Option.getD_some, List.append_nil, List.append_assoc]
  have tool : ∀ {x : String × String × List Path} (n : String), n ≠ "in" → n ≠ "out" → n ≠ "layout" →
      (corpusBuild l x).lookup settings n = settings.get? n := by
    intro x n h1 h2 h3
    simp [Build.lookup, h1, h2, corpusBuild, Dict.get?, Ne.symm h3]
  have inp : ∀ {x : String × String × List Path}, (corpusBuild l x).lookup settings "in" = some (pathsText x.2.2) := rfl
  simp only [sourceLine, List.mem_cons, List.not_mem_nil, or_false] at hx
  rcases hx with rfl | rfl | rfl | rfl | rfl | rfl | rfl | rfl
  · exact ⟨["file", "brotli", "tar", "bbcarabic"], by simp [corpusFilters], find _ "write-bbcarabic" _ _ (by simp [corpusSources]) (by decide +kernel)⟩
  · exact ⟨["file", "brotli", "tar", "aljazeera"], by simp [corpusFilters], find _ "write-aljazeera" _ _ (by simp [corpusSources]) (by decide +kernel)⟩
  · exact ⟨["epub"], by simp [corpusFilters], find _ "write-epub" _ _ (by simp [corpusSources]) (by decide +kernel)⟩
  · have h : "find corpus/tanzil-quaran/plain.txt ".toList =
        "find ".toList ++ pathsText [corpusdir ++ ["tanzil-quaran", "plain.txt"]] ++ " ".toList := by decide +kernel
    rw [h]
    exact ⟨["file", "text"], by simp [corpusFilters], find _ "write-tanzil" _ _ (by simp [corpusSources]) (by decide +kernel)⟩
  · refine ⟨["json"], by simp [corpusFilters], source_line ("arwiki", "write-arwiki",
      [["corpus", "arwiki", "arwiki-20190701-pages-articles.xml.bz2"]]) (by simp [corpusSources, corpusdir]) hl _
      [.text [], .var "wikiextractor", .text " -ns 0 --json -o - ".toList, .var "in",
        .text " 2>/dev/null | jq .text | lulua-write ".toList] _ (by decide +kernel)
      (by
        simp only [expanded, List.flatMap_cons, List.flatMap_nil, tool "wikiextractor" (by decide) (by decide) (by decide), inp]
        decide +kernel)⟩
  · refine ⟨["lines"], by simp [corpusFilters], source_line ("osm", "write-osm",
      [["corpus", "osm", "planet-191104.osm.pbf"]]) (by simp [corpusSources, corpusdir]) hl _
      [.text [], .var "osmconvert", .text " --csv='name:ar' ".toList, .var "in", .text " | sort -u | lulua-write ".toList] _
      (by decide +kernel) (by
        simp only [expanded, List.flatMap_cons, List.flatMap_nil, tool "osmconvert" (by decide) (by decide) (by decide), inp]
        decide +kernel)⟩
  · exact ⟨["file", "brotli", "tar", "xml", "tei2"], by simp [corpusFilters], find _ "write-tei2" _ _ (by simp [corpusSources]) (by decide +kernel)⟩
  · exact ⟨["file", "brotli", "tar", "xml", "opensubtitles"], by simp [corpusFilters], 
      find _ "write-opensubtitles" _ _ (by simp [corpusSources]) (by decide +kernel)⟩

/-- **C120** (lines): every file of the driver is copied, and every corpus of the report is described, … -/
theorem C120_listed_lines (w : GenWorld) :
    (∀ f ∈ w.winkbd, ∃ b ∈ genBuild w, b.outs = [["_build", "_temp", "winkbd", f]] ∧ b.command settings rules =
      some ("cp ".toList ++ pathText ["lulua", "data", "winkbd", f] ++ " ".toList ++ pathText ["_build", "_temp", "winkbd", f])) ∧
    ∀ c ∈ w.corpora, ∃ b ∈ genBuild w, b.outs = [["_build", "_temp", "metadata-" ++ c ++ ".yaml"]] ∧ b.command settings rules =
      some ("lulua-analyze -l ar-lulua corpusstats ".toList ++ pathText ["corpus", c, "metadata.yaml"] ++ " < ".toList ++
        pathText ["_build", "_stats", "ar-lulua", c ++ ".pickle"] ++ " > ".toList ++
        pathText ["_build", "_temp", "metadata-" ++ c ++ ".yaml"]) := by
  constructor
  · intro f hf
    refine ⟨winkbdBuild f, mem_winkbd hf, rfl, ?_⟩
    rw [command_parts (b := winkbdBuild f) (r := "cp") rfl (ps := [.text "cp ".toList, .var "in", .text " ".toList, .var "out", .text []]) (by decide +kernel)]
    have h1 : (winkbdBuild f).lookup settings "in" = some (pathText ["lulua", "data", "winkbd", f]) := by rw [← pathsText_one]; rfl
    have h2 : (winkbdBuild f).lookup settings "out" = some (pathText ["_build", "_temp", "winkbd", f]) := by rw [← pathsText_one]; rfl
    simp only [expanded, List.flatMap_cons, List.flatMap_nil, h1, h2, Option.getD_some, List.append_nil, List.append_assoc]
  · intro c hc
    refine ⟨metaBuild c, mem_meta hc, rfl, ?_⟩
    rw [command_parts (b := metaBuild c) (r := "analyze-corpusstats") rfl (ps := [.text "lulua-analyze -l ar-lulua corpusstats ".toList, .var "metadata",
      .text " < ".toList, .var "stats", .text " > ".toList, .var "out", .text []]) (by decide +kernel)]
    have h1 : (metaBuild c).lookup settings "metadata" = some (pathText ["corpus", c, "metadata.yaml"]) := rfl
    have h2 : (metaBuild c).lookup settings "stats" = some (pathText ["_build", "_stats", "ar-lulua", c ++ ".pickle"]) := rfl
    have h3 : (metaBuild c).lookup settings "out" = some (pathText ["_build", "_temp", "metadata-" ++ c ++ ".yaml"]) := by
      rw [← pathsText_one]; rfl
    simp only [expanded, List.flatMap_cons, List.flatMap_nil, h1, h2, h3, Option.getD_some, List.append_nil, List.append_assoc]

/-- **C120** (lines): … and the plot and the page are made of all layouts and corpora. -/
theorem C120_page_lines (w : GenWorld) :
    (∃ b ∈ genBuild w, b.outs = [["_build", "report", "triadeffort.json"]] ∧ b.command settings rules =
      some ("cat ".toList ++ pathsText (genLayouts.map fun l => ["_build", "_temp", l ++ "-triadeffort.pickle"]) ++
        " | lulua-analyze -l ar-lulua triadeffortplot > _build/report/triadeffort.json".toList)) ∧
    ∃ b ∈ genBuild w, b.outs = [["_build", "report", "index.html"]] ∧ b.command settings rules =
      some ("lulua-report -c ".toList ++ pathsText (w.corpora.map fun c => ["_build", "_temp", "metadata-" ++ c ++ ".yaml"]) ++
        " -l ".toList ++ pathsText (genLayouts.map fun l => ["_build", "_temp", l ++ "-layoutstats.pickle"]) ++
        " > _build/report/index.html".toList) := by
  constructor
  · refine ⟨(lastBuilds w)[0]'(by simp [lastBuilds]), mem_last (List.getElem_mem _), rfl, ?_⟩
    have : ((lastBuilds w)[0]'(by simp [lastBuilds])).command settings rules =
        ((lastBuilds ⟨[], [], [], [], [], [], []⟩)[0]'(by simp [lastBuilds])).command settings rules := rfl
    rw [this]
    decide +kernel
  · have hm : (lastBuilds w)[2]'(by simp [lastBuilds]) ∈ genBuild w := mem_last (List.getElem_mem _)
    refine ⟨_, hm, rfl, ?_⟩
    rw [command_parts (b := (lastBuilds w)[2]'(by simp [lastBuilds])) (r := "report") rfl (ps := [.text "lulua-report -c ".toList, .var "corpus",
      .text " -l ".toList, .var "layoutstats", .text " > ".toList, .var "out", .text []]) (by decide +kernel)]
    have h1 : ((lastBuilds w)[2]'(by simp [lastBuilds])).lookup settings "corpus" =
      some (pathsText (w.corpora.map fun c => ["_build", "_temp", "metadata-" ++ c ++ ".yaml"])) := rfl
    have h2 : ((lastBuilds w)[2]'(by simp [lastBuilds])).lookup settings "layoutstats" =
      some (pathsText (genLayouts.map fun l => ["_build", "_temp", l ++ "-layoutstats.pickle"])) := rfl
    have h3 : ((lastBuilds w)[2]'(by simp [lastBuilds])).lookup settings "out" = some "_build/report/index.html".toList :=
      Eq.trans (b := some (pathsText [["_build", "report", "index.html"]])) rfl (by decide +kernel)
    have h4 : " > _build/report/index.html".toList = " > ".toList ++ "_build/report/index.html".toList := by decide +kernel
    simp only [expanded, List.flatMap_cons, List.flatMap_nil, h1, h2, h3, h4, Option.getD_some, List.append_nil, List.append_assoc]

/-- **C120** (lines): these are all; a file without a line is one of the files combined (`C120_all`). -/
theorem C120_all_lines (w : GenWorld) (b : Build) (hb : b ∈ genBuild w) (p : Path) (hp : p ∈ b.outs) :
    p = ["always"] ∨ (∃ x ∈ onceLines, p = x.1) ∨ (∃ l ∈ genLayouts, ∃ x ∈ layoutLines l, p = x.1) ∨
    (∃ l ∈ genLayouts, ∃ c ∈ "all" :: knownCorpora, p = ["_build", "_stats", l, c ++ ".pickle"]) ∨
    (∃ f ∈ w.winkbd, p = ["_build", "_temp", "winkbd", f]) ∨ (∃ c ∈ w.corpora, p = ["_build", "_temp", "metadata-" ++ c ++ ".yaml"]) ∨
    p = ["_build", "report", "triadeffort.json"] ∨ p = ["_build", "report", "index.html"] := by
  have h : p ∈ (genBuild w).flatMap (·.outs) := List.mem_flatMap.2 ⟨b, hb, hp⟩
  rw [(outs_perm w).mem_iff, List.mem_append, List.mem_append] at h
  rcases h with h | h | h
  · have key : ∀ p ∈ fixedOuts, p = ["always"] ∨ (∃ x ∈ onceLines, p = x.1) ∨ (∃ l ∈ genLayouts, ∃ x ∈ layoutLines l, p = x.1) ∨
        (∃ l ∈ genLayouts, ∃ c ∈ "all" :: knownCorpora, p = ["_build", "_stats", l, c ++ ".pickle"]) ∨
        p = ["_build", "report", "triadeffort.json"] ∨ p = ["_build", "report", "index.html"] := by decide +kernel
    rcases key p h with h | h | h | h | h | h
    · exact .inl h
    · exact .inr <| .inl h
    · exact .inr <| .inr <| .inl h
    · exact .inr <| .inr <| .inr <| .inl h
    · exact .inr <| .inr <| .inr <| .inr <| .inr <| .inr <| .inl h
    · exact .inr <| .inr <| .inr <| .inr <| .inr <| .inr <| .inr h
  · obtain ⟨f, hf, rfl⟩ := List.mem_map.1 h
    exact .inr <| .inr <| .inr <| .inr <| .inl ⟨f, hf, rfl⟩
  · obtain ⟨c, hc, rfl⟩ := List.mem_map.1 h
    exact .inr <| .inr <| .inr <| .inr <| .inr <| .inl ⟨c, hc, rfl⟩

/-- **C120** (driver): the commands that make the driver, for 64 and for 32 bits. -/
theorem C120_driver_lines : driverBuild.map (fun b => (b.outs, b.command driverSettings driverRules)) =
    driverLines.map fun x => ([x.1], some x.2.toList) := by decide +kernel

/-! ### Files read and written -/

/-- The style sheet for printing. -/
def printCss : Text := "lulua/data/render-svg-print.css".toList

/-- A statement whose command reads `$in`, or nothing made by others, and writes `$out`. -/
def plainRule (r : String) (noIns : Bool) : Bool :=
  match rules.get? r with
  | none => false
  | some c => (decide (r ∈ ["configure-make", "ninjaC", "phony"]) || writes c == ["$out".toList]) &&
    (reads c == ["$in".toList] || ((reads c == [] || reads c == [printCss]) && (noIns || r == "mkdir")))

theorem plainRule_spec {b : Build} {e : Bool} (h : plainRule b.rule e = true) (he : e = true → b.ins = []) :
    ∃ c, rules.get? b.rule = some c ∧
      (b.rule ∉ ["configure-make", "ninjaC", "phony"] → writes c = ["$out".toList]) ∧
      (b.rule ≠ "mkdir" → ∀ p ∈ b.ins, ∃ x ∈ reads c, ∃ ps, Gives settings b x ps ∧ p ∈ ps) ∧
      ∀ x ∈ reads c, x = printCss ∨ ∃ ps, Gives settings b x ps ∧ ∀ p ∈ ps, p ∈ b.deps := by
  unfold plainRule at h
  split at h
  · cases h
  · rename_i c hc
    have hg : Gives settings b "$in".toList b.ins := ⟨"in", rfl, rfl⟩
    simp only [Bool.and_eq_true, Bool.or_eq_true, decide_eq_true_eq, beq_iff_eq] at h
    refine ⟨c, hc, fun hn => h.1.resolve_left hn, ?_⟩
    rcases h.2 with h2 | ⟨h2, h3⟩
    · refine ⟨fun _ p hp => ⟨_, h2 ▸ List.mem_singleton.2 rfl, _, hg, hp⟩, fun x hx => .inr ⟨b.ins, ?_, fun p hp => ?_⟩⟩
      · rw [h2, List.mem_singleton] at hx; exact hx ▸ hg
      · exact List.mem_append_left _ (List.mem_append_left _ hp)
    · refine ⟨fun hm p hp => ?_, fun x hx => .inl ?_⟩
      · rw [he (h3.resolve_right hm)] at hp; cases hp
      · rcases h2 with h2 | h2
        · rw [h2] at hx; cases hx
        · rw [h2, List.mem_singleton] at hx; exact hx

/-- **C120** (files): every command writes the files it is there for, except those which leave this to another build system; it
reads its inputs (only for a new directory there is nothing to read); and what it reads is made before it runs. -/
theorem C120_files (w : GenWorld) : ∀ b ∈ genBuild w, ∃ c, rules.get? b.rule = some c ∧
    (b.rule ∉ ["configure-make", "ninjaC", "phony"] → writes c = ["$out".toList]) ∧
    (b.rule ≠ "mkdir" → ∀ p ∈ b.ins, ∃ x ∈ reads c, ∃ ps, Gives settings b x ps ∧ p ∈ ps) ∧
    ∀ x ∈ reads c, x = "lulua/data/render-svg-print.css".toList ∨ ∃ ps, Gives settings b x ps ∧ ∀ p ∈ ps, p ∈ b.deps := by
  have key : ∀ (bs bs' : List Build), bs.map (fun b => (b.rule, b.ins.isEmpty)) = bs'.map (fun b => (b.rule, b.ins.isEmpty)) →
      (bs'.map fun b => (b.rule, b.ins.isEmpty)).all (fun x => plainRule x.1 x.2) = true → ∀ b ∈ bs, _ :=
    fun bs bs' h1 h2 b hb => by
      rw [← h1, List.all_eq_true] at h2
      exact plainRule_spec (b := b) (e := b.ins.isEmpty) (h2 _ (List.mem_map_of_mem (f := fun b => (b.rule, b.ins.isEmpty)) hb))
        (fun h => List.isEmpty_iff.1 h)
  apply genBuild_cases
  · exact key _ _ rfl (by decide +kernel)
  · exact fun f _ => key [winkbdBuild f] [winkbdBuild ""] rfl (by decide +kernel) _ (List.mem_singleton.2 rfl)
  · exact key (driverBuilds w) (driverBuilds ⟨[], [], [], [], [], [], []⟩) rfl (by decide +kernel)
  · intro l _ b hb
    have hr : ∀ r ∈ (corpusSources w).map (·.2.1), plainRule r false = true := by
      have : (corpusSources w).map (·.2.1) = (corpusSources ⟨[], [], [], [], [], [], []⟩).map (·.2.1) := rfl
      rw [this]; decide +kernel
    rw [← List.take_append_drop 9 (layoutBuilds w l), List.mem_append] at hb
    rcases hb with hb | hb
    · have hb' : b ∈ mkdirBuild (statsdir ++ [l]) :: (corpusSources w).map (corpusBuild l) := hb
      rcases List.mem_cons.1 hb' with rfl | hb'
      · exact key [mkdirBuild (statsdir ++ [l])] [mkdirBuild []] rfl (by decide +kernel) _ (List.mem_singleton.2 rfl)
      · obtain ⟨c, hc, rfl⟩ := List.mem_map.1 hb'
        exact plainRule_spec (e := false) (hr _ (List.mem_map_of_mem (f := (·.2.1)) hc)) (fun h => by cases h)
    · exact key ((layoutBuilds w l).drop 9) ((layoutBuilds ⟨[], [], [], [], [], [], []⟩ "").drop 9) rfl (by decide +kernel) b hb
  · exact key [xmodmapBuild "ar-lulua"] _ rfl (by decide +kernel) _ (List.mem_singleton.2 rfl)
  · intro c _
    have h1 : Gives settings (metaBuild c) "$metadata".toList [metadataFile c] := ⟨"metadata", rfl, by rw [pathsText_one]; rfl⟩
    have h2 : Gives settings (metaBuild c) "$stats".toList [statsFile "ar-lulua" (c ++ ".pickle")] :=
      ⟨"stats", rfl, by rw [pathsText_one]; rfl⟩
    have hc : ∃ t, rules.get? "analyze-corpusstats" = some t ∧ writes t = ["$out".toList] ∧
      reads t = ["$stats".toList, "$metadata".toList] := ⟨_, rfl, by decide +kernel, by decide +kernel⟩
    obtain ⟨t, ht, hw, hr⟩ := hc
    refine ⟨t, ht, fun _ => hw, fun _ p hp => ?_, fun x hx => .inr ?_⟩
    · rcases List.mem_cons.1 hp with rfl | hp
      · exact ⟨_, hr ▸ List.mem_cons_self, _, h2, List.mem_singleton.2 rfl⟩
      · rw [List.mem_singleton.1 hp]
        exact ⟨_, hr ▸ List.mem_cons_of_mem _ List.mem_cons_self, _, h1, List.mem_singleton.2 rfl⟩
    · rw [hr] at hx
      rcases List.mem_cons.1 hx with rfl | hx
      · exact ⟨_, h2, fun p hp => by rw [List.mem_singleton.1 hp]; simp [Build.deps, metaBuild]⟩
      · rw [List.mem_singleton.1 hx]
        exact ⟨_, h1, fun p hp => by rw [List.mem_singleton.1 hp]; simp [Build.deps, metaBuild]⟩
  · intro b hb
    have h0 : ∀ b ∈ [(lastBuilds w)[0]'(by simp [lastBuilds]), (lastBuilds w)[1]'(by simp [lastBuilds])], _ :=
      key _ [(lastBuilds ⟨[], [], [], [], [], [], []⟩)[0]'(by simp [lastBuilds]),
        (lastBuilds ⟨[], [], [], [], [], [], []⟩)[1]'(by simp [lastBuilds])] rfl (by decide +kernel)
    simp only [lastBuilds, List.mem_cons, List.not_mem_nil, or_false] at hb
    rcases hb with rfl | rfl | rfl
    · exact h0 _ List.mem_cons_self
    · exact h0 _ (List.mem_cons_of_mem _ List.mem_cons_self)
    · have hc : ∃ t, rules.get? "report" = some t ∧ writes t = ["$out".toList] ∧
        reads t = ["$corpus".toList, "$layoutstats".toList] := ⟨_, rfl, by decide +kernel, by decide +kernel⟩
      obtain ⟨t, ht, hw, hr⟩ := hc
      refine ⟨t, ht, fun _ => hw, fun _ p hp => (by cases hp), fun x hx => .inr ?_⟩
      rw [hr] at hx
      rcases List.mem_cons.1 hx with rfl | hx
      · exact ⟨w.corpora.map metaOut, ⟨"corpus", rfl, rfl⟩, fun p hp => by simp only [Build.deps, List.mem_append, List.mem_cons, hp, true_or, or_true]⟩
      · rw [List.mem_singleton.1 hx]
        exact ⟨genLayouts.map layoutstatsFile, ⟨"layoutstats", rfl, rfl⟩, fun p hp => by
          simp only [Build.deps, List.mem_append, List.mem_cons, hp, or_true]⟩

/-- **C120** (files): the same holds for the driver. -/
theorem C120_driver_files : ∀ b ∈ driverBuild, ∃ c, driverRules.get? b.rule = some c ∧ writes c = ["$out".toList] ∧
    (b.ins ≠ [] → reads c = ["$in".toList]) := by
  have : (driverBuild.all fun b => match driverRules.get? b.rule with
    | none => false
    | some c => writes c == ["$out".toList] && (b.ins == [] || reads c == ["$in".toList])) = true := by decide +kernel
  intro b hb
  have h := List.all_eq_true.1 this b hb
  split at h
  · cases h
  · rename_i c hc
    simp only [Bool.and_eq_true, Bool.or_eq_true, beq_iff_eq] at h
    exact ⟨c, hc, h.1, fun hn => h.2.resolve_left hn⟩

/-- **C120** (optimizing, false): the rule for optimizing, which no statement uses, gives the pins without quotes, so the shell
ends the command at their first `;`. It has neither the layout, nor the model, nor the statistics. -/
theorem C120_opt_false (b : Build) (hb : b.rule = "opt") (hv : b.vars = []) : ∃ t, b.command settings rules = some t ∧
    t = "lulua-optimize -n 100000 -r -p 0;1;2;0,B*;3,* -l ar-lulua -m mod01 < ".toList ++ pathsText b.ins ++ " > ".toList ++
      pathsText b.outs ∧
    t.takeWhile (· ≠ ';') = "lulua-optimize -n 100000 -r -p 0".toList ∧ '"' ∉ t.takeWhile (· ≠ ';') ∧ '\'' ∉ t.takeWhile (· ≠ ';') := by
  refine ⟨_, command_parts hb (ps := [.text "lulua-optimize -n ".toList, .var "optrounds", .text " -r -p ".toList, .var "optpins",
    .text " -l ar-lulua -m ".toList, .var "optmodel", .text " < ".toList, .var "in", .text " > ".toList, .var "out", .text []])
    (by decide +kernel), ?_⟩
  have h : ∀ n, n ≠ "in" → n ≠ "out" → b.lookup settings n = settings.get? n := by
    intro n h1 h2
    simp [Build.lookup, h1, h2, hv]
  have h1 : b.lookup settings "in" = some (pathsText b.ins) := rfl
  have h2 : b.lookup settings "out" = some (pathsText b.outs) := rfl
  have ht : "lulua-optimize -n 100000 -r -p 0;1;2;0,B*;3,* -l ar-lulua -m mod01 < ".toList =
      "lulua-optimize -n 100000 -r -p 0".toList ++ ";1;2;0,B*;3,* -l ar-lulua -m mod01 < ".toList := by decide +kernel
  have he : ("lulua-optimize -n ".toList ++ ((settings.get? "optrounds").getD [] ++ (" -r -p ".toList ++
      ((settings.get? "optpins").getD [] ++ (" -l ar-lulua -m ".toList ++ ((settings.get? "optmodel").getD [] ++ " < ".toList)))))) =
      "lulua-optimize -n 100000 -r -p 0;1;2;0,B*;3,* -l ar-lulua -m mod01 < ".toList := by decide +kernel
  have e : expanded settings b [.text "lulua-optimize -n ".toList, .var "optrounds", .text " -r -p ".toList, .var "optpins",
      .text " -l ar-lulua -m ".toList, .var "optmodel", .text " < ".toList, .var "in", .text " > ".toList, .var "out", .text []] =
      "lulua-optimize -n 100000 -r -p 0;1;2;0,B*;3,* -l ar-lulua -m mod01 < ".toList ++ pathsText b.ins ++ " > ".toList ++
      pathsText b.outs := by
    rw [← he]
    simp only [expanded, List.flatMap_cons, List.flatMap_nil, h _ (show "optrounds" ≠ "in" by decide) (by decide),
      h _ (show "optpins" ≠ "in" by decide) (by decide), h _ (show "optmodel" ≠ "in" by decide) (by decide), h1, h2, Option.getD_some,
      List.append_nil, List.append_assoc]
  have tk : ∀ r : Text, ("lulua-optimize -n 100000 -r -p 0;1;2;0,B*;3,* -l ar-lulua -m mod01 < ".toList ++ r).takeWhile (· ≠ ';') =
      "lulua-optimize -n 100000 -r -p 0".toList := by
    intro r
    rw [ht, List.append_assoc, List.takeWhile_append_of_pos (by decide +kernel)]
    have : ";1;2;0,B*;3,* -l ar-lulua -m mod01 < ".toList = ';' :: "1;2;0,B*;3,* -l ar-lulua -m mod01 < ".toList := by decide +kernel
    rw [this]
    simp
  rw [e]
  simp only [List.append_assoc, tk, true_and]
  decide +kernel

/-- The hypotheses can be met. -/
example : ∃ b : Build, b.rule = "opt" ∧ b.vars = [] ∧ b.ins = [statsFile "ar-lulua" "all.pickle"] :=
  ⟨{ outs := [["evolved"]], rule := "opt", ins := [statsFile "ar-lulua" "all.pickle"] }, rfl, rfl, rfl⟩

end Lulua.Props
