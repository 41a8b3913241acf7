import Verif.Proofs.ArgPrograms
import Verif.Proofs.LatinIme
import Verif.Props.NinjaLines

/-!
# C127: The programs understand their command lines
-/

namespace Lulua.Props
open Lulua Spec

/-- A world to try things in: the usual digits, all files are there, four processors. -/
def argWorld : ArgWorld where
  uni := ⟨fun _ => false, fun c => if c.isDigit then some (c.toNat - 48) else none⟩
  float := fun t => if t = "0.9".toList then some (9 / 10) else none
  opens := fun _ => true
  yaml := fun _ => .ok ()
  cpus := 4

theorem argWorld_plain : PlainNum argWorld.uni :=
  ⟨fun c hc => ⟨by simp [argWorld, hc], rfl⟩, fun c hc => ⟨by simp [argWorld, alpha_not_digit hc], rfl⟩, rfl⟩

/-! ### `lulua-render` -/

theorem formats_known : ∀ c ∈ formats, PlainWord c.1.toList ∧ Dict.get? renderProgram.commands c.1.toList = some (plainCommand c.2) := by
  intro c hc
  simp only [formats, List.mem_cons, List.not_mem_nil, or_false] at hc
  rcases hc with rfl | rfl | rfl | rfl | rfl | rfl <;> exact ⟨by unfold PlainWord; decide, rfl⟩

/-- **C127** (`lulua-render`): any format but pictures, with any options in any order and form: the function of the format gets the
last layout and keyboard given (else none and `ibmpc105`) and the output file, and nothing else. -/
theorem C127_render (w : ArgWorld) (os : List CommonOpt) (hos : ∀ o ∈ os, o.Good) (c : String × String) (hc : c ∈ formats)
    (out : Text) (hout : PlainWord out) :
    Gets (renderProgram.start w (os.flatMap (·.words) ++ [c.1.toList, out]))
      (commonAttrs os ++ [("func", .func c.2), ("output", .text out)]) := by
  obtain ⟨h1, h2⟩ := formats_known c hc
  have hs : renderProgram.sub w c.1.toList [] = .ok ([("func", .func c.2)], []) := by
    unfold ArgProgram.sub
    rw [h2]
    exact plainCommand_none ..
  refine gets_of (render_start hos (ws := []) h1 hout (by simp) (by simp) hs rfl rfl) ?_ ?_
  · simp [Dict.set]
  · exact .cons _ (.cons _ (.swap _ _ _))

example : Gets (renderProgram.start argWorld
    ["--layout=x".toList, "-k".toList, "k".toList, "-l".toList, "ar-lulua".toList, "ask".toList, "a.apk".toList])
    [("layout", .text "ar-lulua".toList), ("keyboard", .text "k".toList), ("func", .func "renderAsk"), ("output", .text "a.apk".toList)] :=
  C127_render _ [.layout .glued "x".toList, .keyboard .short "k".toList, .layout .short "ar-lulua".toList]
    (by simp [CommonOpt.Good, PlainWord]) ("ask", "renderAsk") (by simp [formats]) _ (by simp [PlainWord])

/-- **C127** (`lulua-render`): pictures, with style sheet and heat map between `svg` and the output. -/
theorem C127_svg (w : ArgWorld) (os : List CommonOpt) (hos : ∀ o ∈ os, o.Good) (ss : List SvgOpt) (hss : ∀ o ∈ ss, o.Good w)
    (out : Text) (hout : PlainWord out) :
    Gets (renderProgram.start w (os.flatMap (·.words) ++ "svg".toList :: (ss.flatMap (·.words) ++ [out])))
      (commonAttrs os ++ [("style", orElse (lastOf SvgOpt.style? ss) .file (.resource "data/render-svg.css")),
        ("heatmap", orElse (lastOf SvgOpt.heatmap? ss) .yaml .none), ("func", .func "renderSvg"), ("output", .text out)]) := by
  have hs : renderProgram.sub w "svg".toList (ss.flatMap (·.words)) = _ := svg_known hss
  have hw := svg_seen hss
  refine gets_of (render_start hos (by unfold PlainWord; decide) hout (fun t ht => (hw t ht).1) (fun h => (hw _ h).2 rfl) hs rfl rfl) ?_ ?_
  · simp [Dict.set]
  · refine .cons _ (.cons _ ?_)
    refine (List.perm_append_comm (l₁ := [("output", ArgVal.text out)]) (l₂ := _)).trans ?_
    exact .refl _

example : Gets (renderProgram.start argWorld
    ["-l".toList, "ar-lulua".toList, "svg".toList, "--heatmap=h.yaml".toList, "-s".toList, "p.css".toList, "a.svg".toList])
    [("layout", .text "ar-lulua".toList), ("keyboard", .text "ibmpc105".toList), ("style", .file "p.css".toList),
      ("heatmap", .yaml "h.yaml".toList), ("func", .func "renderSvg"), ("output", .text "a.svg".toList)] :=
  C127_svg _ [.layout .short "ar-lulua".toList] (by simp [CommonOpt.Good, PlainWord])
    [.heatmap true "h.yaml".toList, .style .short "p.css".toList] (by simp [SvgOpt.Good, PlainWord, argWorld]) _ (by simp [PlainWord])

/-- **C127** (`lulua-render`): another format is refused. -/
theorem C127_render_unknown (w : ArgWorld) (os : List CommonOpt) (hos : ∀ o ∈ os, o.Good) (c out : Text) (hp : PlainWord c)
    (hc : c ∉ "svg".toList :: formats.map (·.1.toList)) (hout : PlainWord out) :
    renderProgram.start w (os.flatMap (·.words) ++ [c, out]) = .error .usage := by
  refine render_start_error hos (ws := []) hp hout (by simp) (by simp) ?_
  have : Dict.get? renderProgram.commands c = none := by
    cases h : Dict.get? renderProgram.commands c with
    | none => rfl
    | some p =>
      have h1 := List.mem_map_of_mem (f := (·.1)) (Dict.mem_of_get? h)
      exact absurd h1 hc
  unfold ArgProgram.sub
  rw [this]

/-! ### `lulua-analyze` -/

theorem analyses_known : ∀ c ∈ analyses, PlainWord c.1.toList ∧ Dict.get? analyzeProgram.commands c.1.toList = some (plainCommand c.2) := by
  intro c hc
  simp only [analyses, List.mem_cons, List.not_mem_nil, or_false] at hc
  rcases hc with rfl | rfl | rfl | rfl | rfl | rfl | rfl | rfl <;> exact ⟨by unfold PlainWord; decide, rfl⟩

/-- **C127** (`lulua-analyze`): commands without options of their own. -/
theorem C127_analyze (w : ArgWorld) (os : List CommonOpt) (hos : ∀ o ∈ os, o.Good) (c : String × String) (hc : c ∈ analyses) :
    Gets (analyzeProgram.start w (os.flatMap (·.words) ++ [c.1.toList])) (commonAttrs os ++ [("func", .func c.2)]) := by
  obtain ⟨h1, h2⟩ := analyses_known c hc
  have hs : analyzeProgram.sub w c.1.toList [] = .ok ([("func", .func c.2)], []) := by
    unfold ArgProgram.sub
    rw [h2]
    exact plainCommand_none ..
  refine gets_of (analyze_start hos (ws := []) h1 (by simp) hs rfl rfl) ?_ (.refl _)
  simp [Dict.set]

example : Gets (analyzeProgram.start argWorld ["-l".toList, "ar-lulua".toList, "keyheatmap".toList])
    [("layout", .text "ar-lulua".toList), ("keyboard", .text "ibmpc105".toList), ("func", .func "keyHeatmap")] :=
  C127_analyze _ [.layout .short "ar-lulua".toList] (by simp [CommonOpt.Good, PlainWord]) ("keyheatmap", "keyHeatmap") (by simp [analyses])

/-- **C127** (`lulua-analyze`): triads, with cut-off, order and number. -/
theorem C127_triadfreq (w : ArgWorld) (hu : PlainNum w.uni) (os : List CommonOpt) (hos : ∀ o ∈ os, o.Good) (ts : List TriadOpt)
    (hts : ∀ o ∈ ts, o.Good w) :
    Gets (analyzeProgram.start w (os.flatMap (·.words) ++ "triadfreq".toList :: ts.flatMap (·.words)))
      (commonAttrs os ++ [("cutoff", orElse (lastOf TriadOpt.cutoff? ts) .num (.num (1 / 2))),
        ("reverse", orElse (lastOf TriadOpt.reverse? ts) (fun _ => .flag true) (.flag false)),
        ("sort", orElse (lastOf TriadOpt.sort? ts) .text (.text "weight".toList)),
        ("limit", orElse (lastOf TriadOpt.limit? ts) (fun n => .int n) (.int 0)), ("func", .func "triadfreq")]) := by
  have hs : analyzeProgram.sub w "triadfreq".toList (ts.flatMap (·.words)) = _ := triad_known hu hts
  refine gets_of (analyze_start hos (by unfold PlainWord; decide) (triad_seen hts) hs rfl rfl) ?_ (.refl _)
  simp [Dict.set]

example : Gets (analyzeProgram.start argWorld ["-l".toList, "ar-lulua".toList, "triadfreq".toList, "--sort=effort".toList, "-r".toList,
    "-n".toList, "20".toList, "-c".toList, "0.9".toList])
    [("layout", .text "ar-lulua".toList), ("keyboard", .text "ibmpc105".toList), ("cutoff", .num (9 / 10)), ("reverse", .flag true),
      ("sort", .text "effort".toList), ("limit", .int 20), ("func", .func "triadfreq")] :=
  C127_triadfreq _ argWorld_plain [.layout .short "ar-lulua".toList] (by simp [CommonOpt.Good, PlainWord])
    [.sort .glued "effort".toList, .reverse false, .limit .short 20, .cutoff .short "0.9".toList (9 / 10)]
    (by simp [TriadOpt.Good, PlainWord, argWorld])

/-- **C127** (`lulua-analyze`): the description of a corpus needs its metadata. -/
theorem C127_corpusstats (w : ArgWorld) (os : List CommonOpt) (hos : ∀ o ∈ os, o.Good) (f : Text) (hf : PlainWord f) :
    (w.opens f = true → Gets (analyzeProgram.start w (os.flatMap (·.words) ++ ["corpusstats".toList, f]))
      (commonAttrs os ++ [("metadata", .file f), ("func", .func "corpusStats")])) ∧
    (w.opens f = false → analyzeProgram.start w (os.flatMap (·.words) ++ ["corpusstats".toList, f]) = .error .usage) := by
  have hw : ∀ t ∈ [f], (∃ k, classify w.uni analyzeProgram.parser.actions t = .ok k) ∧ t ≠ ['-', '-'] := by
    intro t ht
    rw [List.mem_singleton.1 ht]
    exact plain_seen hf
  have ht : tokens w.uni corpusstatsParser.actions [f] = .ok [(f, .arg)] := tokens_plain fun t ht => by rw [List.mem_singleton.1 ht]; exact hf
  have he : [f].erase ['-', '-'] = [f] := List.erase_of_not_mem (by simpa using Ne.symm (plain_ne_dashes hf))
  have hc : consumePositionals w (corpusstatsParser.actions.map (·.help) ++ corpusstatsParser.helps) (fun _ _ => .error .raised)
      (corpusstatsParser.after []) [(f, .arg)] = (fileType w f).map
        fun v => (⟨[("metadata", v), ("func", .func "corpusStats")], [], ["metadata"], []⟩, []) := by
    refine (consume_one rfl rfl rfl f).trans ?_
    simp only [takeAction, he, argValue, bind, Except.bind]
    cases fileType w f <;> rfl
  constructor
  · intro ho
    rw [fileType, if_pos ho] at hc
    have hs : analyzeProgram.sub w "corpusstats".toList [f] = .ok ([("metadata", .file f), ("func", .func "corpusStats")], []) :=
      parseKnown_positionals (os := []) (by simp) ht hc rfl rfl
    refine gets_of (analyze_start hos (by unfold PlainWord; decide) hw hs rfl rfl) ?_ (.refl _)
    simp [Dict.set]
  · intro ho
    rw [fileType, if_neg (by simp [ho])] at hc
    have hs : analyzeProgram.sub w "corpusstats".toList [f] = .error .usage :=
      parseKnown_positionals_error (os := []) (by simp) ht hc
    exact analyze_start_error hos (by unfold PlainWord; decide) hw hs

example : Gets (analyzeProgram.start argWorld ["corpusstats".toList, "m.yaml".toList])
    [("layout", .none), ("keyboard", .text "ibmpc105".toList), ("metadata", .file "m.yaml".toList), ("func", .func "corpusStats")] :=
  (C127_corpusstats _ [] (by simp) _ (by simp [PlainWord])).1 rfl

/-- **C127** (`lulua-analyze`): another command is refused. -/
theorem C127_analyze_unknown (w : ArgWorld) (os : List CommonOpt) (hos : ∀ o ∈ os, o.Good) (c : Text) (hp : PlainWord c)
    (hc : c ∉ analyses.map (·.1.toList) ++ ["triadfreq".toList, "corpusstats".toList]) :
    analyzeProgram.start w (os.flatMap (·.words) ++ [c]) = .error .usage := by
  refine analyze_start_error hos (ws := []) hp (by simp) ?_
  have : Dict.get? analyzeProgram.commands c = none := by
    cases h : Dict.get? analyzeProgram.commands c with
    | none => rfl
    | some p =>
      have h1 := List.mem_map_of_mem (f := (·.1)) (Dict.mem_of_get? h)
      exact absurd h1 hc
  unfold ArgProgram.sub
  rw [this]

/-! ### The other programs -/

/-- **C127** (`lulua-write`): options, the layout and one filter at least; filters nobody knows are refused (`C89`). -/
theorem C127_write (w : ArgWorld) (hu : PlainNum w.uni) (os : List WriteOpt) (hos : ∀ o ∈ os, o.Good) (layout : Text)
    (hl : PlainWord layout) (fs : List Text) (hne : fs ≠ []) (hp : ∀ f ∈ fs, PlainWord f) :
    ((∀ f ∈ fs, f ∈ filterAvail.map (·.1.toList)) →
      Gets ((writeProgram w).start w (os.flatMap (·.words) ++ layout :: fs)) (writeAttrs w os (.text layout) (.texts fs))) ∧
    ((∃ f ∈ fs, f ∉ filterAvail.map (·.1.toList)) →
      (writeProgram w).start w (os.flatMap (·.words) ++ layout :: fs) = .error .usage) := by
  have h := write_start hu hos hl hne hp
  constructor
  · intro ha
    rw [if_pos (by simpa [List.all_eq_true] using ha)] at h
    refine gets_of h ?_ (.refl _)
    simp [writeAttrs]
  · rintro ⟨f, hf, hx⟩
    rw [if_neg (fun hc => hx (by simpa using List.all_eq_true.1 hc f hf))] at h
    exact h

example : Gets ((writeProgram argWorld).start argWorld ["-j".toList, "2".toList, "-v".toList, "ar-lulua".toList, "file".toList, "text".toList])
    [("benchmark", .flag false), ("jobs", .int 2), ("keyboard", .text "ibmpc105".toList), ("verbose", .flag true),
      ("layout", .text "ar-lulua".toList), ("filter", .texts ["file".toList, "text".toList])] :=
  (C127_write _ argWorld_plain [.jobs .short 2, .verbose false] (by simp [WriteOpt.Good]) _ (by simp [PlainWord]) _ (by simp)
    (by simp [PlainWord])).1 (by decide)

/-- **C127** (`lulua-optimize`): every option; of pins the last ones count, mutations all of them. -/
theorem C127_optimize (w : ArgWorld) (hu : PlainNum w.uni) (os : List OptimizeOpt) (hos : ∀ o ∈ os, o.Good) :
    Gets (optimizeProgram.start w (os.flatMap (·.words))) (optimizeAttrs os) := by
  refine gets_of (optimize_start hu hos) ?_ (.refl _)
  simp [optimizeAttrs]

example : Gets (optimizeProgram.start argWorld ["-n".toList, "100".toList, "-r".toList, "-p".toList, "0;1;0,B*".toList, "-l".toList,
    "ar-lulua".toList, "-s".toList, "0,Bl1:1,Bl2".toList, "-m".toList, "salvo".toList])
    [("layout", .text "ar-lulua".toList), ("keyboard", .text "ibmpc105".toList), ("triadLimit", .int 0), ("steps", .int 100),
      ("randomize", .flag true), ("pin", .pins [(0, none), (1, none), (0, some "B*".toList)]), ("model", .text "salvo".toList),
      ("mutate", .mutations [((0, "Bl1".toList), (1, "Bl2".toList))])] :=
  C127_optimize _ argWorld_plain [.steps .short 100, .randomize false, .pin .short [(0, none), (1, none), (0, some "B*".toList)],
    .common (.layout .short "ar-lulua".toList), .mutate .short ((0, "Bl1".toList), (1, "Bl2".toList)), .model .short "salvo".toList]
    (by
      simp only [List.mem_cons, List.not_mem_nil, or_false, forall_eq_or_imp, forall_eq, OptimizeOpt.Good, CommonOpt.Good, PlainWord]
      decide)

/-- **C127** (`lulua-report`): files of corpora and of layouts. -/
theorem C127_report (w : ArgWorld) (os : List ReportOpt) (hos : ∀ o ∈ os, o.Good) :
    Gets (reportProgram.start w (os.flatMap (·.words)))
      [("corpus", orElse (lastOf ReportOpt.corpus? os) .texts .none),
        ("layoutstats", orElse (lastOf ReportOpt.layoutstats? os) .texts .none)] := by
  refine gets_of (report_start hos) ?_ (.refl _)
  simp

example : Gets (reportProgram.start argWorld ["-c".toList, "a".toList, "b".toList, "-l".toList, "c".toList])
    [("corpus", .texts ["a".toList, "b".toList]), ("layoutstats", .texts ["c".toList])] :=
  C127_report _ [.corpus false ["a".toList, "b".toList], .layoutstats false ["c".toList]] (by simp [ReportOpt.Good, PlainWord])

/-- **C127** (`lulua-report`): without any corpus the options are refused. -/
theorem C127_no_corpora (w : ArgWorld) (b c : Bool) (ts : List Text) (h : ∀ t ∈ ts, PlainWord t) :
    reportProgram.start w (pick b "-c" "--corpus" :: pick c "-l" "--layoutstats" :: ts) = .error .usage := report_no_corpora b c h

theorem import_todo : (importProgram.parser.after []).todo =
    [{ dest := "input", help := "Input file".toList }, commandAction ["klc".toList]] := rfl

theorem import_input {w : ArgWorld} {f : Text} (hf : PlainWord f) {helps : List Text}
    {sub : Text → List Text → Except ArgStop (Dict String ArgVal × List Text)} :
    takeAction w helps sub (importProgram.parser.after []) { dest := "input", help := "Input file".toList } [f] =
      .ok ⟨[("input", .text f)], [], ["input"], (importProgram.parser.after []).todo⟩ := by
  have he : [f].erase ['-', '-'] = [f] := List.erase_of_not_mem (by simpa using Ne.symm (plain_ne_dashes hf))
  simp only [takeAction, he, argValue, bind, Except.bind]
  rfl

/-- **C127** (`lulua-import`, `lulua-extract-mediawiki`): a file. -/
theorem C127_files (w : ArgWorld) (f : Text) (hf : PlainWord f) :
    Gets (importProgram.start w [f, "klc".toList]) [("input", .text f), ("func", .func "importKlc")] ∧
    Gets (extractProgram.start w [f]) [("file", .text f)] := by
  have he : [f].erase ['-', '-'] = [f] := List.erase_of_not_mem (by simpa using Ne.symm (plain_ne_dashes hf))
  constructor
  · have ht : tokens w.uni importProgram.parser.actions [f, "klc".toList] = .ok [(f, .arg), ("klc".toList, .arg)] :=
      tokens_plain fun t ht => by
        rcases List.mem_cons.1 ht with rfl | ht
        · exact hf
        · rw [List.mem_singleton.1 ht]; decide
    have hc : consumePositionals w (importProgram.parser.actions.map (·.help) ++ importProgram.parser.helps) (importProgram.sub w)
        (importProgram.parser.after []) [(f, .arg), ("klc".toList, .arg)] =
        .ok (⟨[("input", .text f), ("func", .func "importKlc")], [], ["command", "input"], []⟩, []) := by
      unfold consumePositionals
      rw [show matchPartial (importProgram.parser.after []).todo ([(f, ArgTok.arg), ("klc".toList, .arg)].map (·.2.shape))
        (importProgram.parser.after []).todo.length = [1, 1] from rfl, import_todo]
      simp only [List.zip_cons_cons, List.zip_nil_left, List.foldlM_cons, List.foldlM_nil, List.take_succ_cons, List.take_zero,
        List.map_cons, List.map_nil, List.drop_succ_cons, List.drop_zero, List.length_cons, List.length_nil, import_input hf]
      rfl
    refine gets_of (ns := [("input", .text f), ("func", .func "importKlc")]) (start_ok (parseKnown_positionals (os := []) (by simp) ht hc rfl rfl) (fun _ => rfl)) ?_ (.refl _)
    simp
  · have ht : tokens w.uni extractProgram.parser.actions [f] = .ok [(f, .arg)] := tokens_plain fun t ht => by rw [List.mem_singleton.1 ht]; exact hf
    have hc : consumePositionals w (extractProgram.parser.actions.map (·.help) ++ extractProgram.parser.helps) (extractProgram.sub w)
        (extractProgram.parser.after []) [(f, .arg)] = .ok (⟨[("file", .text f)], [], ["file"], []⟩, []) := by
      refine (consume_one rfl rfl rfl f).trans ?_
      simp only [takeAction, he, argValue, bind, Except.bind]
      rfl
    refine gets_of (ns := [("file", .text f)]) (start_ok (parseKnown_positionals (os := []) (by simp) ht hc rfl rfl) (fun h => by cases h)) ?_ (.refl _)
    simp

/-! ### Where it goes wrong -/

/-- **C127** does not hold without a command: `lulua-analyze` with any options and `lulua-import` with a file go on, and end with an
exception instead of the usage (`stats.py:446`, `layout.py:362`). -/
theorem C127_no_command_false (w : ArgWorld) (os : List CommonOpt) (hos : ∀ o ∈ os, o.Good) (f : Text) (hf : PlainWord f) :
    analyzeProgram.start w (os.flatMap (·.words)) = .error .raised ∧ importProgram.start w [f] = .error .raised := by
  constructor
  · have hok : ∀ o ∈ os.map commonGiven, o.Ok w analyzeProgram.parser.actions := by
      intro o ho
      obtain ⟨o, h1, rfl⟩ := List.mem_map.1 ho
      exact common_ok analyze_noEq (hos o h1)
    have h1 := parseKnown_opts (sub := analyzeProgram.sub w) hok (bs := []) (tb := []) rfl
      (r := .ok (analyzeProgram.parser.after (os.map commonGiven))) (fun n hn => by
        obtain ⟨n, rfl⟩ : ∃ g, n = g + 1 := ⟨n - 1, by simp at hn; omega⟩
        rfl)
    have h2 : (analyzeProgram.parser.after (os.map commonGiven)).ns = commonAttrs os :=
      common_fold os .none (.text "ibmpc105".toList) []
    rw [List.append_nil, commonGiven_words] at h1
    unfold ArgProgram.start
    rw [h1]
    simp only [bind, Except.bind, h2]
    rfl
  · have ht : tokens w.uni importProgram.parser.actions [f] = .ok [(f, .arg)] := tokens_plain fun t ht => by rw [List.mem_singleton.1 ht]; exact hf
    have he : [f].erase ['-', '-'] = [f] := List.erase_of_not_mem (by simpa using Ne.symm (plain_ne_dashes hf))
    have hc : consumePositionals w (importProgram.parser.actions.map (·.help) ++ importProgram.parser.helps) (importProgram.sub w)
        (importProgram.parser.after []) [(f, .arg)] =
        .ok (⟨[("input", .text f)], [], ["input"], [commandAction ["klc".toList]]⟩, []) := by
      unfold consumePositionals
      rw [show matchPartial (importProgram.parser.after []).todo ([(f, ArgTok.arg)].map (·.2.shape))
        (importProgram.parser.after []).todo.length = [1] from rfl, import_todo]
      simp only [List.zip_cons_cons, List.zip_nil_right, List.foldlM_cons, List.foldlM_nil, List.take_succ_cons, List.take_zero,
        List.map_cons, List.map_nil, List.drop_succ_cons, List.drop_zero, List.length_cons, List.length_nil, import_input hf]
      rfl
    have h1 := parseKnown_opts (w := w) (p := importProgram.parser) (sub := importProgram.sub w) (os := []) (by simp) ht
      (r := .ok ⟨[("input", .text f)], [], ["input"], [commandAction ["klc".toList]]⟩) (fun n hn => by
        obtain ⟨n, rfl⟩ : ∃ g, n = g + 1 := ⟨n - 1, by simp at hn; omega⟩
        rw [parseLoop, if_pos (by simp [ArgTok.shape]), hc]
        · rfl
        · simp)
    unfold ArgProgram.start
    rw [show [f] = [].flatMap GivenOpt.words ++ [f] from rfl, h1]
    rfl

/-- **C127** does not hold for the help of `triadfreq`: it raises, because of the percent sign in the text for `--cutoff`
(`stats.py:422`). -/
theorem C127_help_false (w : ArgWorld) : analyzeProgram.start w ["triadfreq".toList, "-h".toList] = .error .raised ∧
    analyzeProgram.start w ["triadfreq".toList, "--help".toList] = .error .raised := ⟨rfl, rfl⟩

/-- **C127** (help, partial): all other help is printed. Missing: `triadfreq`, see `C127_help_false`. -/
theorem C127_help_partial (w : ArgWorld) (h : Text) (hh : h = "-h".toList ∨ h = "--help".toList) :
    (∀ p ∈ programs w, p.2.start w [h] = .error .help) ∧
    (∀ c ∈ "svg".toList :: formats.map (·.1.toList), renderProgram.start w [c, h, "x".toList] = .error .help) ∧
    (∀ c ∈ analyses.map (·.1.toList) ++ ["corpusstats".toList], analyzeProgram.start w [c, h] = .error .help) ∧
    importProgram.start w ["x".toList, "klc".toList, h] = .error .help := by
  have key : ∀ {l : List Text} {P : Text → Prop}, (l.Forall P) → ∀ c ∈ l, P c := fun h => List.forall_iff_forall_mem.1 h
  refine ⟨fun p hp => ?_, key ?_, key ?_, ?_⟩
  · simp only [programs, List.mem_cons, List.not_mem_nil, or_false] at hp
    rcases hh with rfl | rfl <;> rcases hp with rfl | rfl | rfl | rfl | rfl | rfl | rfl <;> rfl
  · rcases hh with rfl | rfl <;> exact ⟨rfl, rfl, rfl, rfl, rfl, rfl, rfl⟩
  · rcases hh with rfl | rfl <;> exact ⟨rfl, rfl, rfl, rfl, rfl, rfl, rfl, rfl, rfl⟩
  · rcases hh with rfl | rfl <;> rfl

end Lulua.Props
