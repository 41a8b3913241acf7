import Verif.Props.Argparse
import Verif.Proofs.ArgWithin

/-!
# C128: Ways to write options, and what is refused
-/

namespace Lulua.Props
open Lulua Spec

/-- The check of `TidyFlags`. -/
def tidyList (fs : List Text) : Bool := decide (fs.Nodup ∧ ∀ f ∈ fs, '=' ∉ f ∧ flagShape f = true)

theorem tidy_of {acts : List ArgAction} {fs : List Text} (h : acts.flatMap (·.flags) = fs) (hb : tidyList fs = true) : TidyFlags acts := by
  unfold TidyFlags
  rw [h]
  exact of_decide_eq_true hb

theorem noCommands_of {acts : List ArgAction} (h : (acts.all fun a => decide (a.kind ≠ .command)) = true) : NoCommands acts :=
  fun a ha => of_decide_eq_true (List.all_eq_true.1 h a ha)

/-- The parsers of lulua have proper flags, those of commands too; only three have commands. -/
theorem C128_tidy (w : ArgWorld) : (∀ p ∈ programs w, TidyFlags p.2.parser.actions ∧ ∀ q ∈ p.2.commands, TidyFlags q.2.actions ∧ NoCommands q.2.actions) ∧
    NoCommands optimizeProgram.parser.actions ∧ NoCommands (writeProgram w).parser.actions ∧ NoCommands reportProgram.parser.actions ∧
    NoCommands extractProgram.parser.actions := by
  have hplain : ∀ f, TidyFlags (plainCommand f).actions ∧ NoCommands (plainCommand f).actions :=
    fun f => ⟨tidy_of (fs := ["-h".toList, "--help".toList]) rfl (by decide +kernel), noCommands_of rfl⟩
  refine ⟨?_, noCommands_of rfl, noCommands_of rfl, noCommands_of rfl, noCommands_of rfl⟩
  intro p hp
  simp only [programs, List.mem_cons, List.not_mem_nil, or_false] at hp
  rcases hp with rfl | rfl | rfl | rfl | rfl | rfl | rfl
  · refine ⟨tidy_of rfl (by decide +kernel), fun q hq => ?_⟩
    rcases List.mem_append.1 hq with hq | hq
    · obtain ⟨c, _, rfl⟩ := List.mem_map.1 hq
      exact hplain _
    · simp only [List.mem_cons, List.not_mem_nil, or_false] at hq
      rcases hq with rfl | rfl
      · exact ⟨tidy_of rfl (by decide +kernel), noCommands_of rfl⟩
      · exact ⟨tidy_of rfl (by decide +kernel), noCommands_of rfl⟩
  · refine ⟨tidy_of rfl (by decide +kernel), fun q hq => ?_⟩
    rcases List.mem_cons.1 hq with rfl | hq
    · exact ⟨tidy_of rfl (by decide +kernel), noCommands_of rfl⟩
    · obtain ⟨c, _, rfl⟩ := List.mem_map.1 hq
      exact hplain _
  · exact ⟨tidy_of rfl (by decide +kernel), fun q hq => by cases hq⟩
  · refine ⟨tidy_of rfl (by decide +kernel), fun q hq => ?_⟩
    obtain rfl := List.mem_singleton.1 hq
    exact hplain _
  · exact ⟨tidy_of rfl (by decide +kernel), fun q hq => by cases hq⟩
  · exact ⟨tidy_of (fs := (writeProgram argWorld).parser.actions.flatMap (·.flags)) rfl (by decide +kernel), fun q hq => by cases hq⟩
  · exact ⟨tidy_of rfl (by decide +kernel), fun q hq => by cases hq⟩

/-! ### Ways to write options -/

/-- **C128** (forms): an option may be written in any way, wherever it is: `-l x`, `-lx`, `-l=x`, `--layout x`, `--layout=x`, `--lay x` and
`--lay=x` mean the same. This is about programs without commands. -/
theorem C128_forms (p : ArgProgram) (ht : TidyFlags p.parser.actions) (hc : NoCommands p.parser.actions) (w : ArgWorld)
    (pre x y post : List Text) (hp : ['-', '-'] ∉ pre) (h : SameOption p.parser.actions x y) :
    p.start w (pre ++ (x ++ post)) = p.start w (pre ++ (y ++ post)) := start_congr (parseKnown_same ht hc hp h)

/-- The option for the layout. -/
theorem layout_same {acts : List ArgAction} (h : layoutAction ∈ acts) (x y : List Text) (v : Text) (hv : v ≠ ['-', '-'])
    (hx : ValueSpelling acts layoutAction v x) (hy : ValueSpelling acts layoutAction v y) : SameOption acts x y :=
  .value layoutAction h ⟨.inl rfl, rfl⟩ v hv x y hx hy

/-- `lulua-optimize -r -lar-lulua` -/
example (post : List Text) : optimizeProgram.start argWorld (["-r".toList] ++ (["-lar-lulua".toList] ++ post)) =
    optimizeProgram.start argWorld (["-r".toList] ++ (["--lay=ar-lulua".toList] ++ post)) := by
  refine C128_forms _ (tidy_of rfl (by decide +kernel)) (noCommands_of rfl) _ _ _ _ _ (by decide)
    (layout_same (by simp [optimizeProgram]) _ _ "ar-lulua".toList (by decide) ?_ ?_)
  · exact .stuck "-l".toList (by decide) (by decide) (by decide) (by decide)
  · exact .shortEquals "--layout".toList "--lay".toList (by decide) (by refine ⟨by decide, by decide, ?_⟩; decide +kernel)

/-- **C128** (forms): the same holds in front of the command, for all programs. -/
theorem C128_forms_before (p : ArgProgram) (ht : TidyFlags p.parser.actions) (w : ArgWorld) (l : List (List Text × List Text))
    (h : ∀ z ∈ l, SameOption p.parser.actions z.1 z.2) (post : List Text) :
    p.start w (l.flatMap (·.1) ++ post) = p.start w (l.flatMap (·.2) ++ post) := start_congr (parseKnown_before ht h post)

/-- So the command line `lulua-render -lar-lulua --key=k ask a.apk` is like the one of `C127_render`. -/
example : Gets (renderProgram.start argWorld ["-lar-lulua".toList, "--key=k".toList, "ask".toList, "a.apk".toList])
    [("layout", .text "ar-lulua".toList), ("keyboard", .text "k".toList), ("func", .func "renderAsk"), ("output", .text "a.apk".toList)] := by
  have h := C128_forms_before renderProgram (tidy_of rfl (by decide +kernel)) argWorld
    [(["-lar-lulua".toList], ["-l".toList, "ar-lulua".toList]), (["--key=k".toList], ["-k".toList, "k".toList])] (by
      intro z hz
      simp only [List.mem_cons, List.not_mem_nil, or_false] at hz
      rcases hz with rfl | rfl
      · refine .value layoutAction (by simp [renderProgram]) ⟨.inl rfl, rfl⟩ "ar-lulua".toList (by decide) _ _ ?_ ?_
        · exact .stuck "-l".toList (by decide) (by decide) (by decide) (by decide)
        · exact .apart "-l".toList (by decide) (by unfold PlainWord; decide)
      · refine .value keyboardAction (by simp [renderProgram]) ⟨.inl rfl, rfl⟩ "k".toList (by decide) _ _ ?_ ?_
        · exact .shortEquals "--keyboard".toList "--key".toList (by decide) (by refine ⟨by decide, by decide, ?_⟩; decide +kernel)
        · exact .apart "-k".toList (by decide) (by unfold PlainWord; decide)) ["ask".toList, "a.apk".toList]
  refine (congrArg (Gets · _) h).mpr (C127_render argWorld [.layout .short "ar-lulua".toList, .keyboard .short "k".toList]
    (by simp [CommonOpt.Good, PlainWord]) ("ask", "renderAsk") (by simp [formats]) _ (by simp [PlainWord]))

theorem svg_sub (w : ArgWorld) (r : List Text) : renderProgram.sub w "svg".toList r = svgParser.parseKnown w (fun _ _ => .error .raised) r := rfl

theorem triadfreq_sub (w : ArgWorld) (r : List Text) :
    analyzeProgram.sub w "triadfreq".toList r = triadfreqParser.parseKnown w (fun _ _ => .error .raised) r := rfl

/-- **C128** (forms): and for the options of the two commands that have any. The words must not look like `--` to the program. -/
theorem C128_forms_within (w : ArgWorld) (os : List CommonOpt) (hos : ∀ o ∈ os, o.Good) (pre x y post : List Text)
    (hw : ∀ t ∈ pre ++ x ++ y ++ post, Proper t) :
    (SameOption svgParser.actions x y → ∀ out, PlainWord out →
      renderProgram.start w (os.flatMap (·.words) ++ "svg".toList :: ((pre ++ (x ++ post)) ++ [out])) =
        renderProgram.start w (os.flatMap (·.words) ++ "svg".toList :: ((pre ++ (y ++ post)) ++ [out]))) ∧
    (SameOption triadfreqParser.actions x y →
      analyzeProgram.start w (os.flatMap (·.words) ++ "triadfreq".toList :: (pre ++ (x ++ post))) =
        analyzeProgram.start w (os.flatMap (·.words) ++ "triadfreq".toList :: (pre ++ (y ++ post)))) := by
  have hp : ['-', '-'] ∉ pre := fun h => (hw _ (by simp [h])).1 rfl
  have hwx : ∀ t ∈ pre ++ (x ++ post), Proper t := fun t ht => hw t (by simp only [List.mem_append] at ht ⊢; tauto)
  have hwy : ∀ t ∈ pre ++ (y ++ post), Proper t := fun t ht => hw t (by simp only [List.mem_append] at ht ⊢; tauto)
  constructor
  · intro h out ho
    refine render_within hos (by unfold PlainWord; decide) ho hwx hwy ?_
    rw [svg_sub, svg_sub]
    exact parseKnown_same (tidy_of rfl (by decide +kernel)) (noCommands_of rfl) hp h
  · intro h
    refine analyze_within hos (by unfold PlainWord; decide) hwx hwy ?_
    rw [triadfreq_sub, triadfreq_sub]
    exact parseKnown_same (tidy_of rfl (by decide +kernel)) (noCommands_of rfl) hp h

/-- `lulua-render -l ar-lulua svg -sa.css b.svg` and `… --sty=a.css b.svg` -/
example : renderProgram.start argWorld ["-l".toList, "ar-lulua".toList, "svg".toList, "-sa.css".toList, "b.svg".toList] =
    renderProgram.start argWorld ["-l".toList, "ar-lulua".toList, "svg".toList, "--sty=a.css".toList, "b.svg".toList] :=
  (C128_forms_within argWorld [.layout .short "ar-lulua".toList] (by simp [CommonOpt.Good, PlainWord]) [] ["-sa.css".toList]
    ["--sty=a.css".toList] [] (by simp only [List.nil_append, List.append_nil]; unfold Proper; decide)).1
    (.value
      { flags := ["-s".toList, "--style".toList], dest := "style", type := fileType, default := .resource "data/render-svg.css",
        help := "Include external stylesheet into SVG".toList } (by simp [svgParser]) ⟨.inl rfl, rfl⟩ "a.css".toList (by decide) _ _
      (.stuck "-s".toList (by decide) (by decide) (by decide) (by decide))
      (.shortEquals "--style".toList "--sty".toList (by decide) (by refine ⟨by decide, by decide, ?_⟩; decide +kernel)))
    "b.svg".toList (by unfold PlainWord; decide)

/-- **C128** (forms): short options without value may be followed by others in the same word: `-vj4` is `-v -j4`. -/
theorem C128_forms_joined (p : ArgProgram) (ht : TidyFlags p.parser.actions) (hn : NoCommands p.parser.actions) (w : ArgWorld)
    (a b : ArgAction) (ha : a ∈ p.parser.actions) (hb : b ∈ p.parser.actions) (hk : a.kind = .storeTrue) (c d : Char)
    (hc : ['-', c] ∈ a.flags) (hd : ['-', d] ∈ b.flags) (e : Text) (pre post : List Text) (hp : ['-', '-'] ∉ pre) :
    p.start w (pre ++ (['-' :: c :: d :: e] ++ post)) = p.start w (pre ++ ([['-', c], '-' :: d :: e] ++ post)) :=
  start_congr (parseKnown_joined ht hn ha hb hk hc hd e hp post)

example (post : List Text) : (writeProgram argWorld).start argWorld ([] ++ (["-vj4".toList] ++ post)) =
    (writeProgram argWorld).start argWorld ([] ++ (["-v".toList, "-j4".toList] ++ post)) :=
  C128_forms_joined _ ((C128_tidy argWorld).1 ("lulua-write".toList, writeProgram argWorld) (by simp [programs])).1 (noCommands_of rfl) _
    { flags := ["-v".toList, "--verbose".toList], dest := "verbose", kind := .storeTrue, default := .flag false,
      help := "Enable debugging output".toList }
    { flags := ["-j".toList, "--jobs".toList], dest := "jobs", type := intType, default := .int argWorld.cpus,
      help := "Number of parallel jobs".toList }
    (by simp [writeProgram]) (by simp [writeProgram]) rfl 'v' 'j' (by decide) (by decide) "4".toList [] post (by simp)

/-- **C128** (forms): negative numbers are values, although they look like options. -/
theorem C128_forms_negative (p : ArgProgram) (ht : TidyFlags p.parser.actions) (hc : NoCommands p.parser.actions) (w : ArgWorld)
    (hu : PlainNum w.uni) (hd : ∀ c : Char, c.isDigit = true → ['-', c] ∉ p.parser.actions.flatMap (·.flags)) (a : ArgAction)
    (ha : a ∈ p.parser.actions) (h1 : OneValue a) (f : Text) (hf : f ∈ a.flags) (i : Int) (hi : i < 0) (pre post : List Text)
    (hp : ['-', '-'] ∉ pre) :
    p.start w (pre ++ ([f, decimal i] ++ post)) = p.start w (pre ++ ([f ++ '=' :: decimal i] ++ post)) := by
  apply start_congr
  have h2 := (flag_tidy ht ha hf).2
  have hdec : decimal i ≠ ['-', '-'] := by
    rcases decimal_cases i with ⟨h, _⟩ | ⟨_, h⟩
    · omega
    · rw [h]
      intro hx
      simp only [List.cons.injEq, true_and] at hx
      have : '-' ∈ Nat.toDigits 10 (-i).toNat := by rw [hx]; simp
      exact absurd (Nat.isDigit_of_mem_toDigits (by omega) (by omega) this) (by decide)
  have h3 := tokens_cons (flagShape_two h2) (classify_flag (u := w.uni) (flagShape_dash h2) (findFlag_mem ht ha hf))
    (tokens_cons hdec (classify_negative hu ht hd hi) (show tokens w.uni p.parser.actions [] = .ok [] from rfl))
  have hx : Does w p.parser.actions (p.parser.actions.map (·.help) ++ p.parser.helps) (p.sub w) [f, decimal i] a [decimal i] :=
    ⟨by simpa using ⟨Ne.symm (flagShape_two h2), Ne.symm hdec⟩, _, _, _, h3, does_one fun r => actions_apart h1 f _ r⟩
  have hy : Does w p.parser.actions (p.parser.actions.map (·.help) ++ p.parser.helps) (p.sub w) [f ++ '=' :: decimal i] a [decimal i] :=
    value_does ht ha h1 (.equals f hf)
  have hx' := hx
  have hy' := hy
  obtain ⟨hnx, _, _, _, t1, _⟩ := hx'
  obtain ⟨hny, _, _, _, t2, _⟩ := hy'
  exact parseKnown_context hc hp hnx hny t1 t2 fun r => does_same hx hy t1 t2 r r fun f g st hf hg => parseLoop_fuel f g st r hf hg

/-- `lulua-optimize -n -5` and `-n=-5` -/
example (pre post : List Text) (hp : ['-', '-'] ∉ pre) : optimizeProgram.start argWorld (pre ++ (["-n".toList, "-5".toList] ++ post)) =
    optimizeProgram.start argWorld (pre ++ (["-n=-5".toList] ++ post)) := by
  have h := C128_forms_negative optimizeProgram (tidy_of rfl (by decide +kernel)) (noCommands_of rfl) argWorld argWorld_plain (by
      intro c hc hm
      have h : ∀ f ∈ optimizeProgram.parser.actions.flatMap (·.flags), (f.drop 1).all (·.isDigit) = false := by decide +kernel
      simpa [hc] using h _ hm)
    { flags := ["-n".toList, "--steps".toList], dest := "steps", type := intType, default := .int 10000,
      help := "Number of iterations".toList } (by simp [optimizeProgram]) ⟨.inl rfl, rfl⟩ "-n".toList (by decide) (-5) (by decide)
    pre post hp
  rw [show decimal (-5) = "-5".toList by decide +kernel] at h
  exact h

/-! ### Refused -/

theorem start_ok_inv {p : ArgProgram} {w : ArgWorld} {argv : List Text} {ns : Dict String ArgVal} (h : p.start w argv = .ok ns) :
    ∃ ts f st, tokens w.uni p.parser.actions argv = .ok ts ∧
      parseLoop w p.parser.actions (p.parser.actions.map (·.help) ++ p.parser.helps) (p.sub w) f
        ⟨p.parser.initial, [], [], p.parser.actions.filter (·.flags.isEmpty)⟩ ts = .ok st ∧ st.extras = [] := by
  unfold ArgProgram.start at h
  cases hk : p.parser.parseKnown w (p.sub w) argv with
  | error e => rw [hk] at h; cases h
  | ok x =>
    rw [hk] at h
    simp only [bind, Except.bind] at h
    split at h
    · cases h
    · rename_i hx
      unfold ArgParser.parseKnown at hk
      cases htk : tokens w.uni p.parser.actions argv with
      | error e => rw [htk] at hk; cases hk
      | ok ts =>
        rw [htk] at hk
        simp only [bind, Except.bind] at hk
        split at hk
        · cases hk
        · rename_i st hst
          split at hk
          · cases hk
            exact ⟨ts, _, st, rfl, hst, by simpa using hx⟩
          · cases hk

theorem refused_reach {p : ArgProgram} (hc : NoCommands p.parser.actions) {w : ArgWorld} {pre post : List Text} (hp : ['-', '-'] ∉ pre)
    (H : ∀ tb, tokens w.uni p.parser.actions post = .ok tb → OptFirst tb ∧ ∀ f st s,
      parseLoop w p.parser.actions (p.parser.actions.map (·.help) ++ p.parser.helps) (p.sub w) f st tb = .ok s → s.extras ≠ []) :
    Refused (p.start w (pre ++ post)) := by
  intro ns h
  obtain ⟨ts, f, st, h1, h2, h3⟩ := start_ok_inv h
  rw [tokens_append_eq hp] at h1
  cases ha : tokens w.uni p.parser.actions pre with
  | error e => rw [ha] at h1; cases h1
  | ok ta =>
    cases hb : tokens w.uni p.parser.actions post with
    | error e => rw [ha, hb] at h1; cases h1
    | ok tb =>
      rw [ha, hb] at h1
      cases h1
      obtain ⟨hR, H⟩ := H tb hb
      obtain ⟨g, st', h4⟩ := parseLoop_reaches hR ta.length ta _ _ _ (Nat.le_refl _) (todo_noCommands hc) h2
      exact H _ _ _ h4 h3

/-- **C128** (refused): options nobody knows. -/
theorem C128_unknown (p : ArgProgram) (ht : TidyFlags p.parser.actions) (hc : NoCommands p.parser.actions) (w : ArgWorld)
    (pre post : List Text) (hp : ['-', '-'] ∉ pre) (t : Text) (h : UnknownOption w.uni p.parser.actions t) :
    Refused (p.start w (pre ++ t :: post)) := by
  obtain ⟨h1, h2⟩ := unknown_none ht h
  refine refused_reach hc hp fun tb htb => ?_
  rw [tokens, if_neg h1, h2] at htb
  cases hb : tokens w.uni p.parser.actions post with
  | error e => rw [hb] at htb; cases htb
  | ok tp =>
    rw [hb] at htb
    cases htb
    refine ⟨⟨_, _, _, rfl⟩, fun f st s hs => ?_⟩
    cases f with
    | zero => cases hs
    | succ f =>
      rw [parseLoop_option] at hs
      have := parseLoop_extras f _ _ _ hs t (by simp)
      intro hc
      rw [hc] at this
      cases this

example (pre post : List Text) (hp : ['-', '-'] ∉ pre) : Refused (optimizeProgram.start argWorld (pre ++ "--stepz=5".toList :: post)) :=
  C128_unknown _ (tidy_of rfl (by decide +kernel)) (noCommands_of rfl) _ _ _ hp _
    ⟨'-', "stepz=5".toList, rfl, by decide, by decide, by decide, fun _ => ⟨by decide, by decide +kernel⟩, fun h => absurd rfl h⟩

/-- **C128** (refused): the same in front of a command, for all programs. -/
theorem C128_unknown_before (p : ArgProgram) (ht : TidyFlags p.parser.actions) (w : ArgWorld) (l : List (List Text))
    (hl : ∀ x ∈ l, SameOption p.parser.actions x x) (t : Text) (h : UnknownOption w.uni p.parser.actions t) (post : List Text) :
    Refused (p.start w (l.flatten ++ t :: post)) := by
  obtain ⟨h1, h2⟩ := unknown_none ht h
  intro ns hs
  obtain ⟨ts, f, st, h3, h4, h5⟩ := start_ok_inv hs
  have key : ∀ (l : List (List Text)), (∀ x ∈ l, SameOption p.parser.actions x x) → ∀ ts f st s,
      tokens w.uni p.parser.actions (l.flatten ++ t :: post) = .ok ts →
      parseLoop w p.parser.actions (p.parser.actions.map (·.help) ++ p.parser.helps) (p.sub w) f st ts = .ok s → t ∈ s.extras := by
    intro l
    induction l with
    | nil =>
      intro _ ts f st s h3 h4
      rw [List.flatten_nil, List.nil_append, tokens, if_neg h1, h2] at h3
      cases hb : tokens w.uni p.parser.actions post with
      | error e => rw [hb] at h3; cases h3
      | ok tp =>
        rw [hb] at h3
        cases h3
        cases f with
        | zero => cases h4
        | succ f =>
          rw [parseLoop_option] at h4
          exact parseLoop_extras f _ _ _ h4 t (by simp)
    | cons x l ih =>
      intro hl ts f st s h3 h4
      obtain ⟨a, args, _, hx, _⟩ := same_does (w := w) (helps := p.parser.actions.map (·.help) ++ p.parser.helps) (sub := p.sub w) ht
        (hl x List.mem_cons_self)
      obtain ⟨hn, t', o, tx, h6, h7⟩ := hx
      rw [List.flatten_cons, List.append_assoc, tokens_append_eq hn, h6] at h3
      cases hb : tokens w.uni p.parser.actions (l.flatten ++ t :: post) with
      | error e => rw [hb] at h3; cases h3
      | ok tp =>
        rw [hb] at h3
        cases h3
        cases f with
        | zero => cases h4
        | succ f =>
          rw [List.cons_append, parseLoop_option, h7] at h4
          cases hta : takeAction w (p.parser.actions.map (·.help) ++ p.parser.helps) (p.sub w) st a args with
          | error e => rw [hta] at h4; cases h4
          | ok s' =>
            rw [hta] at h4
            exact ih (fun x hx => hl x (List.mem_cons_of_mem _ hx)) tp f s' s hb h4
  have := key l hl ts f _ st h3 h4
  rw [h5] at this
  cases this

/-- `lulua-render -lar-lulua -x …` -/
example (post : List Text) : Refused (renderProgram.start argWorld (["-lar-lulua".toList] ++ "-x".toList :: post)) :=
  C128_unknown_before renderProgram (tidy_of rfl (by decide +kernel)) argWorld [["-lar-lulua".toList]] (by
    simp only [List.mem_singleton, forall_eq]
    exact .value layoutAction (by simp [renderProgram]) ⟨.inl rfl, rfl⟩ "ar-lulua".toList (by decide) _ _
      (.stuck "-l".toList (by decide) (by decide) (by decide) (by decide))
      (.stuck "-l".toList (by decide) (by decide) (by decide) (by decide))) _
    ⟨'x', [], rfl, by decide, by decide, by decide, fun h => absurd h (by decide), by decide +kernel⟩ post

/-- **C128** (refused): options without their value: the next word is an option, or there is none. -/
theorem C128_missing_value (p : ArgProgram) (ht : TidyFlags p.parser.actions) (hc : NoCommands p.parser.actions) (w : ArgWorld)
    (a : ArgAction) (ha : a ∈ p.parser.actions) (hk : a.kind = .store ∨ a.kind = .append) (f : Text) (hf : f ∈ a.flags) (pre post : List Text)
    (hp : ['-', '-'] ∉ pre) (hn : post = [] ∨ ∃ g ∈ p.parser.actions.flatMap (·.flags), ∃ r, post = g :: r) :
    Refused (p.start w (pre ++ f :: post)) := by
  have h2 := (flag_tidy ht ha hf).2
  refine refused_reach hc hp fun tb htb => ?_
  rw [tokens, if_neg (flagShape_two h2), classify_flag (flagShape_dash h2) (findFlag_mem ht ha hf)] at htb
  cases hb : tokens w.uni p.parser.actions post with
  | error e => rw [hb] at htb; cases htb
  | ok tp =>
    rw [hb] at htb
    cases htb
    refine ⟨⟨_, _, _, rfl⟩, fun n st s hs => ?_⟩
    have hh : (tp.map (·.2.shape)).head? ≠ some .arg := by
      rcases hn with rfl | ⟨g, hg, r, rfl⟩
      · cases hb
        simp
      · obtain ⟨b, hb1, hb2⟩ := List.mem_flatMap.1 hg
        have h3 := (flag_tidy ht hb1 hb2).2
        rw [tokens, if_neg (flagShape_two h3), classify_flag (flagShape_dash h3) (findFlag_mem ht hb1 hb2)] at hb
        cases hr : tokens w.uni p.parser.actions r with
        | error e => rw [hr] at hb; cases hb
        | ok tr =>
          rw [hr] at hb
          cases hb
          simp [ArgTok.shape]
    cases n with
    | zero => cases hs
    | succ n =>
      rw [parseLoop_option] at hs
      have h4 : optionCount a (tp.map (·.2.shape)) = .error .usage := by
        unfold optionCount
        rw [if_neg (by rcases hk with hk | hk <;> simp [hk]), if_pos hh]
      simp only [consumeOptional, optionActions, h4, bind, Except.bind] at hs
      cases hs

/-- `lulua-optimize … -n -r …` -/
example (pre post : List Text) (hp : ['-', '-'] ∉ pre) :
    Refused (optimizeProgram.start argWorld (pre ++ "-n".toList :: "-r".toList :: post)) :=
  C128_missing_value optimizeProgram (tidy_of rfl (by decide +kernel)) (noCommands_of rfl) argWorld
    { flags := ["-n".toList, "--steps".toList], dest := "steps", type := intType, default := .int 10000,
      help := "Number of iterations".toList } (by simp [optimizeProgram]) (.inl rfl) "-n".toList (by decide) pre _ hp
    (.inr ⟨"-r".toList, by decide, post, rfl⟩)

/-- **C128** (refused): values that are none, for the option in any form. -/
theorem C128_bad_value (p : ArgProgram) (ht : TidyFlags p.parser.actions) (hc : NoCommands p.parser.actions) (w : ArgWorld)
    (a : ArgAction) (ha : a ∈ p.parser.actions) (h1 : OneValue a) (v : Text) (hv : v ≠ ['-', '-']) (x : List Text)
    (hx : ValueSpelling p.parser.actions a v x) (e : ArgStop) (he : argValue w a v = .error e) (pre post : List Text)
    (hp : ['-', '-'] ∉ pre) : Refused (p.start w (pre ++ (x ++ post))) := by
  obtain ⟨hn, t, o, ts, h2, h3⟩ := value_does (w := w) (helps := p.parser.actions.map (·.help) ++ p.parser.helps) (sub := p.sub w) ht ha h1 hx
  refine refused_reach hc hp fun tb htb => ?_
  rw [tokens_append_eq hn, h2] at htb
  cases hb : tokens w.uni p.parser.actions post with
  | error e => rw [hb] at htb; cases htb
  | ok tp =>
    rw [hb] at htb
    cases htb
    refine ⟨⟨_, _, _, rfl⟩, fun n st s hs => ?_⟩
    cases n with
    | zero => cases hs
    | succ n =>
      rw [List.cons_append, parseLoop_option, h3] at hs
      have h4 : takeAction w (p.parser.actions.map (·.help) ++ p.parser.helps) (p.sub w) st a [v] = .error e := by
        have he' : [v].erase ['-', '-'] = [v] := List.erase_of_not_mem (by simpa using Ne.symm hv)
        obtain ⟨hk, hm⟩ := h1
        rcases hk with hk | hk <;> simp [takeAction, hk, he', hm, he, bind, Except.bind]
      rw [h4] at hs
      cases hs

/-- For instance a number of steps that is no number, and a model that is none. -/
example (pre post : List Text) (hp : ['-', '-'] ∉ pre) :
    Refused (optimizeProgram.start argWorld (pre ++ (["--steps=x".toList] ++ post))) ∧
    Refused (optimizeProgram.start argWorld (pre ++ (["-m".toList, "mod02".toList] ++ post))) := by
  constructor
  · exact C128_bad_value optimizeProgram (tidy_of rfl (by decide +kernel)) (noCommands_of rfl) argWorld
      { flags := ["-n".toList, "--steps".toList], dest := "steps", type := intType, default := .int 10000,
        help := "Number of iterations".toList } (by simp [optimizeProgram]) ⟨.inl rfl, rfl⟩ "x".toList (by decide) _
      (.equals "--steps".toList (by decide)) .usage (by rfl) pre post hp
  · exact C128_bad_value optimizeProgram (tidy_of rfl (by decide +kernel)) (noCommands_of rfl) argWorld
      { flags := ["-m".toList, "--model".toList], dest := "model", choices := some ["mod01".toList, "salvo".toList],
        default := .text "mod01".toList, help := "Carpalx model".toList } (by simp [optimizeProgram]) ⟨.inl rfl, rfl⟩ "mod02".toList
      (by decide) _ (.apart "-m".toList (by decide) (by unfold PlainWord; decide)) .usage (by rfl) pre post hp

theorem takeAction_seen {w : ArgWorld} {helps : List Text} {sub : Text → List Text → Except ArgStop (Dict String ArgVal × List Text)}
    {st st' : ArgState} {a : ArgAction} {args : List Text} (h : takeAction w helps sub st a args = .ok st') :
    st'.seen = a.dest :: st.seen := by
  unfold takeAction at h
  split at h
  · split at h <;> cases h
  · cases h; rfl
  · split at h
    · cases h
    · rename_i n r
      cases hs : sub n r with
      | error e => rw [hs] at h; cases h
      | ok x => rw [hs] at h; cases h; rfl
  · simp only at h
    split at h
    · split at h
      · cases h; rfl
      · split at h <;> cases h
        rfl
    · split at h
      · rename_i t _
        cases hv : argValue w a t with
        | error e => rw [hv] at h; cases h
        | ok v =>
          rw [hv] at h
          simp only [bind, Except.bind] at h
          split at h <;> cases h <;> rfl
      · cases h; rfl

/-- Options in front change nothing but what has been seen. -/
theorem options_reach {p : ArgProgram} (ht : TidyFlags p.parser.actions) {w : ArgWorld} (post : List Text) :
    ∀ (l : List (List Text)), (∀ x ∈ l, SameOption p.parser.actions x x) → ∀ ts f st s,
      tokens w.uni p.parser.actions (l.flatten ++ post) = .ok ts →
      parseLoop w p.parser.actions (p.parser.actions.map (·.help) ++ p.parser.helps) (p.sub w) f st ts = .ok s →
      ∃ tb g st', tokens w.uni p.parser.actions post = .ok tb ∧ st'.todo = st.todo ∧
        (∀ d ∈ st'.seen, d ∈ st.seen ∨ ∃ a ∈ p.parser.actions, a.flags ≠ [] ∧ a.dest = d) ∧
        parseLoop w p.parser.actions (p.parser.actions.map (·.help) ++ p.parser.helps) (p.sub w) g st' tb = .ok s := by
  intro l
  induction l with
  | nil => exact fun _ ts f st s h3 h4 => ⟨ts, f, st, h3, rfl, fun d hd => .inl hd, h4⟩
  | cons x l ih =>
    intro hl ts f st s h3 h4
    have hfl : ∃ a args, (a ∈ p.parser.actions ∧ a.flags ≠ []) ∧
        Does w p.parser.actions (p.parser.actions.map (·.help) ++ p.parser.helps) (p.sub w) x a args := by
      cases hl x List.mem_cons_self with
      | value a ha h1 v hv =>
        rename_i hx _
        refine ⟨a, [v], ⟨ha, ?_⟩, value_does ht ha h1 hx⟩
        cases hx <;> exact List.ne_nil_of_mem (by assumption)
      | flag a ha h1 =>
        rename_i hx _
        refine ⟨a, [], ⟨ha, ?_⟩, flag_does ht ha h1 hx⟩
        cases hx <;> exact List.ne_nil_of_mem (by assumption)
    obtain ⟨a, args, ha, hn, t', o, tx, h6, h7⟩ := hfl
    rw [List.flatten_cons, List.append_assoc, tokens_append_eq hn, h6] at h3
    cases hb : tokens w.uni p.parser.actions (l.flatten ++ post) with
    | error e => rw [hb] at h3; cases h3
    | ok tp =>
      rw [hb] at h3
      cases h3
      cases f with
      | zero => cases h4
      | succ f =>
        rw [List.cons_append, parseLoop_option, h7] at h4
        cases hta : takeAction w (p.parser.actions.map (·.help) ++ p.parser.helps) (p.sub w) st a args with
        | error e => rw [hta] at h4; cases h4
        | ok s' =>
          rw [hta] at h4
          obtain ⟨tb, g, st', h8, h9, h10, h11⟩ := ih (fun x hx => hl x (List.mem_cons_of_mem _ hx)) tp f s' s hb h4
          refine ⟨tb, g, st', h8, h9.trans (takeAction_todo hta), fun d hd => ?_, h11⟩
          rcases h10 d hd with h | h
          · rw [takeAction_seen hta] at h
            rcases List.mem_cons.1 h with rfl | h
            · exact .inr ⟨a, ha.1, ha.2, rfl⟩
            · exact .inl h
          · exact .inr h

/-- **C128** (refused): an argument where none is expected. Options with any number of values are not meant here. -/
theorem C128_unexpected (p : ArgProgram) (ht : TidyFlags p.parser.actions) (h0 : ∀ a ∈ p.parser.actions, a.flags ≠ []) (w : ArgWorld)
    (l : List (List Text)) (hl : ∀ x ∈ l, SameOption p.parser.actions x x) (t : Text) (h : PlainWord t) (post : List Text) :
    Refused (p.start w (l.flatten ++ t :: post)) := by
  intro ns hs
  obtain ⟨ts, f, st, h3, h4, h5⟩ := start_ok_inv hs
  obtain ⟨tb, g, st', h6, h7, _, h9⟩ := options_reach ht (t :: post) l hl ts f _ st h3 h4
  have htodo : st'.todo = [] := by
    rw [h7]
    exact List.filter_eq_nil_iff.2 fun a ha => by simpa using h0 a ha
  have htk : ∃ tp, tb = (t, .arg) :: tp := by
    rw [tokens, if_neg (fun hx => h (by rw [hx]; rfl)), show classify w.uni p.parser.actions t = .ok .arg from if_pos h] at h6
    cases hb : tokens w.uni p.parser.actions post with
    | error e => rw [hb] at h6; cases h6
    | ok tp => rw [hb] at h6; cases h6; exact ⟨tp, rfl⟩
  obtain ⟨tp, rfl⟩ := htk
  have hcp : consumePositionals w (p.parser.actions.map (·.help) ++ p.parser.helps) (p.sub w) st' ((t, .arg) :: tp) =
      .ok (st', (t, .arg) :: tp) := by
    cases st' with
    | mk a b c d =>
      obtain rfl : d = [] := htodo
      rfl
  cases g with
  | zero => cases h9
  | succ g =>
    unfold parseLoop at h9
    split at h9
    · rw [hcp] at h9
      cases h9
      exact absurd h5 (by simp)
    · simp only [hcp, bind, Except.bind] at h9
      rw [if_neg (Nat.lt_irrefl _)] at h9
      have := parseLoop_extras g _ _ _ h9 t (by simp [ArgTok.shape])
      rw [h5] at this
      cases this

/-- `lulua-optimize -r ar-lulua`, with the `-l` forgotten. -/
example (post : List Text) : Refused (optimizeProgram.start argWorld (["-r".toList] ++ "ar-lulua".toList :: post)) :=
  C128_unexpected optimizeProgram (tidy_of rfl (by decide +kernel)) (by decide) argWorld [["-r".toList]] (by
    simp only [List.mem_singleton, forall_eq]
    exact .flag
      { flags := ["-r".toList, "--randomize".toList], dest := "randomize", kind := .storeTrue, default := .flag false,
        help := "Randomize layout before optimizing".toList } (by simp [optimizeProgram]) rfl _ _
      (.whole "-r".toList (by decide)) (.whole "-r".toList (by decide))) _ (by unfold PlainWord; decide) post

/-- **C128** (refused): arguments left out. -/
theorem C128_missing (p : ArgProgram) (ht : TidyFlags p.parser.actions) (w : ArgWorld) (a : ArgAction) (ha : a ∈ p.parser.actions)
    (hf : a.flags = []) (hk : a.kind ≠ .command) (hd : ∀ b ∈ p.parser.actions, b.flags ≠ [] → b.dest ≠ a.dest)
    (l : List (List Text)) (hl : ∀ x ∈ l, SameOption p.parser.actions x x) : Refused (p.start w l.flatten) := by
  intro ns h
  unfold ArgProgram.start ArgParser.parseKnown at h
  cases htk : tokens w.uni p.parser.actions l.flatten with
  | error e => rw [htk] at h; cases h
  | ok ts =>
    rw [htk] at h
    simp only [bind, Except.bind] at h
    split at h
    · cases h
    · rename_i r hr
      split at hr
      · cases hr
      · rename_i st hst
        split at hr
        · rename_i hall
          have h1 := List.all_eq_true.1 hall a ha
          simp only [ArgAction.required, hf, List.isEmpty_nil, Bool.true_and, ne_eq, hk, not_false_eq_true, decide_true, Bool.not_true,
            Bool.false_or, decide_eq_true_eq] at h1
          obtain ⟨tb, g, st', h6, h7, h8, h9⟩ := options_reach ht [] l hl ts _ _ st (by rw [List.append_nil]; exact htk) hst
          cases h6
          have hcp : consumePositionals w (p.parser.actions.map (·.help) ++ p.parser.helps) (p.sub w) st' [] = .ok (st', []) := by
            have hm : ∀ (acts : List ArgAction) n, matchPartial acts [] n = [] := by
              intro acts n
              induction n with
              | zero => rfl
              | succ n ih =>
                cases acts with
                | nil => simp [matchPartial, matchItems, sumThrees]
                | cons b acts => simp [matchPartial, matchItems, argItems, matchStar, ih]
            simp [consumePositionals, hm, bind, Except.bind, pure, Except.pure]
          cases g with
          | zero => cases h9
          | succ g =>
            unfold parseLoop at h9
            rw [if_pos (by rfl), hcp] at h9
            cases h9
            rcases h8 _ h1 with h | ⟨b, hb, hb1, hb2⟩
            · cases h
            · exact hd b hb hb1 hb2
        · cases hr

/-- `lulua-write -v` -/
example : Refused ((writeProgram argWorld).start argWorld ["-v".toList]) :=
  C128_missing (writeProgram argWorld) ((C128_tidy argWorld).1 ("lulua-write".toList, writeProgram argWorld) (by simp [programs])).1
    argWorld { dest := "layout", help := "Keyboard layout name".toList } (by simp [writeProgram]) rfl (by decide)
    (by simp [writeProgram, helpAction, keyboardAction]) [["-v".toList]] (by
      simp only [List.mem_singleton, forall_eq]
      exact .flag
        { flags := ["-v".toList, "--verbose".toList], dest := "verbose", kind := .storeTrue, default := .flag false,
          help := "Enable debugging output".toList } (by simp [writeProgram]) rfl _ _
        (.whole "-v".toList (by decide)) (.whole "-v".toList (by decide)))

end Lulua.Props
