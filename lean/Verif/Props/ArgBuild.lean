import Verif.Props.Argparse
import Verif.Spec.ArgBuild

/-!
# C127: every command of the build file is accepted
-/

namespace Lulua.Props
open Lulua Spec

/-! ### Lines whose words are known -/

/-- The arguments after `-l` and a layout. -/
def withoutLayout : List Text → List Text
  | [] => []
  | a :: r => if a = "-l".toList then
      match r with
      | x :: r' => if x.head? ≠ some '-' then r' else a :: r
      | [] => a :: r
    else a :: r

theorem withoutLayout_spec (a : List Text) : ∃ os : List CommonOpt, (∀ o ∈ os, o.Good) ∧ a = os.flatMap (·.words) ++ withoutLayout a := by
  unfold withoutLayout
  split
  · exact ⟨[], by simp, rfl⟩
  · split
    · rename_i h
      split
      · split
        · rename_i x r' hx
          exact ⟨[.layout .short x], by simpa [CommonOpt.Good, PlainWord] using hx, by simp [CommonOpt.words, OptForm.words, h]⟩
        · exact ⟨[], by simp, rfl⟩
      · exact ⟨[], by simp, rfl⟩
    · exact ⟨[], by simp, rfl⟩

/-- Arguments of `lulua-render` which are fine if the files read are. -/
def renderOk (rs : List Text) : List Text → Bool
  | [c, out] => (c = "svg".toList || (formats.map (·.1.toList)).contains c) && out.head? ≠ some '-'
  | [c, h, out] => c = "svg".toList && out.head? ≠ some '-' &&
      rs.any fun f => h = "--heatmap=".toList ++ f && f.head? ≠ some '-' && ".yaml".toList.isSuffixOf f
  | [c, s, f, out] => c = "svg".toList && s = "-s".toList && rs.contains f && f.head? ≠ some '-' && out.head? ≠ some '-'
  | _ => false

/-- A program whose arguments are fine if the files read are. -/
def acceptLine : List Text → Bool
  | [] => true
  | prog :: args =>
    if prog = "lulua-render".toList then renderOk (readsOf (prog :: args)) (withoutLayout (plainArgs args))
    else if prog = "lulua-analyze".toList then
      match withoutLayout (plainArgs args) with
      | [c] => (analyses.map (·.1.toList)).contains c
      | _ => false
    else if prog = "lulua-write".toList then
      match plainArgs args with
      | l :: f :: fs => l.head? ≠ some '-' && (f :: fs).all fun f => f.head? ≠ some '-' && (filterAvail.map (·.1.toList)).contains f
      | _ => false
    else !(["lulua-report", "lulua-import", "lulua-optimize", "lulua-extract-mediawiki"].map String.toList).contains prog

theorem gets_ok {r : Except ArgStop (Dict String ArgVal)} {l : List (String × ArgVal)} (h : Gets r l) : ∃ ns, r = .ok ns :=
  h.imp fun _ h => h.1

theorem renderOk_spec {w : ArgWorld} {rs a : List Text} (hr : ∀ t ∈ rs, Ready w t) (h : renderOk rs (withoutLayout a) = true) :
    ∃ ns, renderProgram.start w a = .ok ns := by
  obtain ⟨os, hos, he⟩ := withoutLayout_spec a
  rw [he]
  generalize withoutLayout a = r at h
  unfold renderOk at h
  split at h
  · rename_i c out
    simp only [Bool.and_eq_true, Bool.or_eq_true, decide_eq_true_eq, List.contains_eq_mem] at h
    obtain ⟨rfl | h, h2⟩ := h
    · exact gets_ok (C127_svg w os hos [] (by simp) out h2)
    · obtain ⟨c, hc, rfl⟩ := List.mem_map.1 h
      exact gets_ok (C127_render w os hos c hc out h2)
  · rename_i c h' out
    simp only [Bool.and_eq_true, decide_eq_true_eq, List.any_eq_true] at h
    obtain ⟨⟨rfl, h2⟩, f, hf, ⟨rfl, h3⟩, h4⟩ := h
    exact gets_ok (C127_svg w os hos [.heatmap true f]
      (by simpa [SvgOpt.Good, PlainWord] using ⟨h3, (hr f hf).2 (List.isSuffixOf_iff_suffix.1 h4)⟩) out h2)
  · rename_i c s f out
    simp only [Bool.and_eq_true, decide_eq_true_eq, List.contains_eq_mem] at h
    obtain ⟨⟨⟨⟨rfl, rfl⟩, h1⟩, h2⟩, h3⟩ := h
    exact gets_ok (C127_svg w os hos [.style .short f] (by simpa [SvgOpt.Good, PlainWord] using ⟨h2, (hr f h1).1⟩) out h3)
  · cases h

theorem acceptLine_spec {w : ArgWorld} (hu : PlainNum w.uni) {st : List Text} (h : acceptLine st = true)
    (hr : ∀ t ∈ readsOf st, Ready w t) : Accepted w st := by
  rintro prog args p rfl hp
  have hm := Dict.mem_of_get? hp
  rw [acceptLine] at h
  simp only [programs, List.mem_cons, List.not_mem_nil, or_false, Prod.mk.injEq] at hm
  rcases hm with ⟨rfl, rfl⟩ | ⟨rfl, rfl⟩ | ⟨rfl, rfl⟩ | ⟨rfl, rfl⟩ | ⟨rfl, rfl⟩ | ⟨rfl, rfl⟩ | ⟨rfl, rfl⟩
  · rw [if_neg (by decide), if_pos rfl] at h
    obtain ⟨os, hos, he⟩ := withoutLayout_spec (plainArgs args)
    rw [he]
    split at h
    · rename_i c hc
      rw [hc]
      rw [List.contains_eq_mem, decide_eq_true_eq] at h
      obtain ⟨c, hm, rfl⟩ := List.mem_map.1 h
      exact gets_ok (C127_analyze w os hos c hm)
    · cases h
  · rw [if_pos rfl] at h
    exact renderOk_spec hr h
  · rw [if_neg (by decide), if_neg (by decide), if_neg (by decide)] at h; exact absurd h (by decide)
  · rw [if_neg (by decide), if_neg (by decide), if_neg (by decide)] at h; exact absurd h (by decide)
  · rw [if_neg (by decide), if_neg (by decide), if_neg (by decide)] at h; exact absurd h (by decide)
  · rw [if_neg (by decide), if_neg (by decide), if_pos rfl] at h
    split at h
    · rename_i l f fs he
      rw [he]
      simp only [Bool.and_eq_true, decide_eq_true_eq, List.all_eq_true, List.contains_eq_mem] at h
      exact gets_ok ((C127_write w hu [] (by simp) l h.1 (f :: fs) (by simp) (fun x hx => (h.2 x hx).1)).1 fun x hx => (h.2 x hx).2)
    · cases h
  · rw [if_neg (by decide), if_neg (by decide), if_neg (by decide)] at h; exact absurd h (by decide)

/-- All programs of a line. -/
def lineOk (c : Option Text) : Bool := c.all fun c => (stages c).all acceptLine

/-- What is to be shown of a statement. -/
def LineFine (w : ArgWorld) (c : Option Text) : Prop :=
  ∀ t, c = some t → (∀ f ∈ reads t, Ready w f) → ∀ st ∈ stages t, Accepted w st

theorem lineOk_spec {w : ArgWorld} (hu : PlainNum w.uni) {c : Option Text} (h : lineOk c = true) : LineFine w c := by
  rintro t rfl hr st hst
  simp only [lineOk, Option.all_some, List.all_eq_true] at h
  exact acceptLine_spec hu (h st hst) fun f hf => hr f (List.mem_flatMap.2 ⟨st, hst, hf⟩)

/-! ### Words of lines with names -/

theorem cmdWords_space (a b : Text) : cmdWords (a ++ ' ' :: b) = cmdWords a ++ cmdWords b := by
  rw [cmdWords, List.splitOn_append_cons_self, List.filter_append]
  rfl

theorem cmdWords_one {a : Text} (h : ' ' ∉ a) (hn : a ≠ []) : cmdWords a = [a] := by
  rw [cmdWords, List.splitOn_eq_singleton h]
  simp [hn]

theorem cmdWords_paths {ps : List Path} (h : ∀ p ∈ ps, ' ' ∉ pathText p ∧ '/' ∈ pathText p) : cmdWords (pathsText ps) = ps.map pathText := by
  induction ps with
  | nil => rfl
  | cons p r ih =>
    have hp := h p List.mem_cons_self
    have hn : pathText p ≠ [] := fun e => by rw [e] at hp; exact absurd hp.2 (by simp)
    cases r with
    | nil => rw [pathsText_one]; exact cmdWords_one hp.1 hn
    | cons q r =>
      have : pathsText (p :: q :: r) = pathText p ++ ' ' :: pathsText (q :: r) := by simp [pathsText, List.intercalate]
      rw [this, cmdWords_space, cmdWords_one hp.1 hn, ih fun p hp => h p (List.mem_cons_of_mem _ hp)]
      rfl

/-- Not one of the words which separate programs. -/
def noSep (t : Text) : Prop := ¬ (t = "|".toList ∨ t = "&&".toList ∨ t = ";".toList)

instance (t : Text) : Decidable (noSep t) := by unfold noSep; infer_instance

theorem noSep_slash {t : Text} (h : '/' ∈ t) : noSep t := by
  rintro (rfl | rfl | rfl) <;> exact absurd h (by decide)

theorem stages_one {c : Text} {ws : List Text} (hc : cmdWords c = ws) (h : ∀ x ∈ ws, noSep x) : stages c = [ws] := by
  rw [stages, hc, List.splitOnP_eq_singleton]
  intro x hx
  exact decide_eq_false (h x hx)

theorem LineFine.one {w : ArgWorld} {c : Text} {ws : List Text} (hc : cmdWords c = ws) (h : ∀ x ∈ ws, noSep x)
    (ha : (∀ f ∈ readsOf ws, Ready w f) → Accepted w ws) : LineFine w (some c) := by
  rintro t he hr st hst
  cases he
  rw [stages_one hc h, List.mem_singleton] at hst
  subst hst
  refine ha fun f hf => hr f ?_
  rw [reads, stages_one hc h]
  simpa using hf

theorem accepted_foreign {w : ArgWorld} {prog : Text} {args : List Text} (h : (programs w).get? prog = none) : Accepted w (prog :: args) := by
  rintro _ _ p he hp
  cases he
  rw [h] at hp
  cases hp

/-- A name: no spaces, and nothing special in front. -/
def Name (t : Text) : Prop := ' ' ∉ t ∧ ∃ c, t.head? = some c ∧ c ∉ ['-', '<', '>', '|', '&', ';', '2']

theorem Name.ne {t : Text} (h : Name t) : t ≠ [] := by
  obtain ⟨_, c, h, _⟩ := h
  rintro rfl
  cases h

theorem Name.words {t : Text} (h : Name t) : cmdWords t = [t] := cmdWords_one h.1 h.ne

theorem Name.plain {t : Text} (h : Name t) : PlainWord t := by
  obtain ⟨_, c, h, hc⟩ := h
  rw [PlainWord, h]
  rintro ⟨⟩
  exact hc (by simp)

theorem Name.other {t x : Text} (h : Name t) (hx : ∀ c, x.head? = some c → c ∈ ['-', '<', '>', '|', '&', ';', '2']) : t ≠ x := by
  obtain ⟨_, c, h, hc⟩ := h
  rintro rfl
  exact hc (hx c h)

theorem Name.noSep {t : Text} (h : Name t) : noSep t := by
  rintro (e | e | e)
  · exact h.other (by decide) e
  · exact h.other (by decide) e
  · exact h.other (by decide) e

theorem Name.arg {t : Text} (h : Name t) : t ≠ "<".toList ∧ t ≠ ">".toList ∧ t ≠ "2>/dev/null".toList :=
  ⟨h.other (by decide), h.other (by decide), h.other (by decide)⟩

theorem path_space {p : Path} (h : ∀ x ∈ p, ' ' ∉ x.toList) : ' ' ∉ pathText p := by
  induction p with
  | nil => simp [pathText, List.intercalate]
  | cons x r ih =>
    have ih := ih fun y hy => h y (List.mem_cons_of_mem _ hy)
    cases r with
    | nil => simpa [pathText, List.intercalate] using h x List.mem_cons_self
    | cons y r =>
      have e : pathText (x :: y :: r) = x.toList ++ '/' :: pathText (y :: r) := by simp [pathText, List.intercalate]
      rw [e]
      simp [h x List.mem_cons_self, ih]

theorem path_name {s : String} {r : Path} {c : Char} (h : s.toList.head? = some c) (hc : c ∉ ['-', '<', '>', '|', '&', ';', '2'])
    (hs : ∀ x ∈ s :: r, ' ' ∉ x.toList) : Name (pathText (s :: r)) := by
  refine ⟨path_space hs, c, ?_, hc⟩
  cases r with
  | nil => simpa [pathText, List.intercalate] using h
  | cons y r =>
    have e : pathText (s :: y :: r) = s.toList ++ '/' :: pathText (y :: r) := by simp [pathText, List.intercalate]
    rw [e, List.head?_append, h]
    rfl

theorem layout_name : ∀ l ∈ genLayouts, Name l.toList := by
  have key : ∀ l ∈ genLayouts, ' ' ∉ l.toList ∧ (l.toList.head?.all fun c => decide (c ∉ ['-', '<', '>', '|', '&', ';', '2'])) = true ∧
      l.toList.head?.isSome = true := by decide +kernel
  intro l hl
  obtain ⟨h1, h2, h3⟩ := key l hl
  obtain ⟨c, hc⟩ := Option.isSome_iff_exists.1 h3
  rw [hc] at h2
  exact ⟨h1, c, hc, of_decide_eq_true h2⟩

/-- Words between which there are no programs. -/
theorem stages_pipe {a b : List Text} (h : ∀ x ∈ a, noSep x) :
    ((a ++ "|".toList :: b).splitOnP fun x => x = "|".toList ∨ x = "&&".toList ∨ x = ";".toList) =
      a :: b.splitOnP fun x => x = "|".toList ∨ x = "&&".toList ∨ x = ";".toList :=
  List.splitOnP_append_cons_of_forall_mem (fun x hx => decide_eq_false (h x hx)) _ (by decide) _

theorem fine_of {w : ArgWorld} {c : Text} {sts : List (List Text)} (hs : stages c = sts)
    (h : ∀ st ∈ sts, (∀ f ∈ readsOf st, Ready w f) → Accepted w st) : LineFine w (some c) := by
  rintro t he hr st hst
  cases he
  have hst' := hst
  rw [hs] at hst
  exact h st hst fun f hf => hr f (List.mem_flatMap.2 ⟨st, hst', hf⟩)

theorem plainArgs_append {a r : List Text} (h : ∀ x ∈ a, x ≠ "<".toList ∧ x ≠ ">".toList ∧ x ≠ "2>/dev/null".toList) :
    plainArgs (a ++ r) = a ++ plainArgs r := by
  induction a with
  | nil => rfl
  | cons x a ih =>
    have hx := h x List.mem_cons_self
    have ih := ih fun y hy => h y (List.mem_cons_of_mem _ hy)
    cases hr : a ++ r with
    | nil =>
      rw [List.append_eq_nil_iff] at hr
      obtain ⟨rfl, rfl⟩ := hr
      rw [plainArgs.eq_def]
      simp only [List.append_nil, if_neg hx.2.2, plainArgs]
    | cons y s =>
      rw [List.cons_append, hr, plainArgs, if_neg (fun e => e.elim hx.1 hx.2.1), if_neg hx.2.2, ← hr, ih]
      rfl

theorem mem_nextTo {x y : Text} {a r : List Text} : y ∈ nextTo x (a ++ x :: y :: r) := by
  induction a with
  | nil => simp [nextTo]
  | cons z a ih =>
    cases a with
    | nil => simp [nextTo]
    | cons z' a => exact List.mem_append_right _ ih

theorem combine_accepted {w : ArgWorld} {o : Text} : Accepted w ["lulua-analyze".toList, "combine".toList, ">".toList, o] := by
  rintro _ _ p he hp
  cases he
  cases hp
  exact Exists.imp (fun ns h => h) (gets_ok (C127_analyze w [] (by simp) ("combine", "combine") (by simp [analyses])))

/-- Whatever lists the texts of a corpus, what comes after it is fine. -/
theorem write_fine {w : ArgWorld} (hu : PlainNum w.uni) {x l m o : Text} {F : List (List Text)} {fs : List Text} (hl : Name l) (ho : Name o)
    (hF : ((cmdWords x).splitOnP fun x => x = "|".toList ∨ x = "&&".toList ∨ x = ";".toList) = F)
    (hf : ∀ st ∈ F, Accepted w st) (hm : cmdWords m = fs) (hne : fs ≠ [])
    (hfs : ∀ f ∈ fs, f ∈ filterAvail.map (·.1.toList)) :
    LineFine w (some (x ++ (" | lulua-write ".toList ++ (l ++ (' ' :: (m ++ " | lulua-analyze combine > ".toList) ++ o))))) := by
  have hk : ∀ f ∈ filterAvail.map (·.1.toList), Name f := by
    have key : ∀ f ∈ filterAvail.map (·.1.toList), ' ' ∉ f ∧ (f.head?.all fun c => decide (c ∉ ['-', '<', '>', '|', '&', ';', '2'])) = true ∧
        f.head?.isSome = true := by decide +kernel
    intro l hl
    obtain ⟨h1, h2, h3⟩ := key l hl
    obtain ⟨c, hc⟩ := Option.isSome_iff_exists.1 h3
    rw [hc] at h2
    exact ⟨h1, c, hc, of_decide_eq_true h2⟩
  have e : x ++ (" | lulua-write ".toList ++ (l ++ (' ' :: (m ++ " | lulua-analyze combine > ".toList) ++ o))) =
      x ++ ' ' :: ("| lulua-write".toList ++ ' ' :: (l ++ ' ' :: (m ++ ' ' :: ("| lulua-analyze combine >".toList ++ ' ' :: o)))) := by
    have key : ∀ A B a b : Text, A = ' ' :: (a ++ [' ']) → B = ' ' :: (b ++ [' ']) → x ++ (A ++ (l ++ (' ' :: (m ++ B) ++ o))) =
        x ++ ' ' :: (a ++ ' ' :: (l ++ ' ' :: (m ++ ' ' :: (b ++ ' ' :: o)))) := by
      rintro _ _ a b rfl rfl
      simp
    exact key _ _ _ _ (by decide +kernel) (by decide +kernel)
  have hw : cmdWords (x ++ (" | lulua-write ".toList ++ (l ++ (' ' :: (m ++ " | lulua-analyze combine > ".toList) ++ o)))) =
      cmdWords x ++ "|".toList :: (("lulua-write".toList :: l :: fs) ++ "|".toList :: ["lulua-analyze".toList, "combine".toList, ">".toList, o]) := by
    have e1 : cmdWords "| lulua-write".toList = ["|".toList, "lulua-write".toList] := by decide +kernel
    have e2 : cmdWords "| lulua-analyze combine >".toList = ["|".toList, "lulua-analyze".toList, "combine".toList, ">".toList] := by decide +kernel
    rw [e, cmdWords_space, cmdWords_space, cmdWords_space, cmdWords_space, cmdWords_space, hl.words, hm, ho.words, e1, e2]
    rfl
  have hs : stages (x ++ (" | lulua-write ".toList ++ (l ++ (' ' :: (m ++ " | lulua-analyze combine > ".toList) ++ o)))) =
      F ++ [("lulua-write".toList :: l :: fs), ["lulua-analyze".toList, "combine".toList, ">".toList, o]] := by
    rw [stages, hw, List.splitOnP_append_cons _ _ (by decide), hF, stages_pipe, List.splitOnP_eq_singleton]
    · intro x hx
      refine decide_eq_false ?_
      simp only [List.mem_cons, List.not_mem_nil, or_false] at hx
      rcases hx with rfl | rfl | rfl | rfl
      · decide
      · decide
      · decide
      · exact ho.noSep
    · intro x hx
      rcases List.mem_cons.1 hx with rfl | hx
      · decide
      rcases List.mem_cons.1 hx with rfl | hx
      · exact hl.noSep
      · exact (hk x (hfs x hx)).noSep
  refine fine_of hs fun st hst _ => ?_
  rcases List.mem_append.1 hst with hst | hst
  · exact hf st hst
  · rcases List.mem_cons.1 hst with rfl | hst
    · rintro _ _ p he hp
      cases he
      cases hp
      have ha : plainArgs (l :: fs) = l :: fs := by
        have := plainArgs_append (a := l :: fs) (r := []) fun x hx => by
          rcases List.mem_cons.1 hx with rfl | hx
          · exact hl.arg
          · exact (hk x (hfs x hx)).arg
        simpa [plainArgs] using this
      rw [ha]
      exact gets_ok ((C127_write w hu [] (by simp) l hl.plain fs hne (fun x hx => (hk x (hfs x hx)).plain)).1 hfs)
    · rw [List.mem_singleton.1 hst]
      exact combine_accepted

theorem out_name {l c : String} (hl : Name l.toList) (hc : ' ' ∉ c.toList) : Name (pathText ["_build", "_stats", l, c ++ ".pickle"]) := by
  refine path_name (c := '_') (by decide) (by decide) ?_
  intro x hx
  simp only [List.mem_cons, List.not_mem_nil, or_false] at hx
  rcases hx with rfl | rfl | rfl | rfl
  · decide
  · decide
  · exact hl.1
  · rw [String.toList_append]
    intro h
    rcases List.mem_append.1 h with h | h
    · exact hc h
    · exact absurd h (by decide)

/-- The statistics of a corpus. -/
theorem corpus_fine {w : ArgWorld} (hu : PlainNum w.uni) {l : String} (hl : Name l.toList) (x : String × String × List Path)
    (hc : ' ' ∉ x.1.toList) (ps : List CmdPart) (q m : Text) (fs : List Text)
    (h : (rules.get? x.2.1).map cmdParts = some (ps ++ [.text (q ++ " | lulua-write ".toList), .var "layout",
      .text (' ' :: (m ++ " | lulua-analyze combine > ".toList)), .var "out", .text []]))
    (s : Text) (hs : expanded settings (corpusBuild l x) ps ++ q = s) (hm : cmdWords m = fs) (hne : fs ≠ [])
    (hfs : ∀ f ∈ fs, f ∈ filterAvail.map (·.1.toList)) (F : List (List Text))
    (hF : ((cmdWords s).splitOnP fun x => x = "|".toList ∨ x = "&&".toList ∨ x = ";".toList) = F) (hf : ∀ st ∈ F, Accepted w st) :
    LineFine w ((corpusBuild l x).command settings rules) := by
  rw [command_parts (b := corpusBuild l x) rfl h]
  have h1 : (corpusBuild l x).lookup settings "layout" = some l.toList := rfl
  have h2 : (corpusBuild l x).lookup settings "out" = some (pathText ["_build", "_stats", l, x.1 ++ ".pickle"]) := by
    rw [← pathsText_one]; rfl
  have e : expanded settings (corpusBuild l x) (ps ++ [.text (q ++ " | lulua-write ".toList), .var "layout",
      .text (' ' :: (m ++ " | lulua-analyze combine > ".toList)), .var "out", .text []]) =
      s ++ (" | lulua-write ".toList ++ (l.toList ++ (' ' :: (m ++ " | lulua-analyze combine > ".toList) ++
        pathText ["_build", "_stats", l, x.1 ++ ".pickle"]))) := by
    unfold expanded at hs ⊢
    generalize " | lulua-write ".toList = A
    generalize " | lulua-analyze combine > ".toList = B
    rw [List.flatMap_append, ← hs]
    simp only [List.flatMap_cons, List.flatMap_nil, h1, h2, Option.getD_some, List.append_nil, List.append_assoc]
  rw [e]
  exact write_fine hu hl (out_name hl hc) hF hf hm hne hfs

theorem find_fine {w : ArgWorld} (hu : PlainNum w.uni) {l : String} (hl : Name l.toList) {c rule : String} {ps : List Path}
    (hp : ∀ p ∈ ps, ' ' ∉ pathText p ∧ '/' ∈ pathText p) (hc : ' ' ∉ c.toList) (m : Text) (fs : List Text)
    (h : (rules.get? rule).map cmdParts = some [.text "find ".toList, .var "in", .text " | lulua-write ".toList, .var "layout",
      .text (' ' :: (m ++ " | lulua-analyze combine > ".toList)), .var "out", .text []])
    (hm : cmdWords m = fs) (hne : fs ≠ []) (hfs : ∀ f ∈ fs, f ∈ filterAvail.map (·.1.toList)) :
    LineFine w ((corpusBuild l (c, rule, ps)).command settings rules) := by
  have hw : cmdWords ("find ".toList ++ pathsText ps) = "find".toList :: ps.map pathText := by
    rw [show "find ".toList ++ pathsText ps = "find".toList ++ ' ' :: pathsText ps from rfl, cmdWords_space, cmdWords_paths hp]
    rfl
  refine corpus_fine hu hl (c, rule, ps) hc [.text "find ".toList, .var "in"] [] m fs h ("find ".toList ++ pathsText ps) ?_ hm hne hfs
    ["find".toList :: ps.map pathText] ?_ ?_
  · have h1 : (corpusBuild l (c, rule, ps)).lookup settings "in" = some (pathsText ps) := rfl
    simp only [expanded, List.flatMap_cons, List.flatMap_nil, h1, Option.getD_some, List.append_nil]
  · rw [hw, List.splitOnP_eq_singleton]
    intro x hx
    refine decide_eq_false ?_
    rcases List.mem_cons.1 hx with rfl | hx
    · decide
    · obtain ⟨p, h1, rfl⟩ := List.mem_map.1 hx
      exact noSep_slash (hp p h1).2
  · intro st hst
    rw [List.mem_singleton.1 hst]
    exact accepted_foreign rfl

/-! ### The build file -/

theorem three_files {A B C a b c f g h : Text} (hA : A = a ++ [' ']) (hB : B = ' ' :: (b ++ [' '])) (hC : C = ' ' :: (c ++ [' '])) :
    A ++ (f ++ (B ++ (g ++ (C ++ h)))) = a ++ ' ' :: (f ++ ' ' :: (b ++ ' ' :: (g ++ ' ' :: (c ++ ' ' :: h)))) := by
  subst hA hB hC
  simp

theorem meta_fine {w : ArgWorld} {c : String} (h : ' ' ∉ c.toList) : LineFine w ((metaBuild c).command settings rules) := by
  have hcmd : (metaBuild c).command settings rules = some ("lulua-analyze -l ar-lulua corpusstats".toList ++ ' ' ::
      (pathText ["corpus", c, "metadata.yaml"] ++ ' ' :: ("<".toList ++ ' ' :: (pathText ["_build", "_stats", "ar-lulua", c ++ ".pickle"] ++
        ' ' :: (">".toList ++ ' ' :: pathText ["_build", "_temp", "metadata-" ++ c ++ ".yaml"]))))) := by
    rw [command_parts (b := metaBuild c) (r := "analyze-corpusstats") rfl (ps := [.text "lulua-analyze -l ar-lulua corpusstats ".toList,
      .var "metadata", .text " < ".toList, .var "stats", .text " > ".toList, .var "out", .text []]) (by decide +kernel)]
    have h1 : (metaBuild c).lookup settings "metadata" = some (pathText ["corpus", c, "metadata.yaml"]) := rfl
    have h2 : (metaBuild c).lookup settings "stats" = some (pathText ["_build", "_stats", "ar-lulua", c ++ ".pickle"]) := rfl
    have h3 : (metaBuild c).lookup settings "out" = some (pathText ["_build", "_temp", "metadata-" ++ c ++ ".yaml"]) := by
      rw [← pathsText_one]; rfl
    simp only [expanded, List.flatMap_cons, List.flatMap_nil, h1, h2, h3, Option.getD_some, List.append_nil]
    exact congrArg some (three_files (by decide +kernel) (by decide +kernel) (by decide +kernel))
  have p1 : pathText ["corpus", c, "metadata.yaml"] = "corpus/".toList ++ (c.toList ++ "/metadata.yaml".toList) := by
    simp [pathText, List.intercalate]
  have p2 : pathText ["_build", "_stats", "ar-lulua", c ++ ".pickle"] = "_build/_stats/ar-lulua/".toList ++ (c.toList ++ ".pickle".toList) := by
    simp [pathText, List.intercalate]
  have p3 : pathText ["_build", "_temp", "metadata-" ++ c ++ ".yaml"] = "_build/_temp/metadata-".toList ++ (c.toList ++ ".yaml".toList) := by
    simp [pathText, List.intercalate]
  have tidy : ∀ a b : Text, ' ' ∉ a → ' ' ∉ b → '/' ∈ a → ' ' ∉ a ++ (c.toList ++ b) ∧ '/' ∈ a ++ (c.toList ++ b) := by
    intro a b ha hb hs
    simp [ha, hb, hs, h]
  have t1 := tidy "corpus/".toList "/metadata.yaml".toList (by decide) (by decide) (by decide)
  have t2 := tidy "_build/_stats/ar-lulua/".toList ".pickle".toList (by decide) (by decide) (by decide)
  have t3 := tidy "_build/_temp/metadata-".toList ".yaml".toList (by decide) (by decide) (by decide)
  have hh : (pathText ["corpus", c, "metadata.yaml"]).head? = some 'c' := by rw [p1]; rfl
  rw [← p1] at t1
  rw [← p2] at t2
  rw [← p3] at t3
  rw [hcmd]
  clear hcmd p1 p2 p3 tidy
  revert hh t3 t2 t1
  generalize pathText ["corpus", c, "metadata.yaml"] = f1
  generalize pathText ["_build", "_stats", "ar-lulua", c ++ ".pickle"] = f2
  generalize pathText ["_build", "_temp", "metadata-" ++ c ++ ".yaml"] = f3
  intro t1 t2 t3 hh
  have ne : ∀ {t : Text}, '/' ∈ t → t ≠ [] := by rintro t h rfl; cases h
  refine LineFine.one (ws := ["lulua-analyze", "-l", "ar-lulua", "corpusstats"].map String.toList ++ [f1, "<".toList, f2, ">".toList, f3]) ?_ ?_ ?_
  · rw [cmdWords_space, cmdWords_space, cmdWords_space, cmdWords_space, cmdWords_space, cmdWords_one t1.1 (ne t1.2),
      cmdWords_one t2.1 (ne t2.2), cmdWords_one t3.1 (ne t3.2)]
    have : cmdWords "lulua-analyze -l ar-lulua corpusstats".toList = ["lulua-analyze", "-l", "ar-lulua", "corpusstats"].map String.toList := by
      decide +kernel
    rw [this]
    rfl
  · intro x hx
    simp only [List.map_cons, List.map_nil, List.cons_append, List.nil_append, List.mem_cons, List.not_mem_nil, or_false] at hx
    rcases hx with rfl | rfl | rfl | rfl | rfl | rfl | rfl | rfl | rfl
    · decide
    · decide
    · decide
    · decide
    · exact noSep_slash t1.2
    · decide
    · exact noSep_slash t2.2
    · decide
    · exact noSep_slash t3.2
  · intro hr prog args p he hp
    cases he
    cases hp
    have hr1 : f1 ∈ readsOf (["lulua-analyze", "-l", "ar-lulua", "corpusstats"].map String.toList ++ [f1, "<".toList, f2, ">".toList, f3]) := by
      refine List.mem_append_right _ ?_
      rw [if_neg (by decide), if_neg (by decide), if_neg (by decide), if_neg (by decide), if_pos rfl]
      exact mem_nextTo (a := ["-l".toList, "ar-lulua".toList])
    have ha : plainArgs ("-l".toList :: "ar-lulua".toList :: "corpusstats".toList :: [f1, "<".toList, f2, ">".toList, f3]) =
        ["-l".toList, "ar-lulua".toList, "corpusstats".toList, f1] := by
      rw [show "-l".toList :: "ar-lulua".toList :: "corpusstats".toList :: [f1, "<".toList, f2, ">".toList, f3] =
        ["-l".toList, "ar-lulua".toList, "corpusstats".toList, f1] ++ ["<".toList, f2, ">".toList, f3] from rfl, plainArgs_append]
      · rfl
      · intro x hx
        simp only [List.mem_cons, List.not_mem_nil, or_false] at hx
        rcases hx with rfl | rfl | rfl | rfl
        · decide
        · decide
        · decide
        · refine ⟨?_, ?_, ?_⟩ <;> · rintro rfl; exact absurd hh (by decide)
    refine Exists.imp (fun ns h => ?_) (gets_ok ((C127_corpusstats w [.layout .short "ar-lulua".toList] (by simp [CommonOpt.Good, PlainWord]) f1
      (by rw [PlainWord, hh]; decide)).1 (hr f1 hr1).1))
    exact (congrArg (analyzeProgram.start w) ha).trans h

theorem report_fine {w : ArgWorld} {g : GenWorld} (hc : ∀ c ∈ g.corpora, ' ' ∉ c.toList) (hne : g.corpora ≠ []) :
    LineFine w (((lastBuilds g)[2]'(by simp [lastBuilds])).command settings rules) := by
  have hcmd : ((lastBuilds g)[2]'(by simp [lastBuilds])).command settings rules = some ("lulua-report -c".toList ++ ' ' ::
      (pathsText (g.corpora.map metaOut) ++ ' ' :: ("-l".toList ++ ' ' :: (pathsText (genLayouts.map layoutstatsFile) ++
        ' ' :: (">".toList ++ ' ' :: "_build/report/index.html".toList))))) := by
    rw [command_parts (b := (lastBuilds g)[2]'(by simp [lastBuilds])) (r := "report") rfl (ps := [.text "lulua-report -c ".toList, .var "corpus",
      .text " -l ".toList, .var "layoutstats", .text " > ".toList, .var "out", .text []]) (by decide +kernel)]
    have h1 : ((lastBuilds g)[2]'(by simp [lastBuilds])).lookup settings "corpus" = some (pathsText (g.corpora.map metaOut)) := rfl
    have h2 : ((lastBuilds g)[2]'(by simp [lastBuilds])).lookup settings "layoutstats" =
      some (pathsText (genLayouts.map layoutstatsFile)) := rfl
    have h3 : ((lastBuilds g)[2]'(by simp [lastBuilds])).lookup settings "out" = some "_build/report/index.html".toList :=
      Eq.trans (b := some (pathsText [["_build", "report", "index.html"]])) rfl (by decide +kernel)
    simp only [expanded, List.flatMap_cons, List.flatMap_nil, h1, h2, h3, Option.getD_some, List.append_nil]
    exact congrArg some (three_files (by decide +kernel) (by decide +kernel) (by decide +kernel))
  have tidy : ∀ a b c : Text, ' ' ∉ a → ' ' ∉ b → ' ' ∉ c → '/' ∈ a → ' ' ∉ a ++ (c ++ b) ∧ '/' ∈ a ++ (c ++ b) := by
    intro a b c ha hb h hs
    simp [ha, hb, hs, h]
  have t1 : ∀ p ∈ g.corpora.map metaOut, (' ' ∉ pathText p ∧ '/' ∈ pathText p) ∧ (pathText p).head? = some '_' := by
    intro p hp
    obtain ⟨c, h, rfl⟩ := List.mem_map.1 hp
    have e : pathText (metaOut c) = "_build/_temp/metadata-".toList ++ (c.toList ++ ".yaml".toList) := by
      simp [metaOut, tempdir, pathText, List.intercalate]
    rw [e]
    exact ⟨tidy _ _ _ (by decide) (by decide) (hc c h) (by decide), rfl⟩
  have t2 : ∀ p ∈ genLayouts.map layoutstatsFile, (' ' ∉ pathText p ∧ '/' ∈ pathText p) ∧ (pathText p).head? = some '_' := by decide +kernel
  rw [hcmd]
  clear hcmd
  have hne1 : g.corpora.map metaOut ≠ [] := by simpa using hne
  have hne2 : genLayouts.map layoutstatsFile ≠ [] := by simp [genLayouts]
  revert t1 t2 hne1 hne2
  generalize g.corpora.map metaOut = ps
  generalize genLayouts.map layoutstatsFile = qs
  intro t1 t2 hne1 hne2
  have ok : ∀ rs : List Path, (∀ p ∈ rs, (' ' ∉ pathText p ∧ '/' ∈ pathText p) ∧ (pathText p).head? = some '_') → ∀ x ∈ rs.map pathText,
      noSep x ∧ (x ≠ "<".toList ∧ x ≠ ">".toList ∧ x ≠ "2>/dev/null".toList) ∧ PlainWord x := by
    intro rs hrs x hx
    obtain ⟨p, hp, rfl⟩ := List.mem_map.1 hx
    refine ⟨noSep_slash (hrs p hp).1.2, ⟨?_, ?_, ?_⟩, by rw [PlainWord, (hrs p hp).2]; decide⟩ <;>
      · intro e
        have := (hrs p hp).2
        rw [e] at this
        exact absurd this (by decide)
  have ok1 := ok ps t1
  have ok2 := ok qs t2
  refine LineFine.one (ws := "lulua-report".toList :: (("-c".toList :: ps.map pathText) ++ "-l".toList :: qs.map pathText) ++
    [">".toList, "_build/report/index.html".toList]) ?_ ?_ ?_
  · rw [cmdWords_space, cmdWords_space, cmdWords_space, cmdWords_space, cmdWords_space, cmdWords_paths fun p hp => (t1 p hp).1,
      cmdWords_paths fun p hp => (t2 p hp).1]
    have e1 : cmdWords "lulua-report -c".toList = ["lulua-report".toList, "-c".toList] := by decide +kernel
    have e2 : cmdWords "-l".toList = ["-l".toList] := by decide +kernel
    have e3 : cmdWords ">".toList = [">".toList] := by decide +kernel
    have e4 : cmdWords "_build/report/index.html".toList = ["_build/report/index.html".toList] := by decide +kernel
    rw [e1, e2, e3, e4]
    generalize ps.map pathText = a
    generalize qs.map pathText = b
    generalize "_build/report/index.html".toList = o
    generalize "lulua-report".toList = r
    simp only [List.cons_append, List.nil_append, List.append_assoc]
  · intro x hx
    simp only [List.cons_append, List.append_assoc, List.mem_cons, List.mem_append, List.not_mem_nil, or_false] at hx
    rcases hx with rfl | rfl | hx | rfl | hx | rfl | rfl
    · decide
    · decide
    · exact (ok1 x hx).1
    · decide
    · exact (ok2 x hx).1
    · decide
    · decide
  · intro hr prog args p he hp
    cases he
    cases hp
    refine Exists.imp (fun ns h => ?_) (gets_ok (C127_report w [.corpus false (ps.map pathText), .layoutstats false (qs.map pathText)] (by
      simp only [List.mem_cons, List.not_mem_nil, or_false, forall_eq_or_imp, forall_eq, ReportOpt.Good]
      exact ⟨⟨by simpa using hne1, fun t ht => (ok1 t ht).2.2⟩, by simpa using hne2, fun t ht => (ok2 t ht).2.2⟩)))
    refine (congrArg (reportProgram.start w) ?_).trans h
    refine (plainArgs_append (a := ("-c".toList :: ps.map pathText) ++ "-l".toList :: qs.map pathText) ?_).trans ?_
    · intro x hx
      simp only [List.cons_append, List.mem_cons, List.mem_append] at hx
      rcases hx with rfl | hx | rfl | hx
      · decide
      · exact (ok1 x hx).2.1
      · decide
      · exact (ok2 x hx).2.1
    · have e : plainArgs [">".toList, "_build/report/index.html".toList] = [] := if_pos (.inr rfl)
      rw [e, List.append_nil]
      simp only [ReportOpt.words, List.flatMap_cons, List.flatMap_nil, List.append_nil, pick]
      rfl

theorem winkbd_fine {w : ArgWorld} {f : String} (h : ' ' ∉ f.toList) : LineFine w ((winkbdBuild f).command settings rules) := by
  have hcmd : (winkbdBuild f).command settings rules = some ("cp".toList ++ ' ' ::
      (pathText ["lulua", "data", "winkbd", f] ++ ' ' :: pathText ["_build", "_temp", "winkbd", f])) := by
    rw [command_parts (b := winkbdBuild f) (r := "cp") rfl (ps := [.text "cp ".toList, .var "in", .text " ".toList, .var "out", .text []]) (by decide +kernel)]
    have h1 : (winkbdBuild f).lookup settings "in" = some (pathText ["lulua", "data", "winkbd", f]) := by rw [← pathsText_one]; rfl
    have h2 : (winkbdBuild f).lookup settings "out" = some (pathText ["_build", "_temp", "winkbd", f]) := by rw [← pathsText_one]; rfl
    simp only [expanded, List.flatMap_cons, List.flatMap_nil, h1, h2, Option.getD_some, List.append_nil]
    rfl
  have p1 : pathText ["lulua", "data", "winkbd", f] = "lulua/data/winkbd/".toList ++ f.toList := by simp [pathText, List.intercalate]
  have p2 : pathText ["_build", "_temp", "winkbd", f] = "_build/_temp/winkbd/".toList ++ f.toList := by simp [pathText, List.intercalate]
  have tidy : ∀ a : Text, ' ' ∉ a → '/' ∈ a → ' ' ∉ a ++ f.toList ∧ '/' ∈ a ++ f.toList := by
    intro a ha hs
    simp [ha, hs, h]
  have t1 := tidy "lulua/data/winkbd/".toList (by decide) (by decide)
  have t2 := tidy "_build/_temp/winkbd/".toList (by decide) (by decide)
  rw [← p1] at t1
  rw [← p2] at t2
  have ne : ∀ {t : Text}, '/' ∈ t → t ≠ [] := by rintro t h rfl; cases h
  rw [hcmd]
  refine LineFine.one (ws := ["cp".toList, pathText ["lulua", "data", "winkbd", f], pathText ["_build", "_temp", "winkbd", f]]) ?_ ?_
    fun _ => accepted_foreign rfl
  · rw [cmdWords_space, cmdWords_space, cmdWords_one t1.1 (ne t1.2), cmdWords_one t2.1 (ne t2.2)]
    rfl
  · intro x hx
    simp only [List.mem_cons, List.not_mem_nil, or_false] at hx
    rcases hx with rfl | rfl | rfl
    · decide
    · exact noSep_slash t1.2
    · exact noSep_slash t2.2

theorem file_name {s : String} {l e : String} (hs : ' ' ∉ s.toList) (hl : Name l.toList) (he : ' ' ∉ e.toList) :
    Name (pathText ["_build", s, l ++ e]) := by
  refine path_name (c := '_') (by decide) (by decide) ?_
  intro x hx
  simp only [List.mem_cons, List.not_mem_nil, or_false] at hx
  rcases hx with rfl | rfl | rfl
  · decide
  · exact hs
  · rw [String.toList_append]
    intro h
    exact (List.mem_append.1 h).elim hl.1 he

/-- What `lulua-analyze` makes for a layout. -/
theorem analyze_fine {w : ArgWorld} {l i o : Text} (hl : Name l) (hi : Name i) (ho : Name o) (c : String × String) (hc : c ∈ analyses)
    {A B : Text} (hA : A = ' ' :: (c.1.toList ++ (' ' :: '<' :: [' ']))) (hB : B = ' ' :: '>' :: [' ']) :
    LineFine w (some ("lulua-analyze -l ".toList ++ (l ++ (A ++ (i ++ (B ++ o)))))) := by
  have hcn : Name c.1.toList := by
    simp only [analyses, List.mem_cons, List.not_mem_nil, or_false] at hc
    rcases hc with rfl | rfl | rfl | rfl | rfl | rfl | rfl | rfl <;> exact ⟨by decide, _, rfl, by decide⟩
  have e : "lulua-analyze -l ".toList ++ (l ++ (A ++ (i ++ (B ++ o)))) = "lulua-analyze -l".toList ++ ' ' :: (l ++ ' ' :: (c.1.toList ++ ' ' ::
      (['<'] ++ ' ' :: (i ++ ' ' :: (['>'] ++ ' ' :: o))))) := by
    have key : ∀ X x : Text, X = x ++ [' '] → X ++ (l ++ (A ++ (i ++ (B ++ o)))) = x ++ ' ' :: (l ++ ' ' :: (c.1.toList ++ ' ' ::
        (['<'] ++ ' ' :: (i ++ ' ' :: (['>'] ++ ' ' :: o))))) := by
      rintro _ x rfl
      subst hA hB
      simp
    exact key _ _ (by decide +kernel)
  refine LineFine.one (ws := ["lulua-analyze".toList, "-l".toList] ++ [l, c.1.toList, "<".toList, i, ">".toList, o]) ?_ ?_ fun _ => ?_
  · have e1 : cmdWords "lulua-analyze -l".toList = ["lulua-analyze".toList, "-l".toList] := by decide +kernel
    rw [e, cmdWords_space, cmdWords_space, cmdWords_space, cmdWords_space, cmdWords_space, cmdWords_space, hl.words, hi.words, ho.words,
      hcn.words, e1]
    rfl
  · intro x hx
    simp only [List.cons_append, List.nil_append, List.mem_cons, List.not_mem_nil, or_false] at hx
    rcases hx with rfl | rfl | rfl | rfl | rfl | rfl | rfl | rfl
    · decide
    · decide
    · exact hl.noSep
    · exact hcn.noSep
    · decide
    · exact hi.noSep
    · decide
    · exact ho.noSep
  · rintro _ _ p he hp
    cases he
    cases hp
    have ha : plainArgs (["-l".toList, l, c.1.toList] ++ ["<".toList, i, ">".toList, o]) = ["-l".toList, l, c.1.toList] := by
      rw [plainArgs_append]
      · rfl
      · intro x hx
        simp only [List.mem_cons, List.not_mem_nil, or_false] at hx
        rcases hx with rfl | rfl | rfl
        · decide
        · exact hl.arg
        · exact hcn.arg
    refine Exists.imp (fun ns h => ?_) (gets_ok (C127_analyze w [.layout .short l] (by simpa [CommonOpt.Good] using hl.plain) c hc))
    exact (congrArg (analyzeProgram.start w) ha).trans h

/-- Pictures. -/
theorem svg_fine {w : ArgWorld} {l y o : Text} (hl : Name l) (ho : Name o) {xs : List Text} (hy : cmdWords y = xs ++ [o])
    (hxs : ∀ t ∈ xs, noSep t ∧ t ≠ "<".toList ∧ t ≠ ">".toList ∧ t ≠ "2>/dev/null".toList)
    (hg : (∀ f ∈ readsOf ("lulua-render".toList :: "-l".toList :: l :: "svg".toList :: (xs ++ [o])), Ready w f) →
      ∃ ss : List SvgOpt, (∀ s ∈ ss, s.Good w) ∧ xs = ss.flatMap (·.words)) :
    LineFine w (some ("lulua-render -l ".toList ++ (l ++ (" svg ".toList ++ y)))) := by
  have e : "lulua-render -l ".toList ++ (l ++ (" svg ".toList ++ y)) =
      "lulua-render -l".toList ++ ' ' :: (l ++ ' ' :: ("svg".toList ++ ' ' :: y)) := by
    have key : ∀ A B a b : Text, A = a ++ [' '] → B = ' ' :: (b ++ [' ']) → A ++ (l ++ (B ++ y)) =
        a ++ ' ' :: (l ++ ' ' :: (b ++ ' ' :: y)) := by
      rintro _ _ a b rfl rfl
      simp
    exact key _ _ _ _ (by decide +kernel) (by decide +kernel)
  refine LineFine.one (ws := "lulua-render".toList :: "-l".toList :: l :: "svg".toList :: (xs ++ [o])) ?_ ?_ fun hr => ?_
  · have e1 : cmdWords "lulua-render -l".toList = ["lulua-render".toList, "-l".toList] := by decide +kernel
    have e2 : cmdWords "svg".toList = ["svg".toList] := by decide +kernel
    rw [e, cmdWords_space, cmdWords_space, cmdWords_space, hl.words, hy, e1, e2]
    rfl
  · intro t ht
    simp only [List.mem_cons, List.mem_append, List.not_mem_nil, or_false] at ht
    rcases ht with rfl | rfl | rfl | rfl | ht | rfl
    · decide
    · decide
    · exact hl.noSep
    · decide
    · exact (hxs t ht).1
    · exact ho.noSep
  · obtain ⟨ss, hss, rfl⟩ := hg hr
    rintro _ _ p he hp
    cases he
    cases hp
    have ha : plainArgs ("-l".toList :: l :: "svg".toList :: (ss.flatMap (·.words) ++ [o])) =
        "-l".toList :: l :: "svg".toList :: (ss.flatMap (·.words) ++ [o]) := by
      have := plainArgs_append (a := "-l".toList :: l :: "svg".toList :: (ss.flatMap (·.words) ++ [o])) (r := []) fun t ht => by
        simp only [List.mem_cons, List.mem_append, List.not_mem_nil, or_false] at ht
        rcases ht with rfl | rfl | rfl | ht | rfl
        · decide
        · exact hl.arg
        · decide
        · exact (hxs t ht).2
        · exact ho.arg
      rw [List.append_nil, plainArgs, List.append_nil] at this
      exact this
    refine Exists.imp (fun ns h => ?_) (gets_ok (C127_svg w [.layout .short l] (by simpa [CommonOpt.Good] using hl.plain) ss hss o ho.plain))
    exact (congrArg (renderProgram.start w) ha).trans h

theorem foreign_fine {w : ArgWorld} {b : Build} {c : Text} (h : b.command settings rules = some c)
    {prog : Text} {ws : List Text} (hc : cmdWords c = prog :: ws) (hs : ∀ x ∈ prog :: ws, noSep x) (hp : (programs w).get? prog = none) :
    LineFine w (b.command settings rules) := by
  rw [h]
  exact LineFine.one hc hs fun _ => accepted_foreign hp

theorem layout_fine {w : ArgWorld} (hu : PlainNum w.uni) {g : GenWorld} (hg : TidyNames g) {l : String} (hl : l ∈ genLayouts) :
    ∀ b ∈ layoutBuilds g l, LineFine w (b.command settings rules) := by
  have hn := layout_name l hl
  have hp := hg.2.2
  simp only [List.mem_append] at hp
  have inOut : ∀ {b : Build} {i o : Path}, b.ins = [i] → b.outs = [o] →
      b.lookup settings "in" = some (pathText i) ∧ b.lookup settings "out" = some (pathText o) := by
    intro b i o h1 h2
    rw [← pathsText_one, ← pathsText_one, ← h1, ← h2]
    exact ⟨rfl, rfl⟩
  have outOnly : ∀ {b : Build} {o : Path}, b.outs = [o] → b.lookup settings "out" = some (pathText o) := by
    intro b o h2
    rw [← pathsText_one, ← h2]
    rfl
  intro b hb
  simp only [layoutBuilds, List.cons_append, List.mem_cons, List.mem_append, List.mem_map, List.not_mem_nil, or_false] at hb
  rcases hb with rfl | ⟨x, hx, rfl⟩ | rfl | rfl | rfl | rfl | rfl | rfl | rfl | rfl
  · -- the directory
    have ho : Name (pathText ["_build", "_stats", l]) := by
      refine path_name (c := '_') (by decide) (by decide) fun x hx => ?_
      simp only [List.mem_cons, List.not_mem_nil, or_false] at hx
      rcases hx with rfl | rfl | rfl
      · decide
      · decide
      · exact hn.1
    refine foreign_fine (c := "mkdir -p ".toList ++ pathText ["_build", "_stats", l]) (prog := "mkdir".toList)
      (ws := ["-p".toList, pathText ["_build", "_stats", l]]) ?_ ?_ ?_ rfl
    · rw [command_parts (r := "mkdir") rfl (ps := [.text "mkdir -p ".toList, .var "out", .text []]) (by decide +kernel)]
      simp only [expanded, List.flatMap_cons, List.flatMap_nil, List.append_nil]
      rw [outOnly rfl]
      rfl
    · rw [show "mkdir -p ".toList ++ pathText ["_build", "_stats", l] = "mkdir -p".toList ++ ' ' :: pathText ["_build", "_stats", l] from rfl,
        cmdWords_space, ho.words]
      rfl
    · intro x hx
      simp only [List.mem_cons, List.not_mem_nil, or_false] at hx
      rcases hx with rfl | rfl | rfl
      · decide
      · decide
      · exact ho.noSep
  · -- the corpora
    have filters : ∀ fs : List String, (fs.all fun f => (filterAvail.map (·.1)).contains f) = true →
        ∀ f ∈ fs.map String.toList, f ∈ filterAvail.map (·.1.toList) := by
      intro fs h f hf
      obtain ⟨f, hm, rfl⟩ := List.mem_map.1 hf
      have := List.all_eq_true.1 h f hm
      rw [List.contains_eq_mem, decide_eq_true_eq] at this
      obtain ⟨x, h1, rfl⟩ := List.mem_map.1 this
      exact List.mem_map.2 ⟨x, h1, rfl⟩
    have tool : ∀ {x : String × String × List Path} (n : String), n ≠ "in" → n ≠ "out" → n ≠ "layout" →
        (corpusBuild l x).lookup settings n = settings.get? n := by
      intro x n h1 h2 h3
      simp [Build.lookup, h1, h2, corpusBuild, Dict.get?, Ne.symm h3]
    have inp : ∀ {x : String × String × List Path}, (corpusBuild l x).lookup settings "in" = some (pathsText x.2.2) := rfl
    simp only [corpusSources, List.mem_cons, List.not_mem_nil, or_false] at hx
    rcases hx with rfl | rfl | rfl | rfl | rfl | rfl | rfl | rfl
    · exact find_fine hu hn (fun p h => hp p (.inl (.inl (.inl (.inl h))))) (by decide) "file brotli tar bbcarabic".toList
        (["file", "brotli", "tar", "bbcarabic"].map String.toList) (by decide +kernel) (by decide +kernel) (by simp) (filters _ (by decide +kernel))
    · exact find_fine hu hn (fun p h => hp p (.inl (.inl (.inl (.inr h))))) (by decide) "file brotli tar aljazeera".toList
        (["file", "brotli", "tar", "aljazeera"].map String.toList) (by decide +kernel) (by decide +kernel) (by simp) (filters _ (by decide +kernel))
    · exact find_fine hu hn (fun p h => hp p (.inr h)) (by decide) "epub".toList
        (["epub"].map String.toList) (by decide +kernel) (by decide +kernel) (by simp) (filters _ (by decide +kernel))
    · exact find_fine hu hn (by decide +kernel) (by decide) "file text".toList
        (["file", "text"].map String.toList) (by decide +kernel) (by decide +kernel) (by simp) (filters _ (by decide +kernel))
    · refine corpus_fine hu hn (_, _, _) (by decide) [.text [], .var "wikiextractor", .text " -ns 0 --json -o - ".toList, .var "in"]
          " 2>/dev/null | jq .text".toList "json".toList (["json"].map String.toList) (by decide +kernel)
        ("3rdparty/wikiextractor/WikiExtractor.py -ns 0 --json -o - " ++
          "corpus/arwiki/arwiki-20190701-pages-articles.xml.bz2 2>/dev/null | jq .text").toList
        (by
          simp only [expanded, List.flatMap_cons, List.flatMap_nil, tool "wikiextractor" (by decide) (by decide) (by decide), inp]
          decide +kernel) (by decide +kernel) (by simp) (filters _ (by decide +kernel))
        [["3rdparty/wikiextractor/WikiExtractor.py".toList, "-ns".toList, "0".toList, "--json".toList, "-o".toList, "-".toList,
          "corpus/arwiki/arwiki-20190701-pages-articles.xml.bz2".toList, "2>/dev/null".toList], ["jq".toList, ".text".toList]]
        (by decide +kernel) ?_
      intro st hst
      rcases List.mem_cons.1 hst with rfl | hst
      · exact accepted_foreign rfl
      · rw [List.mem_singleton.1 hst]
        exact accepted_foreign rfl
    · refine corpus_fine hu hn (_, _, _) (by decide) [.text [], .var "osmconvert", .text " --csv='name:ar' ".toList, .var "in"]
          " | sort -u".toList "lines".toList (["lines"].map String.toList) (by decide +kernel)
        "3rdparty/osmctools/src/osmconvert --csv='name:ar' corpus/osm/planet-191104.osm.pbf | sort -u".toList
        (by
          simp only [expanded, List.flatMap_cons, List.flatMap_nil, tool "osmconvert" (by decide) (by decide) (by decide), inp]
          decide +kernel) (by decide +kernel) (by simp) (filters _ (by decide +kernel))
        [["3rdparty/osmctools/src/osmconvert".toList, "--csv='name:ar'".toList, "corpus/osm/planet-191104.osm.pbf".toList],
          ["sort".toList, "-u".toList]]
        (by decide +kernel) ?_
      intro st hst
      rcases List.mem_cons.1 hst with rfl | hst
      · exact accepted_foreign rfl
      · rw [List.mem_singleton.1 hst]
        exact accepted_foreign rfl
    · exact find_fine hu hn (fun p h => hp p (.inl (.inl (.inr h)))) (by decide) "file brotli tar xml tei2".toList
        (["file", "brotli", "tar", "xml", "tei2"].map String.toList) (by decide +kernel) (by decide +kernel) (by simp)
        (filters _ (by decide +kernel))
    · exact find_fine hu hn (fun p h => hp p (.inl (.inr h))) (by decide) "file brotli tar xml opensubtitles".toList
        (["file", "brotli", "tar", "xml", "opensubtitles"].map String.toList) (by decide +kernel) (by decide +kernel) (by simp)
        (filters _ (by decide +kernel))
  · -- all corpora
    have hin : ∀ p ∈ allInputs.map (fun c => statsFile l (c ++ ".pickle")), ' ' ∉ pathText p ∧ '/' ∈ pathText p := by
      intro p hp
      obtain ⟨c, hc, rfl⟩ := List.mem_map.1 hp
      have h1 : ∀ c ∈ allInputs, ' ' ∉ c.toList := by decide +kernel
      exact ⟨(out_name hn (h1 c hc)).1, by simp [pathText, List.intercalate, statsFile, statsdir]⟩
    have ho : Name (pathText ["_build", "_stats", l, "all.pickle"]) := out_name (c := "all") hn (by decide)
    rw [command_parts (r := "combine") rfl (ps := [.text "cat ".toList, .var "in", .text " | lulua-analyze combine > ".toList, .var "out",
      .text []]) (by decide +kernel)]
    revert hin ho
    generalize hps : allInputs.map (fun c => statsFile l (c ++ ".pickle")) = ps
    intro hin ho
    have e : ∀ (B b o : Text), B = ' ' :: (b ++ [' ']) → "cat ".toList ++ (pathsText ps ++ (B ++ o)) =
        "cat".toList ++ ' ' :: (pathsText ps ++ ' ' :: (b ++ ' ' :: o)) := by
      rintro _ b o rfl
      have : "cat ".toList = "cat".toList ++ [' '] := rfl
      rw [this]
      simp only [List.append_assoc, List.cons_append, List.nil_append]
    have hk : expanded settings { outs := [statsFile l "all.pickle"], rule := "combine", ins := ps, orderOnly := [statsdir ++ [l]] }
        [.text "cat ".toList, .var "in", .text " | lulua-analyze combine > ".toList, .var "out", .text []] =
        "cat".toList ++ ' ' :: (pathsText ps ++ ' ' :: ("| lulua-analyze combine >".toList ++ ' ' :: pathText ["_build", "_stats", l, "all.pickle"])) := by
      rw [← e " | lulua-analyze combine > ".toList _ _ (by decide +kernel)]
      simp only [expanded, List.flatMap_cons, List.flatMap_nil, List.append_nil]
      rw [outOnly rfl]
      rfl
    have hw : cmdWords ("cat".toList ++ ' ' :: (pathsText ps ++ ' ' :: ("| lulua-analyze combine >".toList ++ ' ' ::
        pathText ["_build", "_stats", l, "all.pickle"]))) = ("cat".toList :: ps.map pathText) ++ "|".toList ::
          ["lulua-analyze".toList, "combine".toList, ">".toList, pathText ["_build", "_stats", l, "all.pickle"]] := by
      have e2 : cmdWords "| lulua-analyze combine >".toList = ["|".toList, "lulua-analyze".toList, "combine".toList, ">".toList] := by decide +kernel
      rw [cmdWords_space, cmdWords_space, cmdWords_space, cmdWords_paths hin, ho.words, e2]
      rfl
    rw [hk]
    refine fine_of (sts := ["cat".toList :: ps.map pathText, ["lulua-analyze".toList, "combine".toList, ">".toList,
      pathText ["_build", "_stats", l, "all.pickle"]]]) ?_ ?_
    · rw [stages, hw, stages_pipe, List.splitOnP_eq_singleton]
      · intro x hx
        refine decide_eq_false ?_
        simp only [List.mem_cons, List.not_mem_nil, or_false] at hx
        rcases hx with rfl | rfl | rfl | rfl
        · decide
        · decide
        · decide
        · exact ho.noSep
      · intro x hx
        rcases List.mem_cons.1 hx with rfl | hx
        · decide
        · obtain ⟨p, h1, rfl⟩ := List.mem_map.1 hx
          exact noSep_slash (hin p h1).2
    · intro st hst _
      rcases List.mem_cons.1 hst with rfl | hst
      · exact accepted_foreign rfl
      · rw [List.mem_singleton.1 hst]
        exact combine_accepted
  · -- the picture
    have ho : Name (pathText ["_build", "report", l ++ ".svg"]) := file_name (by decide) hn (by decide)
    rw [command_parts (r := "render-svg") rfl (ps := [.text "lulua-render -l ".toList, .var "layout", .text " svg ".toList, .var "out",
      .text []]) (by decide +kernel)]
    simp only [expanded, List.flatMap_cons, List.flatMap_nil, List.append_nil]
    rw [outOnly rfl]
    exact svg_fine hn ho (xs := []) ho.words (by simp) fun _ => ⟨[], by simp, rfl⟩
  · -- the heat map
    have ho : Name (pathText ["_build", "_temp", l ++ "-heat.yaml"]) := file_name (by decide) hn (by decide)
    have hi : Name (pathText ["_build", "_stats", l, "all.pickle"]) := out_name (c := "all") hn (by decide)
    rw [command_parts (r := "analyze-heat") rfl (ps := [.text "lulua-analyze -l ".toList, .var "layout", .text " keyheatmap < ".toList, .var "in",
      .text " > ".toList, .var "out", .text []]) (by decide +kernel)]
    simp only [expanded, List.flatMap_cons, List.flatMap_nil, List.append_nil]
    rw [(inOut rfl rfl).1, (inOut rfl rfl).2]
    exact analyze_fine hn hi ho ("keyheatmap", "keyHeatmap") (by simp [analyses]) (by decide +kernel) (by decide +kernel)
  · -- efforts
    have ho : Name (pathText ["_build", "_temp", l ++ "-triadeffort.pickle"]) := file_name (by decide) hn (by decide)
    have hi : Name (pathText ["_build", "_stats", l, "all.pickle"]) := out_name (c := "all") hn (by decide)
    rw [command_parts (r := "analyze-triadeffortdata") rfl (ps := [.text "lulua-analyze -l ".toList, .var "layout",
      .text " triadeffortdata < ".toList, .var "in", .text " > ".toList, .var "out", .text []]) (by decide +kernel)]
    simp only [expanded, List.flatMap_cons, List.flatMap_nil, List.append_nil]
    rw [(inOut rfl rfl).1, (inOut rfl rfl).2]
    exact analyze_fine hn hi ho ("triadeffortdata", "triadEffortData") (by simp [analyses]) (by decide +kernel) (by decide +kernel)
  · -- the picture with heat map
    have ho : Name (pathText ["_build", "report", l ++ "-heat.svg"]) := file_name (by decide) hn (by decide)
    have hi : Name (pathText ["_build", "_temp", l ++ "-heat.yaml"]) := file_name (by decide) hn (by decide)
    have hy : ".yaml".toList <:+ pathText ["_build", "_temp", l ++ "-heat.yaml"] := by
      have e : pathText ["_build", "_temp", l ++ "-heat.yaml"] = ("_build/_temp/".toList ++ l.toList ++ "-heat".toList) ++ ".yaml".toList := by
        simp [pathText, List.intercalate]
      exact ⟨_, e.symm⟩
    rw [command_parts (r := "render-svg-heat") rfl (ps := [.text "lulua-render -l ".toList, .var "layout", .text " svg --heatmap=".toList,
      .var "in", .text " ".toList, .var "out", .text []]) (by decide +kernel)]
    simp only [expanded, List.flatMap_cons, List.flatMap_nil, List.append_nil]
    rw [(inOut rfl rfl).1, (inOut rfl rfl).2]
    change LineFine w (some ("lulua-render -l ".toList ++ (l.toList ++ (" svg --heatmap=".toList ++ (pathText ["_build", "_temp", l ++ "-heat.yaml"] ++
      (" ".toList ++ pathText ["_build", "report", l ++ "-heat.svg"]))))))
    revert ho hi hy
    generalize pathText ["_build", "_temp", l ++ "-heat.yaml"] = i
    generalize pathText ["_build", "report", l ++ "-heat.svg"] = o
    intro ho hi hy
    have e : " svg --heatmap=".toList ++ (i ++ (" ".toList ++ o)) = " svg ".toList ++ (("--heatmap=".toList ++ i) ++ ' ' :: o) := by
      have : " svg --heatmap=".toList = " svg ".toList ++ "--heatmap=".toList := by decide +kernel
      rw [this, List.append_assoc, List.append_assoc]
      rfl
    rw [e]
    have hh : ' ' ∉ "--heatmap=".toList ++ i := fun h => (List.mem_append.1 h).elim (by decide) hi.1
    have hd : ∀ x : Text, x.head? ≠ some '-' → "--heatmap=".toList ++ i ≠ x := by
      rintro _ h rfl
      exact h rfl
    refine svg_fine hn ho (xs := ["--heatmap=".toList ++ i]) ?_ ?_ fun hr => ⟨[.heatmap true i], ?_, by rfl⟩
    · rw [cmdWords_space, cmdWords_one hh (by simp), ho.words]
    · intro t ht
      rw [List.mem_singleton.1 ht]
      exact ⟨fun h => h.elim (hd _ (by decide)) fun h => h.elim (hd _ (by decide)) (hd _ (by decide)), hd _ (by decide), hd _ (by decide),
        hd _ (by decide)⟩
    · intro s hs
      rw [List.mem_singleton.1 hs]
      refine ⟨hi.plain, (hr i ?_).2 hy⟩
      refine List.mem_append_right _ ?_
      rw [if_neg (by decide), if_neg (by decide), if_pos rfl]
      refine List.mem_append_left _ (List.mem_filterMap.2 ⟨"--heatmap=".toList ++ i, by simp, ?_⟩)
      have : ∀ p i : Text, afterPrefix p (p ++ i) = some i := by
        intro p i
        simp [afterPrefix]
      exact this _ _
  · -- the picture for printing
    have ho : Name (pathText ["_build", "_temp", l ++ "-print.svg"]) := file_name (by decide) hn (by decide)
    rw [command_parts (r := "render-svg-print") rfl (ps := [.text "lulua-render -l ".toList, .var "layout",
      .text " svg -s lulua/data/render-svg-print.css ".toList, .var "out", .text []]) (by decide +kernel)]
    simp only [expanded, List.flatMap_cons, List.flatMap_nil, List.append_nil]
    rw [outOnly rfl]
    change LineFine w (some ("lulua-render -l ".toList ++ (l.toList ++ (" svg -s lulua/data/render-svg-print.css ".toList ++
      pathText ["_build", "_temp", l ++ "-print.svg"]))))
    revert ho
    generalize pathText ["_build", "_temp", l ++ "-print.svg"] = o
    intro ho
    have e : " svg -s lulua/data/render-svg-print.css ".toList ++ o = " svg ".toList ++ ("-s lulua/data/render-svg-print.css".toList ++ ' ' :: o) := by
      have : " svg -s lulua/data/render-svg-print.css ".toList = " svg ".toList ++ ("-s lulua/data/render-svg-print.css".toList ++ [' ']) := by
        decide +kernel
      rw [this, List.append_assoc, List.append_assoc]
      rfl
    rw [e]
    have e1 : cmdWords "-s lulua/data/render-svg-print.css".toList = ["-s".toList, printCss] := by decide +kernel
    have hpc : Name printCss := ⟨by decide +kernel, 'l', by decide +kernel, by decide⟩
    refine svg_fine hn ho (xs := ["-s".toList, printCss]) ?_ ?_ fun hr => ⟨[.style .short printCss], ?_, by rfl⟩
    · rw [cmdWords_space, ho.words, e1]
    · intro t ht
      rcases List.mem_cons.1 ht with rfl | ht
      · decide
      · rw [List.mem_singleton.1 ht]
        exact ⟨hpc.noSep, hpc.arg⟩
    · intro s hs
      rw [List.mem_singleton.1 hs]
      refine ⟨hpc.plain, (hr printCss ?_).1⟩
      refine List.mem_append_right _ ?_
      rw [if_neg (by decide), if_neg (by decide), if_pos rfl]
      exact List.mem_append_right _ (mem_nextTo (a := ["-l".toList, l.toList, "svg".toList]))
  · -- the document
    have ho : Name (pathText ["_build", "report", l ++ ".pdf"]) := file_name (by decide) hn (by decide)
    have hi : Name (pathText ["_build", "_temp", l ++ "-print.svg"]) := file_name (by decide) hn (by decide)
    refine foreign_fine (c := "rsvg-convert -f pdf".toList ++ ' ' :: (pathText ["_build", "_temp", l ++ "-print.svg"] ++ ' ' :: (['>'] ++ ' ' ::
      pathText ["_build", "report", l ++ ".pdf"]))) (prog := "rsvg-convert".toList)
      (ws := ["-f".toList, "pdf".toList, pathText ["_build", "_temp", l ++ "-print.svg"], ['>'], pathText ["_build", "report", l ++ ".pdf"]]) ?_ ?_ ?_ rfl
    · rw [command_parts (r := "svg2pdf") rfl (ps := [.text "rsvg-convert -f pdf ".toList, .var "in", .text " > ".toList, .var "out", .text []])
        (by decide +kernel)]
      simp only [expanded, List.flatMap_cons, List.flatMap_nil, List.append_nil]
      rw [(inOut rfl rfl).1, (inOut rfl rfl).2]
      have : "rsvg-convert -f pdf ".toList = "rsvg-convert -f pdf".toList ++ [' '] := by decide +kernel
      rw [Option.getD_some, Option.getD_some, this, List.append_assoc]
      rfl
    · have e1 : cmdWords "rsvg-convert -f pdf".toList = ["rsvg-convert".toList, "-f".toList, "pdf".toList] := by decide +kernel
      rw [cmdWords_space, cmdWords_space, cmdWords_space, hi.words, ho.words, e1]
      rfl
    · intro x hx
      simp only [List.mem_cons, List.not_mem_nil, or_false] at hx
      rcases hx with rfl | rfl | rfl | rfl | rfl | rfl
      · decide
      · decide
      · decide
      · exact hi.noSep
      · decide
      · exact ho.noSep
  · -- statistics of the layout
    have ho : Name (pathText ["_build", "_temp", l ++ "-layoutstats.pickle"]) := file_name (by decide) hn (by decide)
    have hi : Name (pathText ["_build", "_stats", l, "all.pickle"]) := out_name (c := "all") hn (by decide)
    rw [command_parts (r := "analyze-layoutstats") rfl (ps := [.text "lulua-analyze -l ".toList, .var "layout",
      .text " layoutstats < ".toList, .var "in", .text " > ".toList, .var "out", .text []]) (by decide +kernel)]
    simp only [expanded, List.flatMap_cons, List.flatMap_nil, List.append_nil]
    rw [(inOut rfl rfl).1, (inOut rfl rfl).2]
    exact analyze_fine hn hi ho ("layoutstats", "layoutstats") (by simp [analyses]) (by decide +kernel) (by decide +kernel)

/-- No files at all. -/
def emptyGen : GenWorld := ⟨[], [], [], [], [], [], []⟩

theorem other_ok : ((firstBuilds ++ driverBuilds emptyGen ++ [xmodmapBuild "ar-lulua"] ++ (lastBuilds emptyGen).take 2).all
    fun b => lineOk (b.command settings rules)) = true := by
  decide +kernel

/-- **C127** (build file): if the files of the report have tidy names and there is a corpus, every command of the build file which is
one of our programs accepts its arguments as soon as the files the command reads are there. -/
theorem C127_build (g : GenWorld) (hg : TidyNames g) (hne : g.corpora ≠ []) (w : ArgWorld) (hu : PlainNum w.uni) :
    ∀ b ∈ genBuild g, ∀ c, b.command settings rules = some c → (∀ t ∈ reads c, Ready w t) → ∀ st ∈ stages c, Accepted w st := by
  have ho := other_ok
  rw [List.all_append, List.all_append, List.all_append, Bool.and_eq_true, Bool.and_eq_true, Bool.and_eq_true] at ho
  obtain ⟨⟨⟨h1, h2⟩, h3⟩, h4⟩ := ho
  have closed : ∀ (bs bs' : List Build), bs.map (fun b => b.command settings rules) = bs'.map (fun b => b.command settings rules) →
      (bs'.all fun b => lineOk (b.command settings rules)) = true → ∀ b ∈ bs, LineFine w (b.command settings rules) := by
    intro bs bs' he h b hb
    have hm := List.mem_map_of_mem (f := fun b : Build => b.command settings rules) hb
    rw [he] at hm
    obtain ⟨b', hb', e⟩ := List.mem_map.1 hm
    rw [← show _ = b.command settings rules from e]
    exact lineOk_spec hu (List.all_eq_true.1 h b' hb')
  refine genBuild_cases (P := fun b => LineFine w (b.command settings rules)) ?_ ?_ ?_ ?_ ?_ ?_ ?_
  · exact closed _ _ rfl h1
  · exact fun f hf => winkbd_fine (hg.1 f hf)
  · exact closed (driverBuilds g) (driverBuilds emptyGen) rfl h2
  · exact fun l hl => layout_fine hu hg hl
  · exact closed [xmodmapBuild "ar-lulua"] _ rfl h3 _ (List.mem_singleton.2 rfl)
  · exact fun c hc => meta_fine (hg.2.1 c hc)
  · intro b hb
    have h0 : ∀ b ∈ (lastBuilds g).take 2, LineFine w (b.command settings rules) := closed _ ((lastBuilds emptyGen).take 2) rfl h4
    rw [show lastBuilds g = (lastBuilds g).take 2 ++ [(lastBuilds g)[2]'(by simp [lastBuilds])] from rfl, List.mem_append] at hb
    rcases hb with hb | hb
    · exact h0 b hb
    · rw [List.mem_singleton.1 hb]
      exact report_fine hg.2.1 hne

/-- What is shipped, and one file of a corpus. -/
def someGen : GenWorld :=
  { winkbd := shippedWinkbd, corpora := shippedCorpora, bbcarabic := [["corpus", "bbcarabic", "raw", "a.tar.br"]], aljazeera := [], un := [],
    opensubtitles := [], hindawi := [] }

example : TidyNames someGen ∧ someGen.corpora ≠ [] := by
  refine ⟨?_, by decide⟩
  unfold TidyNames
  decide +kernel

end Lulua.Props
