import Verif.Props.Xmodmap
import Verif.Props.Export
import Verif.Proofs.Output

/-!
# C129 and C130: The files `lulua-render` writes
-/

namespace Lulua.Props
open Lulua Spec

/-! ### xmodmap -/

theorem oneWord_of {t : Text} (h : (decide (t ≠ []) && t.all fun c => !blankChar c && decide (c ≠ '\n')) = true) : OneWord t := by
  simp only [Bool.and_eq_true, decide_eq_true_eq, List.all_eq_true, Bool.not_eq_true'] at h
  exact h

theorem modifierSymbols_word : ∀ p ∈ modifierSymbols, ∀ s ∈ p.2, OneWord s := by
  have h : ∀ p ∈ modifierSymbols, ∀ s ∈ p.2, (decide (s ≠ []) && s.all fun c => !blankChar c && decide (c ≠ '\n')) = true := by decide +kernel
  exact fun p hp s hs => oneWord_of (h p hp s hs)

theorem symbolAt_word {layers : List Layer} {b : Button} {k : Nat} {s : Text} (h : SymbolAt layers b k s) : OneWord s := by
  rcases h with ⟨c, _, h⟩ | ⟨_, rfl⟩
  · rcases h with ⟨_, rfl⟩ | ⟨_, rfl⟩ | ⟨_, rfl⟩ | ⟨_, rfl⟩ | ⟨_, _, _, _, t, rfl, h⟩
    · exact oneWord_of (by decide +kernel)
    · exact oneWord_of (by decide +kernel)
    · exact oneWord_of (by decide +kernel)
    · exact oneWord_of (by decide +kernel)
    · have hd : ∀ c ∈ hexDigits, blankChar c = false ∧ c ≠ '\n' := by decide +kernel
      refine ⟨by simp, fun c hc => ?_⟩
      rcases List.mem_cons.1 hc with rfl | hc
      · decide
      · exact hd c (h.digits c hc)
  · exact oneWord_of (by decide +kernel)

theorem symbols_word {truthy : Nat → Bool} {t : InternTable} {name : String} {layers : List Layer} {kb : PhysicalKeyboard}
    (hnd : (kb.keys.map Btn.i).Nodup) (hlen : layers.length < 100000) {lines : List XLine}
    (hok : xmodmap truthy t (KeyboardLayout.mk' name layers kb) kb = .ok lines) : ∀ l ∈ lines, ∀ s ∈ l.symbols, OneWord s := by
  intro l hl s hs
  obtain ⟨_, _, _, _, _, h⟩ := (C64_lines truthy t name layers kb hnd hlen lines hok).2.1 l hl
  rcases h with ⟨i, _, hi⟩ | ⟨_, _, s0, s1, s2, s4, s3, s5, s6, h, h0, h1, h2, h4, h3, h5, h6⟩
  · exact modifierSymbols_word _ hi s hs
  · rw [h] at hs
    simp only [List.mem_cons, List.not_mem_nil, or_false] at hs
    rcases hs with rfl | rfl | rfl | rfl | rfl | rfl | rfl | rfl
    · exact symbolAt_word h0
    · exact symbolAt_word h1
    · exact symbolAt_word h2
    · exact symbolAt_word h4
    · exact symbolAt_word h3
    · exact oneWord_of (by decide +kernel)
    · exact symbolAt_word h5
    · exact symbolAt_word h6

/-- What is written if nothing fails. -/
theorem xmodmapFile_ok {ct : ScVal → Text} {now : Text} {truthy : Nat → Bool} {t : InternTable} {L : KeyboardLayout} {kb : PhysicalKeyboard}
    {lines : List XLine} (h : xmodmap truthy t L kb = .ok lines) : xmodmapFile ct now truthy t L kb =
      ⟨some (linesText (xmodmapTop L.name.toList now ++ lines.flatMap (xmodmapPair ct) ++ xmodmapBottom)), .ok ()⟩ := by
  rw [xmodmap_eq] at h
  cases hd : xmodmapCodes truthy L kb with
  | error e => rw [hd] at h; cases h
  | ok d =>
    rw [hd] at h
    have h1 : d.mapM (xmodmapLine t) = .ok lines := h
    have h2 : d.mapM (fun p => (xmodmapLine t p).map (xmodmapText ct)) = .ok (lines.map (xmodmapText ct)) := by
      rw [mapM_ok_iff] at h1 ⊢
      rw [List.forall₂_map_right_iff]
      refine h1.imp fun p x hx => ?_
      rw [hx]
      rfl
    unfold xmodmapFile
    rw [hd]
    simp only
    rw [map_ok_of_mapM h2, writePieces_ok (ts := lines.map (xmodmapText ct) ++ [xmodmapFooter]) (by simp), linesText_append, linesText_append,
      linesText_flatMap, ← xmodmapHeader_lines, ← xmodmapFooter_lines]
    rw [show xmodmapText ct = fun x => linesText (xmodmapPair ct x) from funext (xmodmapText_lines ct)]
    simp

/-- What is left if something fails: the first lines. -/
theorem xmodmapFile_error {ct : ScVal → Text} {now : Text} {truthy : Nat → Bool} {t : InternTable} {L : KeyboardLayout} {kb : PhysicalKeyboard}
    {e : PyErr} (h : xmodmap truthy t L kb = .error e) : ∃ lines : List XLine,
      xmodmapFile ct now truthy t L kb = ⟨some (linesText (xmodmapTop L.name.toList now ++ lines.flatMap (xmodmapPair ct))), .error e⟩ ∧
      ((xmodmapCodes truthy L kb = .error e ∧ lines = []) ∨
        ∃ (m : KeycodeMap) (n : Nat), xmodmapCodes truthy L kb = .ok m ∧ (m.take n).mapM (xmodmapLine t) = .ok lines) := by
  rw [xmodmap_eq] at h
  cases hd : xmodmapCodes truthy L kb with
  | error e' =>
    rw [hd] at h
    cases h
    refine ⟨[], ?_, .inl ⟨rfl, rfl⟩⟩
    unfold xmodmapFile
    rw [hd]
    simp only
    rw [writePieces, xmodmapHeader_lines]
    simp
  | ok d =>
    rw [hd] at h
    have h1 : d.mapM (xmodmapLine t) = .error e := h
    have key : ∀ d : KeycodeMap, d.mapM (xmodmapLine t) = .error e → ∃ (n : Nat) (lines : List XLine), (d.take n).mapM (xmodmapLine t) = .ok lines ∧
        ∃ r, d.map (fun p => (xmodmapLine t p).map (xmodmapText ct)) = (lines.map (xmodmapText ct)).map .ok ++ .error e :: r := by
      intro d
      induction d with
      | nil => intro h; cases h
      | cons p d ih =>
        intro h
        rw [List.mapM_cons] at h
        cases hp : xmodmapLine t p with
        | error e' =>
          rw [hp] at h
          cases h
          exact ⟨0, [], rfl, _, by rw [List.map_cons, hp]; rfl⟩
        | ok x =>
          rw [hp] at h
          cases hr : d.mapM (xmodmapLine t) with
          | ok xs => simp [hr, bind, Except.bind, pure, Except.pure] at h
          | error e' =>
            simp only [hr, bind, Except.bind] at h
            cases h
            obtain ⟨n, lines, h2, r, h3⟩ := ih hr
            refine ⟨n + 1, x :: lines, ?_, r, ?_⟩
            · rw [List.take_succ_cons, List.mapM_cons, hp, h2]
              rfl
            · rw [List.map_cons, h3, hp]
              rfl
    obtain ⟨n, lines, h2, r, h3⟩ := key d h1
    refine ⟨lines, ?_, .inr ⟨d, n, rfl, h2⟩⟩
    unfold xmodmapFile
    rw [hd]
    simp only
    rw [h3, writePieces_error (ts := lines.map (xmodmapText ct)) (e := e) (r := r ++ [.ok xmodmapFooter]) (by simp), linesText_append,
      linesText_flatMap, ← xmodmapHeader_lines]
    rw [show xmodmapText ct = fun x => linesText (xmodmapPair ct x) from funext (xmodmapText_lines ct)]

/-- Reading lines without newlines in them. -/
theorem commands_lines {ls : List Text} (h : ∀ l ∈ ls, '\n' ∉ l) :
    xmodmapCommands (linesText ls) = (ls.filter fun l => lineWords l ≠ [] ∧ l.head? ≠ some '!').map lineWords := by
  unfold xmodmapCommands
  rw [linesText_split h, List.filter_append]
  simp [lineWords, wordsFrom]

theorem top_commands (name now : Text) : ((xmodmapTop name now).filter fun l => lineWords l ≠ [] ∧ l.head? ≠ some '!').map lineWords = clears := by
  unfold xmodmapTop
  rw [List.filter_cons_of_neg (by decide +kernel), List.filter_cons_of_neg (by simp), List.filter_cons_of_neg (by simp)]
  decide +kernel

theorem pair_commands (ct : ScVal → Text) {x : XLine} (hc : OneWord (ct x.keycode)) (hs : ∀ s ∈ x.symbols, OneWord s) :
    ((xmodmapPair ct x).filter fun l => lineWords l ≠ [] ∧ l.head? ≠ some '!').map lineWords =
      ["keycode".toList :: ct x.keycode :: "=".toList :: x.symbols] := by
  have hw : lineWords ("keycode ".toList ++ ct x.keycode ++ " = ".toList ++ joinTexts '\t' x.symbols) =
      "keycode".toList :: ct x.keycode :: "=".toList :: x.symbols := by
    have h1 : "keycode ".toList ++ ct x.keycode ++ " = ".toList ++ joinTexts '\t' x.symbols =
        "keycode".toList ++ ' ' :: (ct x.keycode ++ ' ' :: ("=".toList ++ ' ' :: joinTexts '\t' x.symbols)) := by
      have : ∀ a b : Text, "keycode ".toList ++ a ++ " = ".toList ++ b = "keycode".toList ++ ' ' :: (a ++ ' ' :: ("=".toList ++ ' ' :: b)) := by
        intro a b
        rw [show "keycode ".toList = "keycode".toList ++ [' '] by decide, show " = ".toList = ' ' :: "=".toList ++ [' '] by decide]
        simp only [List.append_assoc, List.cons_append, List.nil_append]
      exact this _ _
    rw [h1, lineWords_cons (oneWord_of (by decide +kernel)) rfl, lineWords_cons hc rfl, lineWords_cons (oneWord_of (by decide +kernel)) rfl,
      lineWords_join rfl hs]
  have hh : ∀ a b : Text, a.head? = some 'k' → (a ++ b).head? ≠ some '!' := by
    intro a b h
    cases a with
    | nil => cases h
    | cons c a =>
      simp only [List.head?_cons, Option.some.injEq] at h
      subst h
      simp
  unfold xmodmapPair
  rw [List.filter_cons_of_neg, List.filter_cons_of_pos, List.filter_nil, List.map_singleton, hw]
  · rw [decide_eq_true_eq, hw]
    refine ⟨by simp, ?_⟩
    rw [List.append_assoc, List.append_assoc]
    exact hh _ _ (by decide)
  · simp

/-- **C129**: what `xmodmap` reads from the file: the fixed commands, and for every line (see C64) its keycode and symbols; provided that
no name contains the end of a line. -/
theorem C129_xmodmap_partial (ct : ScVal → Text) (now : Text) (truthy : Nat → Bool) (t : InternTable) (name : String) (layers : List Layer)
    (kb : PhysicalKeyboard) (hnd : (kb.keys.map Btn.i).Nodup) (hlen : layers.length < 100000) (lines : List XLine)
    (hok : xmodmap truthy t (KeyboardLayout.mk' name layers kb) kb = .ok lines) (hname : '\n' ∉ name.toList) (hnow : '\n' ∉ now)
    (hnames : ∀ x ∈ lines, '\n' ∉ x.name.toList ∧ OneWord (ct x.keycode)) :
    ∃ text, xmodmapFile ct now truthy t (KeyboardLayout.mk' name layers kb) kb = ⟨some text, .ok ()⟩ ∧
      xmodmapCommands text = clears ++ lines.map (fun x => "keycode".toList :: ct x.keycode :: "=".toList :: x.symbols) ++
        [["add".toList, "Mod3".toList, "=".toList, "ISO_First_Group".toList], ["add".toList, "Mod5".toList, "=".toList, "ISO_Level3_Shift".toList]] := by
  have hs := symbols_word hnd hlen hok
  refine ⟨_, xmodmapFile_ok hok, ?_⟩
  have happ : ∀ (a b : Text), '\n' ∉ a → '\n' ∉ b → '\n' ∉ a ++ b := fun a b h1 h2 h => (List.mem_append.1 h).elim h1 h2
  rw [commands_lines]
  · rw [List.filter_append, List.filter_append, List.map_append, List.map_append]
    have h2 : ((lines.flatMap (xmodmapPair ct)).filter fun l => lineWords l ≠ [] ∧ l.head? ≠ some '!').map lineWords =
        lines.map fun x => "keycode".toList :: ct x.keycode :: "=".toList :: x.symbols := by
      clear hok
      induction lines with
      | nil => rfl
      | cons x xs ih =>
        rw [List.flatMap_cons, List.filter_append, List.map_append, pair_commands ct (hnames x List.mem_cons_self).2 (hs x List.mem_cons_self),
          ih (fun y hy => hnames y (List.mem_cons_of_mem _ hy)) (fun y hy => hs y (List.mem_cons_of_mem _ hy))]
        rfl
    have h1 : (KeyboardLayout.mk' name layers kb).name = name := rfl
    rw [h2, top_commands]
    congr 1
  · intro l hl
    rcases List.mem_append.1 hl with hl | hl
    · rcases List.mem_append.1 hl with hl | hl
      · simp only [xmodmapTop, List.mem_cons, List.not_mem_nil, or_false] at hl
        rcases hl with rfl | rfl | rfl | rfl | rfl | rfl | rfl | rfl
        · decide
        · exact happ _ _ (by decide) hname
        · exact happ _ _ (by decide) hnow
        · simp
        · decide
        · decide
        · decide
        · decide
      · obtain ⟨x, hx, hl⟩ := List.mem_flatMap.1 hl
        simp only [xmodmapPair, List.mem_cons, List.not_mem_nil, or_false] at hl
        rcases hl with rfl | rfl
        · exact happ _ _ (by decide) (hnames x hx).1
        · refine happ _ _ (happ _ _ (happ _ _ (by decide) fun h => ((hnames x hx).2.2 _ h).2 rfl) (by decide)) ?_
          intro h
          rcases mem_joinTexts h with h | ⟨s, h, h'⟩
          · cases h
          · exact ((hs x hx s h).2 _ h').2 rfl
    · simp only [xmodmapBottom, List.mem_cons, List.not_mem_nil, or_false] at hl
      rcases hl with rfl | rfl <;> decide

/-! ### Keyman -/

/-- The lines before the rules. -/
def keymanTop (name now : Text) : List Text :=
  ["c Auto-generated file for Keyman 11.0".toList, "c layout: ".toList ++ name, "c generated: ".toList ++ now, [],
    "store(&version) \"9.0\"".toList, "store(&name)    \"".toList ++ name ++ ['"'], "store(&mnemoniclayout) \"0\"".toList,
    "store(&targets) \"any\"".toList, [], "begin Unicode > use(main)".toList, "group(main) using keys".toList]

/-- The line of a rule. -/
def keymanLine (r : KeymanRule) : Text :=
  "+ [".toList ++ joinTexts ' ' (r.codes.map String.toList) ++ "] > ".toList ++ joinTexts ' ' r.text

theorem keymanHeader_lines (name now : Text) : keymanHeader name now = linesText (keymanTop name now) := by
  rw [linesText_join]
  rfl

theorem keymanRuleText_lines (r : KeymanRule) : keymanRuleText r = linesText [keymanLine r] := by
  unfold keymanRuleText keymanLine linesText
  rw [List.map_singleton, List.flatten_singleton]

theorem flatMap_pieces {α β : Type} {R : α → β → Prop} {f : α → List (Py Text)} {g : β → List Text}
    (h : ∀ a b, R a b → f a = (g b).map .ok) {as : List α} {bs : List β} (h2 : List.Forall₂ R as bs) :
    as.flatMap f = (bs.flatMap g).map .ok := by
  induction h2 with
  | nil => rfl
  | cons h1 _ ih => rw [List.flatMap_cons, List.flatMap_cons, List.map_append, h _ _ h1, ih]

theorem keymanPieces_ok {order : FSet → List Button} {kb : PhysicalKeyboard} {l : Layer} {m : FSet} {r : Bool × List KeymanRule}
    (h : keymanModifier order kb l m = .ok r) : keymanPieces order kb l m = ([] :: r.2.map keymanRuleText).map .ok := by
  simp only [keymanModifier, bind_ok_iff, Except.ok.injEq] at h
  obtain ⟨bs, h1, w, h2, rules, h3, rfl⟩ := h
  have h4 : l.layout.mapM (fun e => (keymanRule kb bs e).map keymanRuleText) = .ok (rules.map keymanRuleText) := by
    rw [mapM_ok_iff] at h3 ⊢
    rw [List.forall₂_map_right_iff]
    refine h3.imp fun p x hx => ?_
    rw [hx]
    rfl
  unfold keymanPieces
  rw [h1]
  simp only
  rw [map_ok_of_mapM h4, h2]
  rfl

/-- The rules in the order of the file. -/
def keymanAll (out : List (List (Bool × List KeymanRule))) : List KeymanRule := out.flatMap (·.flatMap (·.2))

theorem keymanFile_ok {now : Text} {order : FSet → List Button} {L : KeyboardLayout} {kb : PhysicalKeyboard}
    {out : List (List (Bool × List KeymanRule))} (h : keyman order L kb = .ok out) :
    keymanFile now order L kb = ⟨some (linesText (keymanTop L.name.toList now ++ (keymanAll out).map keymanLine)), .ok ()⟩ := by
  have h1 : (L.layers.flatMap fun l => l.modifier.flatMap (keymanPieces order kb l)) =
      (out.flatMap (·.flatMap fun r => [] :: r.2.map keymanRuleText)).map .ok := by
    refine flatMap_pieces (fun l rs hl => ?_) ((mapM_ok_iff _ _ _).1 h)
    exact flatMap_pieces (fun m r hr => keymanPieces_ok hr) ((mapM_ok_iff _ _ _).1 hl)
  unfold keymanFile
  rw [h1, writePieces_ok rfl, linesText_append, ← keymanHeader_lines]
  congr 3
  unfold keymanAll
  clear h h1
  have h2 : ∀ rs : List KeymanRule, (rs.map keymanRuleText).flatten = linesText (rs.map keymanLine) := by
    intro rs
    induction rs with
    | nil => rfl
    | cons r rs ih => rw [List.map_cons, List.flatten_cons, ih, keymanRuleText_lines, ← linesText_append]; rfl
  have h3 : ∀ ps : List (Bool × List KeymanRule), (ps.flatMap fun r => [] :: r.2.map keymanRuleText).flatten =
      linesText ((ps.flatMap (·.2)).map keymanLine) := by
    intro ps
    induction ps with
    | nil => rfl
    | cons p ps ih => rw [List.flatMap_cons, List.flatten_append, ih, List.flatten_cons, List.nil_append, h2, List.flatMap_cons,
        List.map_append, linesText_append]
  induction out with
  | nil => rfl
  | cons ps out ih => rw [List.flatMap_cons, List.flatten_append, ih, h3, List.flatMap_cons, List.map_append, linesText_append]

theorem readRule_line {r : KeymanRule} (hc : ∀ c ∈ r.codes, OneWord c.toList ∧ ']' ∉ c.toList) (ht : ∀ t ∈ r.text, OneWord t) :
    keymanReadRule (keymanLine r) = some (r.codes.map String.toList, r.text) := by
  have hj : ∀ c ∈ joinTexts ' ' (r.codes.map String.toList), (decide (c ≠ ']')) = true := by
    intro c hc'
    rcases mem_joinTexts hc' with rfl | ⟨t, h1, h2⟩
    · decide
    · obtain ⟨s, hs, rfl⟩ := List.mem_map.1 h1
      rw [decide_eq_true_eq]
      rintro rfl
      exact (hc s hs).2 h2
  have key : ∀ a b : Text, (∀ c ∈ a, (decide (c ≠ ']')) = true) →
      keymanReadRule ("+ [".toList ++ a ++ "] > ".toList ++ b) = some (lineWords a, lineWords (' ' :: b)) := by
    intro a b h
    have h1 : "+ [".toList ++ a ++ "] > ".toList ++ b = '+' :: ' ' :: '[' :: (a ++ ']' :: ' ' :: '>' :: ' ' :: b) := by
      rw [show "+ [".toList = ['+', ' ', '['] by decide, show "] > ".toList = [']', ' ', '>', ' '] by decide]
      simp
    rw [h1, keymanReadRule, List.dropWhile_append_of_pos h, List.takeWhile_append_of_pos h]
    simp
  unfold keymanLine
  rw [key _ _ hj, lineWords_blank rfl, lineWords_join rfl, lineWords_join rfl ht]
  intro w hw
  obtain ⟨s, hs, rfl⟩ := List.mem_map.1 hw
  exact (hc s hs).1

/-- **C129**: the rules read from the file for Keyman are those of the layout (see C83), provided that codes are words and no name contains
the end of a line. -/
theorem C129_keyman_partial (now : Text) (order : FSet → List Button) (L : KeyboardLayout) (kb : PhysicalKeyboard)
    (out : List (List (Bool × List KeymanRule))) (h : keyman order L kb = .ok out) (hname : '\n' ∉ L.name.toList) (hnow : '\n' ∉ now)
    (hcode : ∀ b ∈ kb.keys, ∀ c, codeOf "keyman" b = some (.str c) → OneWord c.toList ∧ ']' ∉ c.toList) :
    ∃ text, keymanFile now order L kb = ⟨some text, .ok ()⟩ ∧
      keymanReadRules text = (keymanAll out).map fun r => (r.codes.map String.toList, r.text) := by
  refine ⟨_, keymanFile_ok h, ?_⟩
  have hr : ∀ r ∈ keymanAll out, (∀ c ∈ r.codes, OneWord c.toList ∧ ']' ∉ c.toList) ∧ ∀ t ∈ r.text, OneWord t := by
    intro r hr
    obtain ⟨rs, hrs, hr⟩ := List.mem_flatMap.1 hr
    obtain ⟨p, hp, hr⟩ := List.mem_flatMap.1 hr
    obtain ⟨l, _, h1⟩ := forall₂_right_mem ((mapM_ok_iff _ _ _).1 h) hrs
    obtain ⟨m, _, h2⟩ := forall₂_right_mem ((mapM_ok_iff _ _ _).1 h1) hp
    simp only [keymanModifier, bind_ok_iff, Except.ok.injEq] at h2
    obtain ⟨bs, h3, w, _, rules, h4, rfl⟩ := h2
    obtain ⟨e, _, h5⟩ := forall₂_right_mem ((mapM_ok_iff _ _ _).1 h4) hr
    simp only [keymanRule, bind_ok_iff, Except.ok.injEq] at h5
    obtain ⟨b, h6, codes, h7, comb, h8, text, h9, rfl⟩ := h5
    have hobj : ∀ {i : Button} {o : Btn}, kb.object i = .ok o → o ∈ kb.keys := by
      intro i o ho
      unfold PhysicalKeyboard.object at ho
      split at ho
      · rename_i k hk
        cases ho
        exact List.mem_of_find?_eq_some hk
      · cases ho
    constructor
    · intro c hc
      obtain ⟨v, hv, h10⟩ := forall₂_right_mem ((mapM_ok_iff _ _ _).1 h8) hc
      obtain ⟨x, hx, h11⟩ := forall₂_right_mem ((mapM_ok_iff _ _ _).1 h7) hv
      have hxk : x ∈ kb.keys := by
        rcases List.mem_append.1 hx with hx | hx
        · obtain ⟨i, _, h12⟩ := forall₂_right_mem ((mapM_ok_iff _ _ _).1 h3) hx
          exact hobj h12
        · rw [List.mem_singleton.1 hx]
          exact hobj h6
      cases v with
      | str s =>
        cases h10
        refine hcode x hxk c ?_
        unfold Btn.scancodeAt at h11
        unfold codeOf
        split at h11
        · cases h11
        · rename_i d hd
          rw [hd]
          unfold Dict.getItem at h11
          split at h11
          · rename_i v hv'
            cases h11
            exact hv'
          · cases h11
      | num n => cases h10
      | list l => cases h10
      | tuple l => cases h10
    · intro t ht
      cases hv : e.2 with
      | other n => rw [hv] at h9; cases h9
      | str s =>
        rw [hv] at h9
        cases h9
        obtain ⟨c, _, rfl⟩ := List.mem_map.1 ht
        have hd : ∀ c ∈ hexDigits, blankChar c = false ∧ c ≠ '\n' := by decide +kernel
        refine ⟨by simp, fun x hx => ?_⟩
        rcases List.mem_cons.1 hx with rfl | hx
        · decide
        · rcases List.mem_cons.1 hx with rfl | hx
          · decide
          · exact hd x ((hex4_spec c.toNat).digits x hx)
  have happ : ∀ (a b : Text), '\n' ∉ a → '\n' ∉ b → '\n' ∉ a ++ b := fun a b h1 h2 h => (List.mem_append.1 h).elim h1 h2
  have hwords : ∀ ws : List Text, (∀ w ∈ ws, OneWord w) → '\n' ∉ joinTexts ' ' ws := by
    intro ws hws h
    rcases mem_joinTexts h with h | ⟨w, hw, h⟩
    · cases h
    · exact ((hws w hw).2 _ h).2 rfl
  unfold keymanReadRules
  rw [linesText_split]
  · rw [List.filterMap_append, List.filterMap_append]
    have h1 : (keymanTop L.name.toList now).filterMap keymanReadRule = [] := rfl
    have h2 : ∀ rs : List KeymanRule, (∀ r ∈ rs, (∀ c ∈ r.codes, OneWord c.toList ∧ ']' ∉ c.toList) ∧ ∀ t ∈ r.text, OneWord t) →
        (rs.map keymanLine).filterMap keymanReadRule = rs.map fun r => (r.codes.map String.toList, r.text) := by
      intro rs hrs
      induction rs with
      | nil => rfl
      | cons r rs ih =>
        obtain ⟨h3, h4⟩ := hrs r List.mem_cons_self
        rw [List.map_cons, List.filterMap_cons, readRule_line h3 h4, List.map_cons, ih fun x hx => hrs x (List.mem_cons_of_mem _ hx)]
    rw [h1, h2 _ hr, List.nil_append]
    exact List.append_nil _
  · intro l hl
    rcases List.mem_append.1 hl with hl | hl
    · simp only [keymanTop, List.mem_cons, List.not_mem_nil, or_false] at hl
      rcases hl with rfl | rfl | rfl | rfl | rfl | rfl | rfl | rfl | rfl | rfl | rfl
      · decide
      · exact happ _ _ (by decide) hname
      · exact happ _ _ (by decide) hnow
      · simp
      · decide
      · exact happ _ _ (happ _ _ (by decide) hname) (by decide)
      · decide
      · decide
      · simp
      · decide
      · decide
    · obtain ⟨r, hr', rfl⟩ := List.mem_map.1 hl
      obtain ⟨h3, h4⟩ := hr r hr'
      refine happ _ _ (happ _ _ (happ _ _ (by decide) (hwords _ ?_)) (by decide)) (hwords _ h4)
      intro w hw
      obtain ⟨s, hs, rfl⟩ := List.mem_map.1 hw
      exact (h3 s hs).1

/-- Both files of small layouts. -/
example : ∃ text, xmodmapFile (fun | .str s => s.toList | _ => []) "2026".toList (fun _ => true) codeNames
      (KeyboardLayout.mk' "name" codeLayers codeKb) codeKb = ⟨some text, .ok ()⟩ ∧
    ["keycode".toList, "50".toList, "=".toList, "Shift_L".toList, "Shift_Lock".toList] ∈ xmodmapCommands text := by
  refine ⟨_, rfl, ?_⟩
  decide +kernel

example : ∃ text, keymanFile "2026".toList id (KeyboardLayout.mk' "name" keymanLayers keymanKb) keymanKb = ⟨some text, .ok ()⟩ ∧
    keymanReadRules text = [(["K_A".toList], ["U+0061".toList]), (["K_B".toList], ["U+0078".toList, "U+1D11E".toList]),
      (["SHIFT".toList, "K_A".toList], ["U+0041".toList]), (["SHIFT".toList, "K_A".toList], ["U+0041".toList]),
      (["SHIFT".toList, "RALT".toList, "K_B".toList], ["U+0634".toList]), (["CAPS".toList, "K_B".toList], ["U+0634".toList])] := by
  refine ⟨_, rfl, ?_⟩
  decide +kernel

/-- **C129** is false for every name: the rest of the name of a layout, behind the end of a line, is a command to `xmodmap`. -/
theorem C129_false : ∃ (name : String) (text : Text),
    xmodmapFile (fun | .str s => s.toList | _ => []) "2026".toList (fun _ => true) codeNames
      (KeyboardLayout.mk' name codeLayers codeKb) codeKb = ⟨some text, .ok ()⟩ ∧
    ["clear".toList, "Control".toList] ∈ xmodmapCommands text := by
  refine ⟨"x\nclear Control", _, rfl, ?_⟩
  decide +kernel

/-- A word, as a computation. -/
def wordCheck (t : Text) : Bool := decide (t ≠ []) && t.all fun c => !blankChar c && decide (c ≠ '\n')

/-- What the shipped layouts need, as a computation. -/
def outputFine (d : LayoutData) : Bool :=
  match loadFirst d with
  | .ok x => decide ('\n' ∉ d.name.toList) && decide (x.2.2.layers.length < 100000) && decide (x.2.1.keys.map Btn.i).Nodup &&
      x.2.1.keys.all fun b => (match codeOf "keyman" b with | some (.str c) => wordCheck c.toList && decide (']' ∉ c.toList) | _ => true) &&
        (match codeOf "xorg" b with | some (.num _) => true | _ => false) &&
        (match x.1.nameOf b.i with | .ok n => decide ('\n' ∉ n.toList) | .error _ => true)
  | .error _ => false

theorem outputFine_all : ∀ d ∈ Data.layouts, outputFine d = true := by decide +kernel

theorem natText_word (n : Nat) : OneWord (natText n) := by
  refine ⟨Nat.toDigits_ne_nil, fun c hc => ?_⟩
  have h := Nat.isDigit_of_mem_toDigits (by omega) (by omega) hc
  constructor
  · unfold blankChar
    simp only [Bool.or_eq_false_iff, decide_eq_false_iff_not]
    constructor <;> rintro rfl <;> exact absurd h (by decide)
  · rintro rfl
    exact absurd h (by decide)

/-- **C129**: the files of the shipped layouts are read as meant, as far as they can be written. -/
theorem C129_shipped_partial (ct : ScVal → Text) (hct : ∀ n, ct (.num n) = natText n) (now : Text) (hnow : '\n' ∉ now)
    (order : FSet → List Button) (ho : ∀ m, (order m).Perm m) : ∀ d ∈ Data.layouts, ∃ t kb L, loadFirst d = .ok (t, kb, L) ∧
      (∃ out text, keyman order L kb = .ok out ∧ keymanFile now order L kb = ⟨some text, .ok ()⟩ ∧
        keymanReadRules text = (keymanAll out).map fun r => (r.codes.map String.toList, r.text)) ∧
      (d.name = "ar-lulua" ∨ d.name = "None" → ∃ lines text, xmodmap (fun _ => true) t L kb = .ok lines ∧
        xmodmapFile ct now (fun _ => true) t L kb = ⟨some text, .ok ()⟩ ∧
        xmodmapCommands text = clears ++ lines.map (fun x => "keycode".toList :: ct x.keycode :: "=".toList :: x.symbols) ++
          [["add".toList, "Mod3".toList, "=".toList, "ISO_First_Group".toList],
            ["add".toList, "Mod5".toList, "=".toList, "ISO_Level3_Shift".toList]]) := by
  intro d hd
  obtain ⟨t, kb, L, out, hx, hout, _⟩ := C83_shipped order ho d hd
  have h := outputFine_all d hd
  unfold outputFine at h
  rw [hx] at h
  simp only [Bool.and_eq_true, decide_eq_true_eq, List.all_eq_true] at h
  obtain ⟨⟨⟨hname, hlen⟩, hnd⟩, hkeys⟩ := h
  obtain ⟨ls, rfl⟩ : ∃ ls, L = KeyboardLayout.mk' d.name ls kb := by
    have h1 := hx
    simp only [loadFirst, GenericLayout.specialize, bind_ok_iff, Except.ok.injEq] at h1
    obtain ⟨⟨t', kb', _⟩, _, h3⟩ := h1
    obtain ⟨L', ⟨ls, _, rfl⟩, h4⟩ := h3
    simp only [Prod.mk.injEq] at h4
    obtain ⟨rfl, rfl, rfl⟩ := h4
    exact ⟨ls, rfl⟩
  refine ⟨t, kb, _, hx, ?_, ?_⟩
  · obtain ⟨text, h1, h2⟩ := C129_keyman_partial now order _ kb out hout hname hnow (by
      intro b hb c hc
      have h1 := (hkeys b hb).1.1
      rw [hc] at h1
      simp only [Bool.and_eq_true, decide_eq_true_eq] at h1
      exact ⟨oneWord_of h1.1, h1.2⟩)
    exact ⟨out, text, hout, h1, h2⟩
  · intro hn
    obtain ⟨lines, hl⟩ := (C64_shipped d hd).2 hn
    have hl' : xmodmap (fun _ => true) t (KeyboardLayout.mk' d.name ls kb) kb = .ok lines := by
      unfold xmodmapShipped at hl
      rw [hx] at hl
      exact hl
    obtain ⟨text, h1, h2⟩ := C129_xmodmap_partial ct now _ t d.name ls kb hnd hlen lines hl' hname hnow (by
      intro x hxl
      obtain ⟨b, hb, h3, h4, h5, _⟩ := (C64_lines _ t d.name ls kb hnd hlen lines hl').2.1 x hxl
      have h6 := hkeys b hb
      rw [h4, h5] at h6
      simp only [decide_eq_true_eq] at h6
      refine ⟨h6.2, ?_⟩
      cases hk : x.keycode with
      | num n => rw [hct]; exact natText_word n
      | str s => rw [hk] at h6; exact absurd h6.1.2 (by simp)
      | list l => rw [hk] at h6; exact absurd h6.1.2 (by simp)
      | tuple l => rw [hk] at h6; exact absurd h6.1.2 (by simp))
    exact ⟨lines, text, hl', h1, h2⟩

/-! ### Failing -/

/-- **C130**, the commands that leave the file as it was: loading comes first; AnySoftKeyboard and Klavaro files are opened when nothing can
fail any more. For macOS this holds if a code is missing. -/
theorem C130_partial (path : Text) (d : Disk) (e : PyErr) :
    (∀ {α : Type} (load : Py α) (f : α → FileResult), load = .error e → (afterLoading load f).result = .error e ∧
      (afterLoading load f).after path d = d) ∧
    (∀ nfc fmt L kb, (askFile nfc fmt L kb).result = .error e → (askFile nfc fmt L kb).after path d = d) ∧
    (∀ nfc L kb, (klavaroFile nfc L kb).result = .error e → (klavaroFile nfc L kb).after path d = d) ∧
    (∀ ct name L kb, (keylayoutFile ct name L kb).result = .error e → (∃ l ∈ L.layers, ∃ x ∈ l.layout, ∃ e, macKey kb x = .error e) →
      (keylayoutFile ct name L kb).after path d = d) := by
  refine ⟨?_, ?_, ?_, ?_⟩
  · intro α load f h
    subst h
    exact ⟨rfl, rfl⟩
  · intro nfc fmt L kb h
    unfold askFile at h ⊢
    split at h
    · rfl
    · cases h
  · intro nfc L kb h
    unfold klavaroFile at h ⊢
    split at h
    · rfl
    · cases h
  · rintro ct name L kb h ⟨l, hl, x, hx, e', he⟩
    unfold keylayoutFile at h ⊢
    split at h
    · rfl
    · rename_i maps h1
      obtain ⟨ks, _, h2⟩ := forall₂_left_mem ((mapM_ok_iff _ _ _).1 h1) hl
      obtain ⟨k, _, h3⟩ := forall₂_left_mem ((mapM_ok_iff _ _ _).1 h2) hx
      rw [he] at h3
      cases h3

/-- For instance a layout with a single layer. -/
example (d : Disk) : (klavaroFile id (KeyboardLayout.mk' "" [⟨[[]], [(0, .str ['a'])]⟩] codeKb) codeKb).result = .error .indexError ∧
    (klavaroFile id (KeyboardLayout.mk' "" [⟨[[]], [(0, .str ['a'])]⟩] codeKb) codeKb).after "a".toList d = d :=
  ⟨by rfl, (C130_partial _ d .indexError).2.2.1 _ _ _ (by rfl)⟩

/-- **C130** is false for the others, whatever was in the file: of an xmodmap file the first lines are left, of a Keyman file the first
lines, of a macOS file the declaration if no code is missing, of a C file a comment. -/
theorem C130_left (path : Text) (d : Disk) (e : PyErr) :
    (∀ ct now truthy t L kb, (xmodmapFile ct now truthy t L kb).result = .error e → ∃ lines : List XLine,
      (xmodmapFile ct now truthy t L kb).after path d path =
        some (linesText (xmodmapTop L.name.toList now ++ lines.flatMap (xmodmapPair ct)))) ∧
    (∀ now order L kb, (keymanFile now order L kb).result = .error e →
      ∃ rest, (keymanFile now order L kb).after path d path = some (keymanHeader L.name.toList now ++ rest)) ∧
    (∀ ct name L kb, (keylayoutFile ct name L kb).result = .error e → (∀ l ∈ L.layers, ∀ x ∈ l.layout, ∃ c, macKey kb x = .ok c) →
      (keylayoutFile ct name L kb).after path d path = some keylayoutDecl) ∧
    (∀ printable order m arg L kb, (winKbdFile printable order m arg L kb).result = .error e →
      (winKbdFile printable order m arg L kb).after path d path = some winKbdComment) := by
  refine ⟨?_, ?_, ?_, ?_⟩
  · intro ct now truthy t L kb h
    cases hx : xmodmap truthy t L kb with
    | ok lines => rw [xmodmapFile_ok hx] at h; cases h
    | error e' =>
      obtain ⟨lines, h1, _⟩ := xmodmapFile_error (ct := ct) (now := now) hx
      refine ⟨lines, ?_⟩
      rw [h1]
      simp [FileResult.after]
  · intro now order L kb h
    unfold keymanFile at h ⊢
    rcases pieces_cases (L.layers.flatMap fun l => l.modifier.flatMap (keymanPieces order kb l)) with ⟨ts, h1⟩ | ⟨ts, e', r, h1⟩
    · rw [writePieces_ok h1] at h; cases h
    · refine ⟨ts.flatten, ?_⟩
      rw [writePieces_error h1]
      simp [FileResult.after]
  · intro ct name L kb h hc
    unfold keylayoutFile at h ⊢
    split at h
    · rename_i e' h1
      exfalso
      have h2 : ∃ maps, L.layers.mapM (fun l => l.layout.mapM (macKey kb)) = .ok maps := by
        rw [mapM_exists_iff]
        intro l hl
        rw [mapM_exists_iff]
        exact hc l hl
      obtain ⟨maps, h2⟩ := h2
      rw [h1] at h2
      cases h2
    · cases hk : keylayout name L kb with
      | ok out => rw [hk] at h; cases h
      | error e' => simp [Except.map, writePieces, FileResult.after]
  · intro printable order m arg L kb h
    unfold winKbdFile at h ⊢
    split at h
    · cases h
    · rename_i ha
      rw [if_neg ha]
      split at h
      · simp [FileResult.after]
      · cases h

/-- For instance a button with two characters. -/
example (d : Disk) : (xmodmapFile (fun _ => []) [] (fun _ => true) codeNames (KeyboardLayout.mk' "" [⟨[[]], [(0, .str ['a', 'b'])]⟩] codeKb)
      codeKb).result = .error .typeError ∧
    ∃ t, (xmodmapFile (fun _ => []) [] (fun _ => true) codeNames (KeyboardLayout.mk' "" [⟨[[]], [(0, .str ['a', 'b'])]⟩] codeKb)
      codeKb).after "a".toList d "a".toList = some t := by
  refine ⟨by rfl, ?_⟩
  obtain ⟨lines, h⟩ := (C130_left "a".toList d .typeError).1 (fun _ => []) [] (fun _ => true) codeNames
    (KeyboardLayout.mk' "" [⟨[[]], [(0, .str ['a', 'b'])]⟩] codeKb) codeKb (by rfl)
  exact ⟨_, h⟩

/-- Rendering a shipped layout for `xmodmap` fails before the first button. -/
def xmodmapFails (d : LayoutData) : Bool :=
  match loadFirst d with
  | .ok x => decide ('\n' ∉ x.2.2.name.toList) && (match xmodmapCodes (fun _ => true) x.2.2 x.2.1 with | .error _ => true | .ok _ => false)
  | .error _ => false

theorem xmodmapFails_all : ∀ d ∈ Data.layouts, d.name = "ar-lulua" ∨ d.name = "None" ∨ xmodmapFails d = true := by decide +kernel

/-- **C130** is false: rendering a shipped layout other than `ar-lulua` and `null` for `xmodmap` fails, and the file left has just the
commands that clear the modifiers. -/
theorem C130_false (ct : ScVal → Text) (now path : Text) (hnow : '\n' ∉ now) (disk : Disk) : ∀ d ∈ Data.layouts, d.name ≠ "ar-lulua" →
    d.name ≠ "None" → ∃ x e text, loadFirst d = .ok x ∧
      (xmodmapFile ct now (fun _ => true) x.1 x.2.2 x.2.1).result = .error e ∧
      (xmodmapFile ct now (fun _ => true) x.1 x.2.2 x.2.1).after path disk path = some text ∧ xmodmapCommands text = clears := by
  intro d hd h1 h2
  have h := ((xmodmapFails_all d hd).resolve_left h1).resolve_left h2
  unfold xmodmapFails at h
  cases hx : loadFirst d with
  | error e => rw [hx] at h; cases h
  | ok x =>
    rw [hx] at h
    simp only [Bool.and_eq_true, decide_eq_true_eq] at h
    obtain ⟨hn, h⟩ := h
    cases hc : xmodmapCodes (fun _ => true) x.2.2 x.2.1 with
    | ok m => rw [hc] at h; cases h
    | error e =>
      have h3 : xmodmap (fun _ => true) x.1 x.2.2 x.2.1 = .error e := by
        rw [xmodmap_eq, hc]
        rfl
      obtain ⟨lines, h4, h5⟩ := xmodmapFile_error (ct := ct) (now := now) h3
      have h6 : lines = [] := by
        rcases h5 with h5 | ⟨m, n, h5, _⟩
        · exact h5.2
        · rw [hc] at h5; cases h5
      subst h6
      refine ⟨x, e, _, rfl, by rw [h4], by rw [h4]; simp only [FileResult.after, if_true]; rfl, ?_⟩
      rw [List.flatMap_nil, List.append_nil, commands_lines, top_commands]
      have happ : ∀ (a b : Text), '\n' ∉ a → '\n' ∉ b → '\n' ∉ a ++ b := fun a b h1 h2 h => (List.mem_append.1 h).elim h1 h2
      intro l hl
      simp only [xmodmapTop, List.mem_cons, List.not_mem_nil, or_false] at hl
      rcases hl with rfl | rfl | rfl | rfl | rfl | rfl | rfl | rfl
      · decide
      · exact happ _ _ (by decide) hn
      · exact happ _ _ (by decide) hnow
      · simp
      · decide
      · decide
      · decide
      · decide

/-- **C130** is false for `winkbd` in another way: for all layouts not called `ar-lulua` it succeeds, and there is no file. -/
theorem C130_winkbd_false (printable : Char → Bool) (order : List Nat → List Nat) (m : Dict (List Nat) (List VkVal)) (arg : Text)
    (h : arg ≠ "ar-lulua".toList) (L : KeyboardLayout) (kb : PhysicalKeyboard) (path : Text) (d : Disk) :
    (winKbdFile printable order m arg L kb).result = .ok () ∧ (winKbdFile printable order m arg L kb).after path d = d := by
  unfold winKbdFile
  rw [if_pos h]
  exact ⟨rfl, rfl⟩

end Lulua.Props
