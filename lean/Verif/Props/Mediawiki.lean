import Verif.Spec.Json
import Mathlib.Tactic.Ring
import Mathlib.Tactic.IntervalCases

/-!
# C100, C101: texts that go through lines
-/

namespace Lulua.Props
open Lulua Spec

/-! ### C100: JSON strings -/

theorem hexVal_of_digit {c : Char} {n : Nat} (h : JsonHex c n) : hexVal c = some n ∧ n < 16 := by
  have hn : n < 16 := by
    rcases h with h | h <;> exact (List.getElem?_eq_some_iff.1 h).1
  refine ⟨?_, hn⟩
  have key : ∀ m < 16, (∀ c, "0123456789abcdef".toList[m]? = some c → hexVal c = some m) ∧
      ∀ c, "0123456789ABCDEF".toList[m]? = some c → hexVal c = some m := by
    intro m hm
    interval_cases m <;> refine ⟨fun c h => ?_, fun c h => ?_⟩ <;> simp at h <;> subst h <;> decide
  rcases h with h | h
  · exact (key n hn).1 c h
  · exact (key n hn).2 c h

theorem fourHex_elim {ds : List Char} {n : Nat} (h : FourHex ds n) :
    ∃ a b c d, ds = [a, b, c, d] ∧ hexVal4 a b c d = some n ∧ n < 65536 := by
  obtain ⟨a', b', c', d', hf, rfl⟩ := h
  obtain ⟨a, r1, ha, hf1, rfl⟩ := List.forall₂_cons_right_iff.1 hf
  obtain ⟨b, r2, hb, hf2, rfl⟩ := List.forall₂_cons_right_iff.1 hf1
  obtain ⟨c, r3, hc, hf3, rfl⟩ := List.forall₂_cons_right_iff.1 hf2
  obtain ⟨d, r4, hd, hf4, rfl⟩ := List.forall₂_cons_right_iff.1 hf3
  cases hf4
  obtain ⟨h1, l1⟩ := hexVal_of_digit ha
  obtain ⟨h2, l2⟩ := hexVal_of_digit hb
  obtain ⟨h3, l3⟩ := hexVal_of_digit hc
  obtain ⟨h4, l4⟩ := hexVal_of_digit hd
  refine ⟨a, b, c, d, rfl, ?_, by omega⟩
  simp only [hexVal4, h1, h2, h3, h4, Option.bind_eq_bind, Option.bind_some, Option.some.injEq]
  ring

theorem char_not_surrogate (c : Char) : ¬ (0xd800 ≤ c.toNat ∧ c.toNat < 0xe000) := by
  have := c.valid
  simp only [UInt32.isValidChar, Nat.isValidChar] at this
  show ¬ (0xd800 ≤ c.val.toNat ∧ c.val.toNat < 0xe000)
  omega

theorem short_unescape {x c : Char} (h : (x, c) ∈ shortEscapes) : jsonUnescape x = some c ∧ x ≠ 'u' := by
  simp only [shortEscapes, List.mem_cons, Prod.mk.injEq, List.not_mem_nil, or_false] at h
  rcases h with ⟨rfl, rfl⟩ | ⟨rfl, rfl⟩ | ⟨rfl, rfl⟩ | ⟨rfl, rfl⟩ | ⟨rfl, rfl⟩ | ⟨rfl, rfl⟩ | ⟨rfl, rfl⟩ | ⟨rfl, rfl⟩ <;>
    decide

theorem scan_plain {c : Char} {r : Text} (h1 : 32 ≤ c.toNat) (h2 : c ≠ '"') (h3 : c ≠ '\\') :
    scanUnits (c :: r) = (do
      let (us, rest) ← scanUnits r
      .ok (.char c :: us, rest)) := by
  rw [scanUnits]
  · rw [if_neg (by rintro (h | h); omega; exact h3 h)]
  all_goals (intros; simp_all)

theorem scan_short {x c : Char} {r : Text} (h : jsonUnescape x = some c) (hu : x ≠ 'u') :
    scanUnits ('\\' :: x :: r) = (do
      let (us, rest) ← scanUnits r
      .ok (.char c :: us, rest)) := by
  rw [scanUnits]
  · rw [h]
  all_goals (intros; simp_all)

theorem scan_code {a b c d : Char} {n : Nat} {r : Text} (h : hexVal4 a b c d = some n) :
    scanUnits ('\\' :: 'u' :: a :: b :: c :: d :: r) = (do
      let (us, rest) ← scanUnits r
      .ok (.code n :: us, rest)) := by
  rw [scanUnits, h]

/-- A number that is not a high surrogate does not touch what follows. -/
theorem combine_code {n : Nat} {us : List JUnit} (h : ¬ (0xd800 ≤ n ∧ n < 0xe000)) :
    combineUnits (.code n :: us) = (do
      let t ← combineUnits us
      .ok (Char.ofNat n :: t)) := by
  cases us with
  | nil => simp only [combineUnits, if_neg h]
  | cons u us =>
    cases u with
    | char c => simp only [combineUnits, if_neg h]
    | code m => rw [combineUnits, if_neg (by omega), if_neg h]

theorem scan_encoded {e t : Text} (h : JsonEncodes e t) (r : Text) :
    ∃ us, scanUnits (e ++ '"' :: r) = .ok (us, r) ∧ combineUnits us = .ok t := by
  induction h with
  | nil => exact ⟨[], by simp [scanUnits], by simp [combineUnits]⟩
  | @plain c e t h1 h2 h3 _ ih =>
    obtain ⟨us, g1, g2⟩ := ih
    refine ⟨.char c :: us, ?_, ?_⟩
    · rw [List.cons_append, scan_plain h1 h2 h3, g1]; rfl
    · rw [combineUnits, g2]; rfl
  | @short x c e t hx _ ih =>
    obtain ⟨us, g1, g2⟩ := ih
    obtain ⟨e1, e2⟩ := short_unescape hx
    refine ⟨.char c :: us, ?_, ?_⟩
    · rw [List.cons_append, List.cons_append, scan_short e1 e2, g1]; rfl
    · rw [combineUnits, g2]; rfl
  | @code ds c e t hd _ ih =>
    obtain ⟨us, g1, g2⟩ := ih
    obtain ⟨x1, x2, x3, x4, rfl, h4, _⟩ := fourHex_elim hd
    refine ⟨.code c.toNat :: us, ?_, ?_⟩
    · simp only [List.cons_append, List.nil_append]
      rw [scan_code h4, g1]; rfl
    · rw [combine_code (char_not_surrogate c), g2, Char.ofNat_toNat]; rfl
  | @pair hs ls c hi lo e t hc hlo hh hl _ ih =>
    obtain ⟨us, g1, g2⟩ := ih
    obtain ⟨x1, x2, x3, x4, rfl, h4, _⟩ := fourHex_elim hh
    obtain ⟨y1, y2, y3, y4, rfl, k4, _⟩ := fourHex_elim hl
    have hv : c.toNat < 0x110000 := by
      have := c.valid
      simp only [UInt32.isValidChar, Nat.isValidChar] at this
      show c.val.toNat < 0x110000
      omega
    refine ⟨.code (0xd800 + hi) :: .code (0xdc00 + lo) :: us, ?_, ?_⟩
    · simp only [List.cons_append, List.nil_append]
      rw [scan_code h4, scan_code k4, g1]; rfl
    · rw [combineUnits, if_pos (by omega), g2]
      simp only [bind, Except.bind, Except.ok.injEq, List.cons.injEq, and_true]
      rw [show 0x10000 + (0xd800 + hi - 0xd800) * 1024 + (0xdc00 + lo - 0xdc00) = c.toNat by omega, Char.ofNat_toNat]

theorem dropWhile_blank {t : Text} (h : JsonBlank t) (r : Text) : (t ++ r).dropWhile jsonSpace = r.dropWhile jsonSpace := by
  induction t with
  | nil => rfl
  | cons c t ih =>
    have hc : jsonSpace c = true := by
      simp only [jsonSpace, Bool.or_eq_true, decide_eq_true_eq]
      have := h c (by simp)
      tauto
    rw [List.cons_append, List.dropWhile_cons_of_pos hc, ih fun x hx => h x (by simp [hx])]

/-- **C100** (reading): the filter `json` reads every JSON string as the text it stands for, however it is written,
with white space around it. -/
theorem C100_reads (other : Text → Py Text) (before enc after text : Text) (hb : JsonBlank before) (ha : JsonBlank after)
    (h : JsonEncodes enc text) : filterJson other (before ++ '"' :: enc ++ '"' :: after) = .ofList [text] := by
  obtain ⟨us, h1, h2⟩ := scan_encoded h after
  have hw : after.dropWhile jsonSpace = [] := by
    have := dropWhile_blank ha []
    simpa using this
  unfold filterJson jsonLoads
  rw [List.append_assoc, dropWhile_blank hb, List.cons_append, List.dropWhile_cons_of_neg (by decide)]
  simp only [h1, bind, Except.bind, hw, ne_eq, not_true_eq_false, if_false, h2]

example : JsonEncodes "a\\n\\u00e9\\ud83d\\uDE00\\/".toList "a\né😀/".toList := by
  refine .plain (by decide) (by decide) (by decide) (.short (x := 'n') (by decide) (.code (ds := "00e9".toList) ?_
    (.pair (hs := "d83d".toList) (ls := "DE00".toList) (hi := 0x3d) (lo := 0x200) (by decide) (by decide) ?_ ?_
      (.short (x := '/') (by decide) .nil))))
  · exact ⟨0, 0, 14, 9, by simp [JsonHex], by decide⟩
  · exact ⟨13, 8, 3, 13, by simp [JsonHex], by decide⟩
  · exact ⟨13, 14, 0, 0, by simp [JsonHex], by decide⟩

theorem hexLow_digit {n : Nat} (h : n < 16) : JsonHex (hexLow n) n := by
  interval_cases n <;> (left; decide)

theorem escape_encodes (c : Char) {e t : Text} (h : JsonEncodes e t) : JsonEncodes (jsonEscape c ++ e) (c :: t) := by
  unfold jsonEscape
  split_ifs with h1 h2 h3 h4 h5 h6 h7 h8
  · subst h1; exact .short (by decide) h
  · subst h2; exact .short (by decide) h
  · subst h3; exact .short (by decide) h
  · subst h4; exact .short (by decide) h
  · subst h5; exact .short (by decide) h
  · subst h6; exact .short (by decide) h
  · subst h7; exact .short (by decide) h
  · refine .code (ds := ['0', '0', hexLow (c.toNat / 16), hexLow (c.toNat % 16)]) ⟨0, 0, c.toNat / 16, c.toNat % 16, ?_, ?_⟩ h
    · exact .cons (by left; decide) (.cons (by left; decide) (.cons (hexLow_digit (by omega)) (.cons (hexLow_digit (by omega)) .nil)))
    · omega
  · exact .plain (by omega) h1 h2 h

theorem dump_encodes (t : Text) : JsonEncodes (t.flatMap jsonEscape) t := by
  induction t with
  | nil => exact .nil
  | cons c t ih => rw [List.flatMap_cons]; exact escape_encodes c ih

/-- **C100** (writing): what is written for a text is a JSON string for it, on one line. -/
theorem C100_writes (t : Text) : ∃ enc, jsonDump t = '"' :: enc ++ ['"'] ∧ JsonEncodes enc t ∧
    ∀ c ∈ jsonDump t, 32 ≤ c.toNat := by
  refine ⟨_, rfl, dump_encodes t, ?_⟩
  have key : ∀ c, ∀ d ∈ jsonEscape c, 32 ≤ d.toNat := by
    intro c d hd
    unfold jsonEscape at hd
    have hex : ∀ n < 16, 32 ≤ (hexLow n).toNat := by
      intro n hn; interval_cases n <;> decide
    split_ifs at hd with h1 h2 h3 h4 h5 h6 h7 h8 <;> simp only [List.mem_cons, List.not_mem_nil, or_false] at hd
    · rcases hd with rfl | rfl <;> decide
    · rcases hd with rfl | rfl <;> decide
    · rcases hd with rfl | rfl <;> decide
    · rcases hd with rfl | rfl <;> decide
    · rcases hd with rfl | rfl <;> decide
    · rcases hd with rfl | rfl <;> decide
    · rcases hd with rfl | rfl <;> decide
    · rcases hd with rfl | rfl | rfl | rfl | rfl | rfl
      · decide
      · decide
      · decide
      · decide
      · exact hex _ (by omega)
      · exact hex _ (by omega)
    · subst hd; omega
  intro c hc
  simp only [jsonDump, List.cons_append, List.mem_cons, List.mem_append, List.mem_flatMap, List.not_mem_nil, or_false] at hc
  rcases hc with rfl | ⟨x, _, h⟩ | rfl
  · decide
  · exact key x c h
  · decide

/-! ### Lines -/

theorem universal_none {t : Text} (h : '\r' ∉ t) : universalNewlines t = t := by
  induction t with
  | nil => rfl
  | cons c t ih =>
    have hc : c ≠ '\r' := by rintro rfl; simp at h
    rw [universalNewlines]
    · rw [ih (by simp_all)]
    all_goals (intros; simp_all)

theorem splitAfter_line {l r : Text} (h : '\n' ∉ l) (acc : Text) :
    splitAfter acc (l ++ '\n' :: r) = (acc.reverse ++ l ++ ['\n']) :: splitAfter [] r := by
  induction l generalizing acc with
  | nil => simp [splitAfter]
  | cons c l ih =>
    have hc : c ≠ '\n' := by rintro rfl; simp at h
    rw [List.cons_append, splitAfter, if_neg hc, ih (by simp_all)]
    simp

theorem splitAfter_lines {ls : List Text} (h : ∀ l ∈ ls, '\n' ∉ l) :
    splitAfter [] (ls.flatMap fun l => l ++ ['\n']) = ls.map fun l => l ++ ['\n'] := by
  induction ls with
  | nil => rfl
  | cons l ls ih =>
    rw [List.flatMap_cons, List.append_assoc, List.singleton_append, splitAfter_line (h l (by simp)),
      ih fun x hx => h x (by simp [hx])]
    simp

/-- Lines that contain no line ends are read as they are. -/
theorem stdin_lines {ls : List Text} (h : ∀ l ∈ ls, '\n' ∉ l ∧ '\r' ∉ l) :
    stdinLines (ls.flatMap fun l => l ++ ['\n']) = ls.map fun l => l ++ ['\n'] := by
  unfold stdinLines
  rw [universal_none, splitAfter_lines fun l hl => (h l hl).1]
  intro hm
  obtain ⟨l, hl, hm⟩ := List.mem_flatMap.1 hm
  rcases List.mem_append.1 hm with hm | hm
  · exact (h l hl).2 hm
  · simp at hm

/-- **C100** (round trip): every text written by `extractMediawiki` is read back by the filter `json`, in order. -/
theorem C100_roundtrip (other : Text → Py Text) (doc : List XNode) :
    Gen.flatMap (filterJson other) (stdinLines (extractMediawiki doc)) none = .ofList (mwTextsAll doc) := by
  have hl : stdinLines (extractMediawiki doc) = (mwTextsAll doc).map fun t => jsonDump t ++ ['\n'] := by
    have := stdin_lines (ls := (mwTextsAll doc).map jsonDump) (by
      intro l hl
      obtain ⟨t, _, rfl⟩ := List.mem_map.1 hl
      obtain ⟨_, _, _, h⟩ := C100_writes t
      exact ⟨fun hm => absurd (h _ hm) (by decide), fun hm => absurd (h _ hm) (by decide)⟩)
    rw [List.flatMap_map, List.map_map] at this
    exact this
  rw [hl]
  generalize mwTextsAll doc = ts
  induction ts with
  | nil => rfl
  | cons t ts ih =>
    obtain ⟨enc, h1, h2, _⟩ := C100_writes t
    have h3 : filterJson other (jsonDump t ++ ['\n']) = .ofList [t] := by
      rw [h1]
      have := C100_reads other [] enc ['\n'] t (by simp [JsonBlank]) (by simp [JsonBlank]) h2
      simpa using this
    rw [List.map_cons, Gen.flatMap, h3, ih]
    simp [Gen.ofList]

theorem mem_mwTexts (t : Text) : (∀ n : XNode, t ∈ n.mwTexts ↔ ∃ cs, Occurs (.element mwTag cs) [n] ∧ t = itertextAll cs) ∧
    ∀ doc : List XNode, t ∈ mwTextsAll doc ↔ ∃ cs, Occurs (.element mwTag cs) doc ∧ t = itertextAll cs := by
  have single : ∀ {x : XNode} {doc : List XNode}, Occurs x doc ↔ ∃ n ∈ doc, Occurs x [n] := by
    intro x doc
    constructor
    · intro h
      cases h with
      | here h => exact ⟨x, h, .here (by simp)⟩
      | inside h1 h2 => exact ⟨_, h1, .inside (List.mem_singleton.2 rfl) h2⟩
    · rintro ⟨n, hn, h⟩
      cases h with
      | here h => rw [List.mem_singleton.1 h]; exact .here hn
      | inside h1 h2 => rw [← List.mem_singleton.1 h1] at hn; exact .inside hn h2
  have all : ∀ doc : List XNode, (∀ n ∈ doc, t ∈ n.mwTexts ↔ ∃ cs, Occurs (.element mwTag cs) [n] ∧ t = itertextAll cs) →
      (t ∈ mwTextsAll doc ↔ ∃ cs, Occurs (.element mwTag cs) doc ∧ t = itertextAll cs) := by
    intro doc h
    have hm : t ∈ mwTextsAll doc ↔ ∃ n ∈ doc, t ∈ n.mwTexts := by
      clear h
      induction doc with
      | nil => simp [mwTextsAll]
      | cons n ns ih => simp [mwTextsAll, ih]
    rw [hm]
    constructor
    · rintro ⟨n, hn, ht⟩
      obtain ⟨cs, h1, h2⟩ := (h n hn).1 ht
      exact ⟨cs, single.2 ⟨n, hn, h1⟩, h2⟩
    · rintro ⟨cs, h1, h2⟩
      obtain ⟨n, hn, h1⟩ := single.1 h1
      exact ⟨n, hn, (h n hn).2 ⟨cs, h1, h2⟩⟩
  have node : ∀ n : XNode, t ∈ n.mwTexts ↔ ∃ cs, Occurs (.element mwTag cs) [n] ∧ t = itertextAll cs := by
    intro n
    induction n using XNode.rec (motive_2 := fun ns => ∀ n ∈ ns, t ∈ n.mwTexts ↔
      ∃ cs, Occurs (.element mwTag cs) [n] ∧ t = itertextAll cs) with
    | text d =>
      simp only [XNode.mwTexts, List.not_mem_nil, false_iff, not_exists, not_and]
      intro cs h
      cases h with
      | here h => simp at h
      | inside h _ => simp at h
    | other =>
      simp only [XNode.mwTexts, List.not_mem_nil, false_iff, not_exists, not_and]
      intro cs h
      cases h with
      | here h => simp at h
      | inside h _ => simp at h
    | element m cs ih =>
      rw [XNode.mwTexts, List.mem_append, all cs ih]
      constructor
      · rintro (⟨cs', h1, h2⟩ | h)
        · exact ⟨cs', .inside (List.mem_singleton.2 rfl) h1, h2⟩
        · split_ifs at h with hm
          · exact ⟨cs, .here (by rw [hm]; simp), by simpa using h⟩
          · simp at h
      · rintro ⟨cs', h1, h2⟩
        cases h1 with
        | here h =>
          right
          simp only [List.mem_singleton, XNode.element.injEq] at h
          obtain ⟨rfl, rfl⟩ := h
          simpa using h2
        | inside h h' =>
          left
          simp only [List.mem_singleton, XNode.element.injEq] at h
          obtain ⟨rfl, rfl⟩ := h
          exact ⟨cs', h', h2⟩
    | nil => rename_i h; simp at h
    | cons n ns h1 h2 =>
      rename_i x hx
      rcases List.mem_cons.1 hx with rfl | hx
      · exact h1
      · exact h2 x hx
  exact ⟨node, fun doc => all doc fun n _ => node n⟩

/-- **C100** (all of them): the texts are the contents of the elements with the name looked for, wherever they are. -/
theorem C100_texts (doc : List XNode) (t : Text) :
    t ∈ mwTextsAll doc ↔ ∃ cs, Occurs (.element mwTag cs) doc ∧ t = itertextAll cs := (mem_mwTexts t).2 doc

/-- **C100** (nothing from other versions): a dump whose elements belong to another version of the format gives nothing,
without an error. -/
theorem C100_other_version (doc : List XNode) (h : ∀ cs, ¬ Occurs (.element mwTag cs) doc) : extractMediawiki doc = [] := by
  have : mwTextsAll doc = [] := by
    rw [List.eq_nil_iff_forall_not_mem]
    intro t ht
    obtain ⟨cs, h1, _⟩ := (C100_texts doc t).1 ht
    exact h cs h1
  rw [extractMediawiki, this]; rfl

/-- A page with two revisions. -/
def demoDump : List XNode :=
  [.element "{http://www.mediawiki.org/xml/export-0.10/}mediawiki".toList
    [.text "\n".toList, .element mwTag [.text "a \"b\"\n".toList, .element "x".toList [.text "c".toList]],
      .element "{http://www.mediawiki.org/xml/export-0.10/}page".toList [.element mwTag [.other, .text "d\r\n".toList]]]]

example : extractMediawiki demoDump = "\"a \\\"b\\\"\\nc\"\n\"d\\r\\n\"\n".toList ∧
    Gen.flatMap (filterJson fun _ => .error .valueError) (stdinLines (extractMediawiki demoDump)) none =
      .ofList ["a \"b\"\nc".toList, "d\r\n".toList] := by decide +kernel

example : ∀ cs, ¬ Occurs (.element mwTag cs)
    [.element "{http://www.mediawiki.org/xml/export-0.11/}text".toList [.text "a".toList]] := by
  intro cs h
  cases h with
  | here h =>
    simp only [List.mem_singleton, XNode.element.injEq] at h
    exact absurd h.1 (by decide)
  | inside h h' =>
    simp only [List.mem_singleton, XNode.element.injEq] at h
    obtain ⟨_, rfl⟩ := h
    cases h' with
    | here h => simp at h
    | inside h _ => simp at h

/-! ### C101: names of files -/

/-- **C101 is false**: a file whose name ends with a blank is not found, another one may be opened. -/
theorem C101_false : (stdinLines "a \n".toList).map (openedFile fun c => c = ' ' || c = '\n') = ["a".toList] := by
  decide +kernel

/-- **C101** (partial: for names that neither contain line ends nor end with white space): the files named on standard
input, one per line, are opened in order. -/
theorem C101_files_partial (isSpace : Char → Bool) (hn : isSpace '\n' = true) (names : List Text)
    (h : ∀ n ∈ names, '\n' ∉ n ∧ '\r' ∉ n ∧ ∃ c ∈ n.getLast?, isSpace c = false) :
    (stdinLines (names.flatMap fun n => n ++ ['\n'])).map (openedFile isSpace) = names := by
  rw [stdin_lines fun l hl => ⟨(h l hl).1, (h l hl).2.1⟩, List.map_map]
  conv_rhs => rw [← List.map_id names]
  apply List.map_congr_left
  intro n hm
  obtain ⟨_, _, c, hc, hs⟩ := h n hm
  obtain ⟨n', rfl⟩ := List.getLast?_eq_some_iff.1 hc
  simp [openedFile, pyRstrip, hn, hs]

example : '\n' ∉ "a b.txt".toList ∧ '\r' ∉ "a b.txt".toList ∧ ∃ c ∈ "a b.txt".toList.getLast?, (c = ' ' || c = '\n') = false :=
  ⟨by decide, by decide, 't', by decide, by decide⟩

/-- **C101** (lines): with the filter `lines` each line is one text, including its end. -/
theorem C101_lines (lines : List Text) (h : ∀ l ∈ lines, '\n' ∉ l ∧ '\r' ∉ l) :
    Gen.flatMap filterLines (stdinLines (lines.flatMap fun l => l ++ ['\n'])) none =
      .ofList (lines.map fun l => l ++ ['\n']) := by
  rw [stdin_lines h]
  generalize lines.map (fun l => l ++ ['\n']) = ls
  induction ls with
  | nil => rfl
  | cons l ls ih => rw [Gen.flatMap, ih]; simp [filterLines, Gen.ofList]

theorem universal_line {l r : Text} (h : '\r' ∉ l) : universalNewlines (l ++ r) = l ++ universalNewlines r := by
  induction l with
  | nil => rfl
  | cons c t ih =>
    have hc : c ≠ '\r' := by rintro rfl; simp at h
    rw [List.cons_append, universalNewlines]
    · rw [ih (by simp_all), List.cons_append]
    all_goals (intros; simp_all)

/-- **C101** (line ends): a line may be ended by a line feed, by a carriage return that no line feed follows, or by both;
the line read is the same. -/
theorem C101_ends (l rest : Text) (h : '\n' ∉ l ∧ '\r' ∉ l) :
    stdinLines (l ++ '\n' :: rest) = (l ++ ['\n']) :: stdinLines rest ∧
    stdinLines (l ++ '\r' :: '\n' :: rest) = (l ++ ['\n']) :: stdinLines rest ∧
    (rest.head? ≠ some '\n' → stdinLines (l ++ '\r' :: rest) = (l ++ ['\n']) :: stdinLines rest) ∧
    stdinLines l = if l = [] then [] else [l] := by
  have hs : ∀ r, splitAfter [] (l ++ '\n' :: r) = (l ++ ['\n']) :: splitAfter [] r := by
    intro r
    rw [splitAfter_line h.1]
    rfl
  refine ⟨?_, ?_, ?_, ?_⟩
  · simp only [stdinLines]
    rw [universal_line h.2, universalNewlines, hs]
    all_goals simp
  · simp only [stdinLines]
    rw [universal_line h.2, universalNewlines, hs]
  · intro hr
    simp only [stdinLines]
    rw [universal_line h.2, universalNewlines, hs]
    intro t ht
    simp [ht] at hr
  · simp only [stdinLines]
    rw [universal_none h.2]
    have key : ∀ (m acc : Text), '\n' ∉ m → splitAfter acc m = if acc.reverse ++ m = [] then [] else [acc.reverse ++ m] := by
      intro m
      induction m with
      | nil => intro acc _; simp [splitAfter]
      | cons c m ih =>
        intro acc hm
        have hc : c ≠ '\n' := by rintro rfl; simp at hm
        rw [splitAfter, if_neg hc, ih _ (by simp_all)]
        simp
    rw [key l [] h.1]
    rcases l with _ | ⟨c, l⟩ <;> simp

example : stdinLines "a\r\nb\rc\n\n\rd".toList = ["a\n", "b\n", "c\n", "\n", "\n", "d"].map String.toList := by
  decide +kernel

end Lulua.Props
