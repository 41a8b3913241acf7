import Mathlib.Data.List.Infix
import Verif.Spec.Css

/-!
# Style sheets: lemmas
-/

namespace Lulua
open Spec.Css

/-! ## Reading -/

/-- Slashes are in quotes only. -/
def slashFree : Mode → Text → Bool
  | _, [] => true
  | .quoted q, c :: cs => slashFree ((Mode.quoted q).next c) cs
  | m, c :: cs => c ≠ '/' && slashFree (m.next c) cs

theorem dropComments_quoted (q a : Char) (r : Text) :
    dropComments (.quoted q) (a :: r) = a :: dropComments ((Mode.quoted q).next a) r := by
  cases r <;> simp [dropComments]

theorem dropComments_plain {a : Char} (h : a ≠ '/') (r : Text) :
    dropComments .plain (a :: r) = a :: dropComments (Mode.plain.next a) r := by
  cases r with
  | nil => cases hm : Mode.plain.next a <;> simp [dropComments]
  | cons b r => simp [dropComments, h]

theorem Mode.next_ne_comment (m : Mode) (c : Char) : m.next c ≠ .comment := by
  cases m <;> simp only [Mode.next] <;> split <;> simp

theorem dropComments_append : ∀ (t : Text) (m : Mode) (r : Text), m ≠ .comment → slashFree m t = true →
    dropComments m (t ++ r) = t ++ dropComments (t.foldl Mode.next m) r
  | [], _, _, _, _ => rfl
  | c :: cs, m, r, hm, h => by
    cases m with
    | comment => exact absurd rfl hm
    | plain =>
      simp only [slashFree, Bool.and_eq_true, decide_eq_true_eq] at h
      rw [List.cons_append, dropComments_plain h.1, dropComments_append cs _ r (Mode.next_ne_comment _ _) h.2]
      rfl
    | quoted q =>
      simp only [slashFree] at h
      rw [List.cons_append, dropComments_quoted, dropComments_append cs _ r (Mode.next_ne_comment _ _) h]
      rfl

/-- A character is in quotes only. -/
def quiet (stop : Char) : Mode → Text → Bool
  | _, [] => true
  | m, c :: cs => !(decide (m = .plain ∧ c = stop)) && quiet stop (m.next c) cs

theorem blocks_none : ∀ (t : Text) (m : Mode) (pre r : Text), quiet '{' m t = true →
    blocks m pre none (t ++ r) = blocks (t.foldl Mode.next m) (t.reverse ++ pre) none r
  | [], _, _, _, _ => rfl
  | c :: cs, m, pre, r, h => by
    simp only [quiet, Bool.and_eq_true, Bool.not_eq_true', decide_eq_false_iff_not] at h
    rw [List.cons_append, blocks, if_neg h.1, blocks_none cs _ _ r h.2]
    simp

theorem blocks_some : ∀ (t : Text) (m : Mode) (pre body r : Text), quiet '}' m t = true →
    blocks m pre (some body) (t ++ r) = blocks (t.foldl Mode.next m) pre (some (t.reverse ++ body)) r
  | [], _, _, _, _, _ => rfl
  | c :: cs, m, pre, body, r, h => by
    simp only [quiet, Bool.and_eq_true, Bool.not_eq_true', decide_eq_false_iff_not] at h
    rw [List.cons_append, blocks, if_neg h.1, blocks_some cs _ _ _ r h.2]
    simp

theorem parts_quiet (sep : Char) : ∀ (t : Text) (m : Mode) (part r : Text), quiet sep m t = true →
    parts sep m part (t ++ r) = parts sep (t.foldl Mode.next m) (t.reverse ++ part) r
  | [], _, _, _, _ => rfl
  | c :: cs, m, part, r, h => by
    simp only [quiet, Bool.and_eq_true, Bool.not_eq_true', decide_eq_false_iff_not] at h
    rw [List.cons_append, parts, if_neg h.1, parts_quiet sep cs _ _ r h.2]
    simp

theorem next_quoted {q c : Char} (h : c ≠ q) : (Mode.quoted q).next c = .quoted q := if_neg h

theorem fold_quoted (q : Char) : ∀ t : Text, q ∉ t → t.foldl Mode.next (.quoted q) = .quoted q
  | [], _ => rfl
  | c :: cs, h => by
    rw [List.foldl_cons, next_quoted (q := q) (c := c) fun hc => h (hc ▸ List.mem_cons_self)]
    exact fold_quoted q cs fun hm => h (List.mem_cons_of_mem _ hm)

theorem slashFree_quoted (q : Char) : ∀ t : Text, q ∉ t → slashFree (.quoted q) t = true
  | [], _ => rfl
  | c :: cs, h => by
    rw [slashFree, next_quoted (q := q) (c := c) fun hc => h (hc ▸ List.mem_cons_self)]
    exact slashFree_quoted q cs fun hm => h (List.mem_cons_of_mem _ hm)

theorem quiet_quoted (stop q : Char) : ∀ t : Text, q ∉ t → quiet stop (.quoted q) t = true
  | [], _ => rfl
  | c :: cs, h => by
    rw [quiet, next_quoted (q := q) (c := c) fun hc => h (hc ▸ List.mem_cons_self)]
    simp [quiet_quoted stop q cs fun hm => h (List.mem_cons_of_mem _ hm)]

theorem slashFree_append : ∀ (a : Text) (m : Mode) (b : Text), slashFree m a = true →
    slashFree (a.foldl Mode.next m) b = true → slashFree m (a ++ b) = true
  | [], _, _, _, h => h
  | c :: cs, m, b, ha, hb => by
    cases m with
    | quoted q => exact slashFree_append cs _ b (by simpa only [slashFree] using ha) hb
    | plain =>
      simp only [slashFree, Bool.and_eq_true] at ha
      simp only [List.cons_append, slashFree, Bool.and_eq_true]
      exact ⟨ha.1, slashFree_append cs _ b ha.2 hb⟩
    | comment =>
      simp only [slashFree, Bool.and_eq_true] at ha
      simp only [List.cons_append, slashFree, Bool.and_eq_true]
      exact ⟨ha.1, slashFree_append cs _ b ha.2 hb⟩

theorem quiet_append (stop : Char) : ∀ (a : Text) (m : Mode) (b : Text), quiet stop m a = true →
    quiet stop (a.foldl Mode.next m) b = true → quiet stop m (a ++ b) = true
  | [], _, _, _, h => h
  | c :: cs, m, b, ha, hb => by
    simp only [quiet, Bool.and_eq_true] at ha
    simp only [List.cons_append, quiet, Bool.and_eq_true]
    exact ⟨ha.1, quiet_append stop cs _ b ha.2 hb⟩

mutual
/-- What was read of a block before goes in front of it. -/
theorem blocks_pre_none : ∀ (t : Text) (m : Mode) (pre w : Text),
    blocks m (pre ++ w) none t = (blocks m pre none t).modifyHead fun b => (w.reverse ++ b.1, b.2)
  | [], _, _, _ => rfl
  | c :: cs, m, pre, w => by
    rw [blocks, blocks]
    split
    · exact blocks_pre_some cs _ pre w []
    · exact blocks_pre_none cs _ (c :: pre) w

theorem blocks_pre_some : ∀ (t : Text) (m : Mode) (pre w body : Text),
    blocks m (pre ++ w) (some body) t = (blocks m pre (some body) t).modifyHead fun b => (w.reverse ++ b.1, b.2)
  | [], _, _, _, _ => rfl
  | c :: cs, m, pre, w, body => by
    rw [blocks, blocks]
    split
    · simp
    · exact blocks_pre_some cs _ pre w (c :: body)
end

theorem css_words_blank : ∀ (w t : Text), (∀ c ∈ w, isBlank c = true) → words (w ++ t) = words t
  | [], _, _ => rfl
  | c :: cs, t, h => by
    have hc := h c List.mem_cons_self
    rw [← css_words_blank cs t fun x hx => h x (List.mem_cons_of_mem _ hx)]
    simp only [words, List.cons_append, List.splitOnP_cons_eq_if_modifyHead, hc]
    simp

theorem rule_blank (w p b : Text) (h : ∀ c ∈ w, isBlank c = true) : rule (w ++ p, b) = rule (p, b) := by
  have hc : ∀ c ∈ w, (c = ',') = False := fun c hc => by
    simp only [eq_iff_iff, iff_false]
    rintro rfl
    exact absurd (h _ hc) (by decide)
  have hs : (w ++ p).splitOnP (fun c => decide (c = ',')) = (p.splitOnP fun c => decide (c = ',')).modifyHead (w ++ ·) := by
    clear h
    induction w with
    | nil => simp only [List.nil_append]; cases p.splitOnP _ <;> rfl
    | cons c cs ih =>
      rw [List.cons_append, List.splitOnP_cons_eq_if_modifyHead, ih fun x hx => hc x (List.mem_cons_of_mem _ hx)]
      simp only [hc c List.mem_cons_self, decide_false, Bool.false_eq_true, if_false]
      cases p.splitOnP _ <;> rfl
  simp only [rule, hs]
  cases hp : p.splitOnP (fun c => decide (c = ',')) with
  | nil => rfl
  | cons x xs =>
    simp only [List.modifyHead_cons, List.map_cons, css_words_blank w x h]

/-- Blanks in front of a style sheet do not matter. -/
theorem read_pre_blank (w t : Text) (h : ∀ c ∈ w, isBlank c = true) :
    (blocks .plain w none t).map rule = (blocks .plain [] none t).map rule := by
  have := blocks_pre_none t .plain [] w
  rw [List.nil_append] at this
  rw [this]
  cases blocks .plain [] none t with
  | nil => rfl
  | cons x xs => simp only [List.modifyHead_cons, List.map_cons]; rw [rule_blank _ _ _ (by simpa using h)]

/-! ## Base64 -/

theorem b64Char_lt (n : Nat) (h : n < 64) : b64Char n ≠ '"' ∧ b64Char n ≠ '=' ∧ b64Value (b64Char n) = n := by
  have : ∀ n : Fin 64, b64Char n ≠ '"' ∧ b64Char n ≠ '=' ∧ b64Value (b64Char n) = n := by decide +kernel
  exact this ⟨n, h⟩

theorem b64encode_quote : ∀ l : List UInt8, '"' ∉ b64encode l
  | [] => by simp [b64encode]
  | [a] => by
    have h₁ := (b64Char_lt (a.toNat / 4) (by have := a.toNat_lt; omega)).1
    have h₂ := (b64Char_lt (a.toNat % 4 * 16) (by omega)).1
    simp [b64encode, h₁.symm, h₂.symm]
  | [a, b] => by
    have hb := b.toNat_lt
    have h₁ := (b64Char_lt (a.toNat / 4) (by have := a.toNat_lt; omega)).1
    have h₂ := (b64Char_lt (a.toNat % 4 * 16 + b.toNat / 16) (by omega)).1
    have h₃ := (b64Char_lt (b.toNat % 16 * 4) (by omega)).1
    simp [b64encode, h₁.symm, h₂.symm, h₃.symm]
  | a :: b :: c :: rest => by
    have hb := b.toNat_lt
    have hc := c.toNat_lt
    have h₁ := (b64Char_lt (a.toNat / 4) (by have := a.toNat_lt; omega)).1
    have h₂ := (b64Char_lt (a.toNat % 4 * 16 + b.toNat / 16) (by omega)).1
    have h₃ := (b64Char_lt (b.toNat % 16 * 4 + c.toNat / 64) (by omega)).1
    have h₄ := (b64Char_lt (c.toNat % 64) (by omega)).1
    simp [b64encode, h₁.symm, h₂.symm, h₃.symm, h₄.symm, b64encode_quote rest]

theorem b64Value_eq : b64Value '=' % 64 = 0 := by decide +kernel

theorem b64decode_encode : ∀ l : List UInt8, b64decode (b64encode l) = l.map UInt8.toNat
  | [] => rfl
  | [a] => by
    have ha := a.toNat_lt
    have h₁ := (b64Char_lt (a.toNat / 4) (by omega)).2.2
    have h₂ := (b64Char_lt (a.toNat % 4 * 16) (by omega)).2.2
    simp only [b64encode, b64decode, h₁, h₂, b64Value_eq, if_true, List.append_nil, List.map_cons, List.map_nil, List.cons.injEq,
      and_true]
    omega
  | [a, b] => by
    have ha := a.toNat_lt
    have hb := b.toNat_lt
    have h₁ := (b64Char_lt (a.toNat / 4) (by omega)).2.2
    have h₂ := (b64Char_lt (a.toNat % 4 * 16 + b.toNat / 16) (by omega)).2.2
    have h₃ := (b64Char_lt (b.toNat % 16 * 4) (by omega)).2
    simp only [b64encode, b64decode, h₁, h₂, h₃.2, h₃.1, b64Value_eq, if_true, if_false, List.append_nil, List.map_cons,
      List.map_nil, List.cons.injEq, and_true]
    omega
  | a :: b :: c :: rest => by
    have ha := a.toNat_lt
    have hb := b.toNat_lt
    have hc := c.toNat_lt
    have h₁ := (b64Char_lt (a.toNat / 4) (by omega)).2.2
    have h₂ := (b64Char_lt (a.toNat % 4 * 16 + b.toNat / 16) (by omega)).2.2
    have h₃ := (b64Char_lt (b.toNat % 16 * 4 + c.toNat / 64) (by omega)).2
    have h₄ := (b64Char_lt (c.toNat % 64) (by omega)).2
    simp only [b64encode, b64decode, h₁, h₂, h₃.2, h₃.1, h₄.1, h₄.2, if_false, b64decode_encode rest, List.map_cons,
      List.cons_append, List.nil_append, List.cons.injEq, and_true]
    omega

/-! ## Fonts -/

/-- Before the brace. -/
def facePre : Text := "\n                @font-face ".toList

/-- Before the data. -/
def faceHead (font weight : String) : Text :=
  "\n                font-family: '".toList ++ font.toList ++
  "';\n                font-style: normal;\n                font-weight: ".toList ++ weight.toList ++
  ";\n                src: url(\"data:application/font-woff2;charset=utf-8;base64,".toList

/-- After the data. -/
def faceTail : Text := "\") format('woff2');\n                ".toList

def faceEnd : Text := "\n                ".toList

theorem face_parts {a b c d f w t p q x e : Text} (h₁ : a = p ++ '{' :: q) (h₂ : d = x ++ '}' :: e) :
    a ++ f ++ b ++ w ++ c ++ t ++ d = p ++ '{' :: ((q ++ f ++ b ++ w ++ c) ++ (t ++ (x ++ '}' :: e))) := by
  subst h₁ h₂
  simp only [List.append_assoc, List.cons_append]

theorem face_open : "\n                @font-face {\n                font-family: '".toList =
    facePre ++ '{' :: "\n                font-family: '".toList := by decide +kernel

theorem face_close : "\") format('woff2');\n                }\n                ".toList = faceTail ++ '}' :: faceEnd := by
  decide +kernel

theorem fontFace_eq (font weight : String) (data : List UInt8) :
    fontFace font weight data = facePre ++ '{' :: (faceHead font weight ++ (b64encode data ++ (faceTail ++ '}' :: faceEnd))) :=
  face_parts face_open face_close

/-- A block `p {h d t}e` in front of a style sheet, where `d` is in quotes and `e` is blank. -/
theorem read_block {p h d t e : Text} {q : Char} (rest : Text)
    (hp : slashFree .plain p = true ∧ quiet '{' .plain p = true ∧ p.foldl Mode.next .plain = .plain)
    (hh : slashFree .plain h = true ∧ quiet '}' .plain h = true ∧ h.foldl Mode.next .plain = .quoted q)
    (hd : q ∉ d)
    (ht : slashFree (.quoted q) t = true ∧ quiet '}' (.quoted q) t = true ∧ t.foldl Mode.next (.quoted q) = .plain)
    (he : slashFree .plain e = true ∧ quiet '{' .plain e = true ∧ e.foldl Mode.next .plain = .plain ∧ e.all isBlank = true) :
    read ((p ++ '{' :: (h ++ (d ++ (t ++ '}' :: e)))) ++ rest) = rule (p, h ++ d ++ t) :: read rest := by
  have n₁ : Mode.plain.next '{' = .plain := by decide
  have n₂ : Mode.plain.next '}' = .plain := by decide
  have hdrop : dropComments .plain ((p ++ '{' :: (h ++ (d ++ (t ++ '}' :: e)))) ++ rest) =
      (p ++ '{' :: (h ++ (d ++ (t ++ '}' :: e)))) ++ dropComments .plain rest := by
    rw [dropComments_append _ _ _ (by simp)]
    · simp only [List.foldl_append, List.foldl_cons, hp.2.2, n₁, hh.2.2, fold_quoted _ _ hd, ht.2.2, n₂, he.2.2.1]
    · refine slashFree_append _ _ _ hp.1 ?_
      rw [hp.2.2, slashFree, n₁]
      refine Bool.and_eq_true_iff.2 ⟨by decide, slashFree_append _ _ _ hh.1 ?_⟩
      rw [hh.2.2]
      refine slashFree_append _ _ _ (slashFree_quoted _ _ hd) ?_
      rw [fold_quoted _ _ hd]
      refine slashFree_append _ _ _ ht.1 ?_
      rw [ht.2.2, slashFree, n₂]
      · exact Bool.and_eq_true_iff.2 ⟨by decide, he.1⟩
      · simp
      · simp
  rw [Spec.Css.read, hdrop]
  simp only [List.append_assoc, List.cons_append]
  rw [blocks_none _ _ _ _ hp.2.1, hp.2.2, blocks, if_pos ⟨rfl, rfl⟩, List.append_nil, blocks_some _ _ _ _ _ hh.2.1, hh.2.2,
    blocks_some _ _ _ _ _ (quiet_quoted _ _ _ hd), fold_quoted _ _ hd, blocks_some _ _ _ _ _ ht.2.1, ht.2.2, blocks,
    if_pos ⟨rfl, rfl⟩, List.map_cons, blocks_none _ _ _ _ he.2.1, he.2.2.1, read_pre_blank]
  · simp [Spec.Css.read]
  · simpa using he.2.2.2

theorem read_fontFace (font weight : String) (data : List UInt8) (rest : Text)
    (h : slashFree .plain (faceHead font weight) = true ∧ quiet '}' .plain (faceHead font weight) = true ∧
      (faceHead font weight).foldl Mode.next .plain = .quoted '"') :
    read (fontFace font weight data ++ rest) =
      rule (facePre, faceHead font weight ++ b64encode data ++ faceTail) :: read rest := by
  rw [fontFace_eq]
  exact read_block rest (by decide +kernel) h (b64encode_quote data) (by decide +kernel) (by decide +kernel)

theorem parts_four {a b c e d t u : Text} (sep q : Char)
    (ha : quiet sep .plain a = true ∧ a.foldl Mode.next .plain = .plain)
    (hb : quiet sep .plain b = true ∧ b.foldl Mode.next .plain = .plain)
    (hc : quiet sep .plain c = true ∧ c.foldl Mode.next .plain = .plain)
    (he : quiet sep .plain e = true ∧ e.foldl Mode.next .plain = .quoted q) (hd : q ∉ d)
    (ht : quiet sep (.quoted q) t = true ∧ t.foldl Mode.next (.quoted q) = .plain) (hu : quiet sep .plain u = true) :
    parts sep .plain [] (a ++ sep :: (b ++ sep :: (c ++ sep :: (e ++ (d ++ (t ++ sep :: u)))))) =
      [a, b, c, e ++ (d ++ t), u] := by
  have hu' := parts_quiet sep u .plain [] [] hu
  rw [List.append_nil] at hu'
  rw [parts_quiet _ _ _ _ _ ha.1, ha.2, parts, if_pos ⟨rfl, rfl⟩, parts_quiet _ _ _ _ _ hb.1, hb.2, parts, if_pos ⟨rfl, rfl⟩,
    parts_quiet _ _ _ _ _ hc.1, hc.2, parts, if_pos ⟨rfl, rfl⟩, parts_quiet _ _ _ _ _ he.1, he.2,
    parts_quiet _ _ _ _ _ (quiet_quoted _ _ _ hd), fold_quoted _ _ hd, parts_quiet _ _ _ _ _ ht.1, ht.2, parts,
    if_pos ⟨rfl, rfl⟩, hu', parts]
  simp

theorem css_dropWhile_first {p : Char → Bool} {l r : Text} {c : Char} (h : l.all p = true) (hc : p c = false) :
    (l ++ c :: r).dropWhile p = c :: r ∧ (l ++ c :: r).takeWhile p = l := by
  induction l with
  | nil => simp [hc]
  | cons x xs ih =>
    simp only [List.all_cons, Bool.and_eq_true] at h
    simp [h.1, ih h.2]

theorem trim_blank {w m : Text} {a z : Char} (hw : w.all isBlank = true) (ha : isBlank a = false) (hz : isBlank z = false) :
    trim (w ++ a :: (m ++ [z])) = a :: (m ++ [z]) := by
  rw [trim, (css_dropWhile_first hw ha).1]
  have h : (a :: (m ++ [z])).reverse = z :: (m.reverse ++ [a]) := by simp
  rw [h, List.dropWhile_cons, if_neg (by simp [hz]), ← h, List.reverse_reverse]

/-- A declaration whose name and first character of the value are known, as well as the last one. -/
theorem decl_text {n w m : Text} {a z : Char} (hn : n.all (· ≠ ':') = true) (hw : w.all isBlank = true)
    (ha : isBlank a = false) (hz : isBlank z = false) :
    decl (n ++ ':' :: (w ++ a :: (m ++ [z]))) = some (trim n, a :: (m ++ [z])) := by
  have := css_dropWhile_first (l := n) (r := w ++ a :: (m ++ [z])) (c := ':') hn (by decide)
  rw [decl, this.1, this.2]
  simp only [trim_blank hw ha hz]

def srcHead : Text := "rl(\"data:application/font-woff2;charset=utf-8;".toList

def srcTail : Text := " format('woff2'".toList

/-- The data of a font is found in the text of its source. -/
theorem dataOf_src (d : Text) (hd : '"' ∉ d) :
    dataOf ('u' :: ((srcHead ++ "base64,".toList ++ d ++ '"' :: ')' :: srcTail) ++ [')'])) = some d := by
  have h₁ : ∀ x : Text, dataOf ('u' :: (srcHead ++ ("base64,".toList ++ x))) = dataOf ("base64,".toList ++ x) := fun x => rfl
  have h₂ : ∀ x : Text, dataOf ("base64,".toList ++ x) = some (x.takeWhile (· ≠ '"')) := fun x => rfl
  simp only [List.append_assoc, List.cons_append]
  rw [h₁, h₂, (css_dropWhile_first (l := d) (c := '"') (List.all_eq_true.2 fun c hc => by
    simpa using fun h : c = '"' => hd (h ▸ hc)) (by decide)).2]

def faceA (font : String) : Text := "\n                font-family: '".toList ++ font.toList ++ "'".toList

def faceB : Text := "\n                font-style: normal".toList

def faceC (weight : String) : Text := "\n                font-weight: ".toList ++ weight.toList

def srcName : Text := "\n                src".toList

def faceU : Text := "\n                ".toList

/-- What has to be known about the name and the weight of a font for its rule to be read. -/
structure FaceOk (font weight : String) : Prop where
  head : faceHead font weight = faceA font ++ ';' :: (faceB ++ ';' :: (faceC weight ++ ';' ::
    (srcName ++ ':' :: ([' '] ++ 'u' :: (srcHead ++ "base64,".toList)))))
  a : quiet ';' .plain (faceA font) = true ∧ (faceA font).foldl Mode.next .plain = .plain
  c : quiet ';' .plain (faceC weight) = true ∧ (faceC weight).foldl Mode.next .plain = .plain
  declA : decl (faceA font) = some ("font-family".toList, '\'' :: (font.toList ++ ['\'']))
  declC : decl (faceC weight) = some ("font-weight".toList, weight.toList)
  name : unquote ('\'' :: (font.toList ++ ['\''])) = font.toList
  open' : slashFree .plain (faceHead font weight) = true ∧ quiet '}' .plain (faceHead font weight) = true ∧
    (faceHead font weight).foldl Mode.next .plain = .quoted '"'

theorem faceTail_eq : faceTail = ('"' :: ')' :: (srcTail ++ [')'])) ++ ';' :: faceU := by decide +kernel

theorem face_src (d : Text) : (srcName ++ ':' :: ([' '] ++ 'u' :: (srcHead ++ "base64,".toList))) ++ (d ++ ('"' :: ')' :: (srcTail ++ [')']))) =
    srcName ++ ':' :: ([' '] ++ 'u' :: ((srcHead ++ "base64,".toList ++ d ++ '"' :: ')' :: srcTail) ++ [')'])) := by
  generalize "base64,".toList = x
  simp only [List.append_assoc, List.cons_append]

theorem rule_fontFace (font weight : String) (data : List UInt8) (h : FaceOk font weight) :
    rule (facePre, faceHead font weight ++ b64encode data ++ faceTail) =
      ⟨[[⟨"@font-face".toList, []⟩]],
        [("font-family".toList, '\'' :: (font.toList ++ ['\''])), ("font-style".toList, "normal".toList),
          ("font-weight".toList, weight.toList),
          ("src".toList, 'u' :: ((srcHead ++ "base64,".toList ++ b64encode data ++ '"' :: ')' :: srcTail) ++ [')']))]⟩ := by
  have hparts := parts_four (u := faceU) ';' '"' h.a (b := faceB) (by decide +kernel) h.c
    (e := srcName ++ ':' :: ([' '] ++ 'u' :: (srcHead ++ "base64,".toList))) (by decide +kernel) (b64encode_quote data)
    (t := '"' :: ')' :: (srcTail ++ [')'])) (by decide +kernel) (by decide +kernel)
  have hbody : faceHead font weight ++ b64encode data ++ faceTail = faceA font ++ ';' :: (faceB ++ ';' :: (faceC weight ++ ';' ::
      ((srcName ++ ':' :: ([' '] ++ 'u' :: (srcHead ++ "base64,".toList))) ++
        (b64encode data ++ (('"' :: ')' :: (srcTail ++ [')'])) ++ ';' :: faceU))))) := by
    rw [h.head, faceTail_eq]
    generalize "base64,".toList = x
    simp only [List.append_assoc, List.cons_append]
  rw [face_src] at hparts
  have hsrc := decl_text (n := srcName) (w := [' ']) (a := 'u') (z := ')')
    (m := srcHead ++ "base64,".toList ++ b64encode data ++ '"' :: ')' :: srcTail) (by decide +kernel) (by decide) (by decide)
    (by decide)
  rw [rule, hbody, hparts]
  simp only [List.filterMap_cons, h.declA, h.declC, hsrc, show decl faceB = some ("font-style".toList, "normal".toList) by decide +kernel,
    show decl faceU = none by decide +kernel, show trim srcName = "src".toList by decide +kernel, List.filterMap_nil]
  rw [Rule.mk.injEq]
  exact ⟨by decide +kernel, rfl⟩

theorem font_of_face (font weight : String) (data : List UInt8) (h : FaceOk font weight) :
    (rule (facePre, faceHead font weight ++ b64encode data ++ faceTail)).font =
      some ⟨font.toList, weight.toList, data.map UInt8.toNat⟩ := by
  rw [rule_fontFace font weight data h, Rule.font, if_pos rfl]
  have h₁ : ∀ a b c d : Text, [("font-family".toList, a), ("font-style".toList, b), ("font-weight".toList, c), ("src".toList, d)].lookup
      "font-family".toList = some a := fun a b c d => rfl
  have h₂ : ∀ a b c d : Text, [("font-family".toList, a), ("font-style".toList, b), ("font-weight".toList, c), ("src".toList, d)].lookup
      "font-weight".toList = some c := fun a b c d => rfl
  have h₃ : ∀ a b c d : Text, [("font-family".toList, a), ("font-style".toList, b), ("font-weight".toList, c), ("src".toList, d)].lookup
      "src".toList = some d := fun a b c d => rfl
  rw [h₁, h₂, h₃, Option.bind_some, dataOf_src _ (b64encode_quote data)]
  simp only [h.name, b64decode_encode]

theorem faceOk_thin : FaceOk "IBM Plex Sans Arabic" "100" where
  head := by decide +kernel
  a := by decide +kernel
  c := by decide +kernel
  declA := by decide +kernel
  declC := by decide +kernel
  name := by decide +kernel
  open' := by decide +kernel

theorem faceOk_regular : FaceOk "IBM Plex Sans Arabic" "400" where
  head := by decide +kernel
  a := by decide +kernel
  c := by decide +kernel
  declA := by decide +kernel
  declC := by decide +kernel
  name := by decide +kernel
  open' := by decide +kernel

/-- The rules of the picture: two fonts, then the style sheet. -/
theorem read_svgStyle (thin regular : List UInt8) (sheet : Text) : ∃ a b,
    Spec.Css.read (svgStyle thin regular sheet) = a :: b :: Spec.Css.read sheet ∧
    a.font = some ⟨"IBM Plex Sans Arabic".toList, "100".toList, thin.map UInt8.toNat⟩ ∧
    b.font = some ⟨"IBM Plex Sans Arabic".toList, "400".toList, regular.map UInt8.toNat⟩ := by
  refine ⟨_, _, ?_, font_of_face _ _ thin faceOk_thin, font_of_face _ _ regular faceOk_regular⟩
  rw [svgStyle, List.append_assoc, read_fontFace _ _ _ _ faceOk_thin.open', read_fontFace _ _ _ _ faceOk_regular.open']

/-! ## Which value an element gets -/

/-- The parts hit some of the elements, in order. -/
theorem around_iff (ks : List Compound) (ns : List SvgNode) :
    around ks ns = true ↔ ∃ l, l.Sublist ns ∧ List.Forall₂ (fun k n => Compound.hits k n = true) ks l := by
  induction ns generalizing ks with
  | nil =>
    cases ks with
    | nil => simp [around]
    | cons k ks => simp [around]
  | cons n ns ih =>
    cases ks with
    | nil => simp only [around, true_iff]; exact ⟨[], List.nil_sublist _, .nil⟩
    | cons k ks =>
      rw [around]
      by_cases hk : k.hits n = true
      · rw [if_pos hk, ih]
        constructor
        · rintro ⟨l, hl, h⟩
          exact ⟨n :: l, hl.cons_cons n, .cons hk h⟩
        · rintro ⟨l, hl, h⟩
          cases h with
          | cons hx h =>
            rename_i x xs
            exact ⟨xs, hl.tail, h⟩
      · rw [if_neg hk, ih]
        constructor
        · rintro ⟨l, hl, h⟩
          exact ⟨l, hl.cons n, h⟩
        · rintro ⟨l, hl, h⟩
          cases h with
          | cons hx h =>
            rename_i x xs
            cases hl with
            | cons _ hl => exact ⟨x :: xs, hl, .cons hx h⟩
            | cons_cons _ hl => exact absurd hx hk

theorem precedes_trans {a b c : Nat × Nat} (h : precedes a b) (h' : precedes b c) : precedes a c := by
  unfold precedes at *; omega

theorem precedes_total (a b : Nat × Nat) (h : ¬precedes a b) : ¬precedes a b ∧ precedes b a := by
  unfold precedes at *; omega

/-- The strongest value: those before it are not stronger, those after it are weaker. -/
theorem strongest_iff (l : List ((Nat × Nat) × Text)) (y : (Nat × Nat) × Text) : strongest l = some y ↔
    ∃ a b, l = a ++ y :: b ∧ (∀ x ∈ a, precedes x.1 y.1) ∧ ∀ x ∈ b, ¬precedes y.1 x.1 := by
  induction l generalizing y with
  | nil => simp [strongest]
  | cons x xs ih =>
    rw [strongest]
    cases hs : strongest xs with
    | none =>
      have hx : xs = [] := by
        cases xs with
        | nil => rfl
        | cons z zs =>
          rw [strongest] at hs
          split at hs
          · cases hs
          · split at hs <;> cases hs
      subst hx
      simp only [Option.some.injEq]
      constructor
      · rintro rfl
        exact ⟨[], [], rfl, by simp, by simp⟩
      · rintro ⟨a, b, h, -, -⟩
        cases a with
        | nil => simp only [List.nil_append, List.cons.injEq] at h; exact h.1
        | cons => simp at h
    | some z =>
      obtain ⟨a, b, hxs, ha, hb⟩ := (ih z).1 hs
      simp only
      by_cases hp : precedes x.1 z.1
      · rw [if_pos hp, Option.some.injEq]
        constructor
        · rintro rfl
          exact ⟨x :: a, b, by rw [hxs]; rfl, by simpa using ⟨hp, fun p q hq h => ha _ h⟩, hb⟩
        · rintro ⟨a', b', h, ha', hb'⟩
          cases a' with
          | nil =>
            simp only [List.nil_append, List.cons.injEq] at h
            obtain ⟨rfl, rfl⟩ := h
            exact absurd hp (hb' z (by simp [hxs]))
          | cons w a' =>
            simp only [List.cons_append, List.cons.injEq] at h
            have := (ih y).2 ⟨a', b', h.2, fun p hp => ha' p (List.mem_cons_of_mem _ hp), hb'⟩
            rw [hs] at this
            exact Option.some.inj this
      · rw [if_neg hp, Option.some.injEq]
        have hlt := (precedes_total _ _ hp).2
        constructor
        · rintro rfl
          refine ⟨[], xs, rfl, by simp, fun p hpx h => ?_⟩
          rw [hxs] at hpx
          rcases List.mem_append.1 hpx with hm | hm
          · exact hp (precedes_trans h (ha p hm))
          · rcases List.mem_cons.1 hm with rfl | hm
            · exact hp h
            · exact hb p hm (precedes_trans hlt h)
        · rintro ⟨a', b', h, ha', hb'⟩
          cases a' with
          | nil => simp only [List.nil_append, List.cons.injEq] at h; exact h.1
          | cons w a' =>
            simp only [List.cons_append, List.cons.injEq] at h
            have := (ih y).2 ⟨a', b', h.2, fun p hp => ha' p (List.mem_cons_of_mem _ hp), hb'⟩
            rw [hs] at this
            cases Option.some.inj this
            exact absurd (h.1 ▸ ha' w List.mem_cons_self) hp

theorem hits_foreign {t : Text} (ht : t ≠ []) (q : List SvgNode) (hq : ∀ n ∈ q, n.tag ≠ t) : hits [⟨t, []⟩] q = false := by
  simp only [hits, List.getLast?_singleton]
  split
  · rename_i k n hk hn
    cases hk
    have := hq n (List.mem_of_getLast? hn)
    simp [Compound.hits, ht, this.symm]
  · rfl

theorem given_foreign {t : Text} (ht : t ≠ []) (r : Rule) (hr : r.selectors = [[⟨t, []⟩]]) (rs : List Rule) (q : List SvgNode)
    (hq : ∀ n ∈ q, n.tag ≠ t) (p : Text) : given (r :: rs) q p = given rs q p := by
  simp [given, candidates, hr, hits_foreign ht q hq]

theorem look_foreign {t : Text} (ht : t ≠ []) (r : Rule) (hr : r.selectors = [[⟨t, []⟩]]) (rs : List Rule)
    (path : List SvgNode) (hp : ∀ n ∈ path, n.tag ≠ t) : look (r :: rs) path = look rs path := by
  have hf : ∀ p, path.inits.filterMap (fun q => given (r :: rs) q p) = path.inits.filterMap fun q => given rs q p := fun p =>
    List.filterMap_congr fun q hq =>
      given_foreign ht r hr rs q (fun n hn => hp n (((List.mem_inits _ _).1 hq).subset hn)) p
  simp only [look, inherited, hf, given_foreign ht r hr rs path hp]

theorem Rule.font_selectors {r : Rule} {f : Font} (hr : r.font = some f) : r.selectors = [[⟨"@font-face".toList, []⟩]] := by
  unfold Spec.Css.Rule.font at hr
  split at hr
  · assumption
  · cases hr

/-- Rules for fonts do not matter for elements. -/
theorem look_font (r : Rule) (rs : List Rule) (f : Font) (hr : r.font = some f) (path : List SvgNode)
    (hp : ∀ n ∈ path, n.tag ≠ "@font-face".toList) : look (r :: rs) path = look rs path :=
  look_foreign (by decide) r (Rule.font_selectors hr) rs path hp

end Lulua
