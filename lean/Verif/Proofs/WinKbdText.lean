import Verif.Model.WinKbdText
import Verif.Spec.CText
import Verif.Spec.WinKbd
import Verif.Proofs.Xmodmap
import Mathlib.Tactic

/-!
# Reading the C tables
-/

namespace Lulua
open Spec

theorem cRun_append (a b : Text) : ∀ s, cRun s (a ++ b) = ((cRun (cRun s a).1 b).1, (cRun s a).2 ++ (cRun (cRun s a).1 b).2) := by
  induction a with
  | nil => intro s; simp [cRun]
  | cons c a ih => intro s; simp [cRun, ih]

/-- A text that is these tokens, if no word follows. -/
def Toks (t : Text) (ts : List CTok) : Prop :=
  ∀ c, wordChar c = false → ∀ r, cRun .start (t ++ c :: r) = ((cRun .start (c :: r)).1, ts ++ (cRun .start (c :: r)).2)

/-- A text that is these tokens, whatever follows. -/
def Closed (t : Text) (ts : List CTok) : Prop := cRun .start t = (.start, ts)

instance (t : Text) (ts : List CTok) : Decidable (Closed t ts) := by unfold Closed; infer_instance

theorem Closed.append {a b : Text} {x y : List CTok} (ha : Closed a x) (hb : Closed b y) : Closed (a ++ b) (x ++ y) := by
  unfold Closed at *
  rw [cRun_append, ha]
  simp only [hb]

theorem Closed.toks {a : Text} {x : List CTok} (ha : Closed a x) : Toks a x := by
  intro c _ r
  rw [cRun_append, ha]

theorem Toks.close {a b : Text} {x y : List CTok} (ha : Toks a x) (hb : Closed b y) {c : Char} {r : Text} (he : b = c :: r)
    (hc : wordChar c = false) : Closed (a ++ b) (x ++ y) := by
  subst he
  unfold Closed at *
  rw [ha c hc r, hb]

theorem Toks.append {a b : Text} {x y : List CTok} (ha : Toks a x) (hb : Toks b y) {c : Char} {r : Text} (he : b = c :: r)
    (hc : wordChar c = false) : Toks (a ++ b) (x ++ y) := by
  subst he
  intro d hd s
  rw [List.append_assoc, List.cons_append, ha c hc (r ++ d :: s), ← List.cons_append, hb d hd s, List.append_assoc]

theorem Closed.append_toks {a b : Text} {x y : List CTok} (ha : Closed a x) (hb : Toks b y) : Toks (a ++ b) (x ++ y) := by
  intro d hd s
  unfold Closed at ha
  rw [List.append_assoc, cRun_append, ha]
  simp only [hb d hd s, List.append_assoc]

/-- A word of C. -/
def IsWord (w : Text) : Prop := w ≠ [] ∧ ∀ c ∈ w, wordChar c = true

theorem cRun_word {w : Text} (h : ∀ c ∈ w, wordChar c = true) : ∀ a, cRun (.word a) w = (.word (w.reverse ++ a), []) := by
  induction w with
  | nil => intro a; rfl
  | cons c w ih =>
    intro a
    have hc := h c List.mem_cons_self
    simp only [cRun, cStep, hc, if_true, ih (fun d hd => h d (List.mem_cons_of_mem _ hd)), List.reverse_cons, List.append_assoc,
      List.singleton_append, List.append_nil]

theorem IsWord.toks {w : Text} (h : IsWord w) : Toks w [.word w] := by
  obtain ⟨h1, h2⟩ := h
  intro c hc r
  cases w with
  | nil => exact absurd rfl h1
  | cons d w =>
    have hd := h2 d List.mem_cons_self
    rw [cRun_append]
    have e : cRun .start (d :: w) = (.word (w.reverse ++ [d]), []) := by
      simp only [cRun, cStep, cStart, hd, if_true, cRun_word (fun d hd => h2 d (List.mem_cons_of_mem _ hd)), List.append_nil]
    rw [e]
    simp only [cRun, cStep, hc, Bool.false_eq_true, if_false, List.reverse_append, List.reverse_reverse, List.reverse_cons,
      List.reverse_nil, List.nil_append, List.cons_append]

theorem IsWord.append {a b : Text} (ha : IsWord a) (hb : ∀ c ∈ b, wordChar c = true) : IsWord (a ++ b) :=
  ⟨by simp [ha.1], fun c hc => (List.mem_append.1 hc).elim (ha.2 c) (hb c)⟩

theorem natText_word (n : Nat) : IsWord (natText n) := by
  refine ⟨Nat.toDigits_ne_nil, fun c hc => ?_⟩
  have h := Nat.isDigit_of_mem_toDigits (by omega) (by omega) hc
  simp [wordChar, Char.isAlphanum, h]

/-! ### Characters -/

theorem cRun_comment {t : Text} (h : '*' ∉ t) : cRun .comment t = (.comment, []) := by
  induction t with
  | nil => rfl
  | cons c t ih =>
    have hc : c ≠ '*' := fun he => h (he ▸ List.mem_cons_self)
    simp only [cRun, cStep, if_neg hc, ih (fun hm => h (List.mem_cons_of_mem _ hm)), List.append_nil]

theorem hexLower_star (w n : Nat) : '*' ∉ hexLower w n := by
  unfold hexLower
  intro h
  rcases List.mem_append.1 h with h | h
  · have := List.eq_of_mem_replicate h
    revert this
    decide
  · obtain ⟨d, hd, he⟩ := List.mem_map.1 h
    have hlt : d < 16 := Nat.digits_lt_base (by omega) (List.mem_reverse.1 hd)
    have : ∀ d < 16, "0123456789abcdef".toList.getD d '0' ≠ '*' := by decide
    exact this d hlt he

/-- What `repr` shows stays within the comment. -/
theorem cRun_repr (printable : Char → Bool) (c : Char) : cRun .comment (pyRepr printable c) = (.comment, []) := by
  by_cases h : c = '*'
  · subst h
    have : pyRepr printable '*' = ['\'', '*', '\''] := by rfl
    rw [this]
    decide
  · refine cRun_comment ?_
    unfold pyRepr
    have h1 := hexLower_star
    have h' : '*' ≠ c := fun he => h he.symm
    split_ifs <;> simp [h1, h']

/-- The token written for a text. -/
def charTok : LVal → CTok
  | .str [c] => .word ("0x".toList ++ hex4 c.toNat ++ ['u'])
  | _ => .word "WCHAR_NONE".toList

theorem hexDigit_word : ∀ d < 16, wordChar (Lulua.hexDigit d) = true := by decide

theorem hex4_word (n : Nat) : ∀ c ∈ hex4 n, wordChar c = true := by
  intro c hc
  unfold hex4 at hc
  rcases List.mem_append.1 hc with h | h
  · rw [List.eq_of_mem_replicate h]
    decide
  · obtain ⟨d, hd, rfl⟩ := List.mem_map.1 h
    exact hexDigit_word d (Nat.digits_lt_base (by omega) (List.mem_reverse.1 hd))

theorem wcharText_toks {printable : Char → Bool} {v : LVal} {t : Text} (h : wcharText printable v = .ok t) : Toks t [charTok v] := by
  unfold wcharText at h
  split at h
  · cases h
    exact IsWord.toks ⟨by decide, by decide⟩
  · cases h
  · rename_i c
    cases h
    have hw : IsWord ("0x".toList ++ hex4 c.toNat ++ ['u']) :=
      ⟨by simp, by
        intro d hd
        rcases List.mem_append.1 hd with hd | hd
        · rcases List.mem_append.1 hd with hd | hd
          · exact (by decide : ∀ d ∈ "0x".toList, wordChar d = true) d hd
          · exact hex4_word _ d hd
        · exact (by decide : ∀ d ∈ ['u'], wordChar d = true) d hd⟩
    have hclosed : Closed (" /*".toList ++ pyRepr printable c ++ "*/".toList) [] := by
      unfold Closed
      rw [List.append_assoc, cRun_append, show cRun .start " /*".toList = (.comment, []) by decide, cRun_append, cRun_repr]
      decide
    have := (hw.toks.close hclosed (c := ' ') (r := "/*".toList ++ pyRepr printable c ++ "*/".toList) (by simp) (by decide)).toks
    have e : "0x".toList ++ hex4 c.toNat ++ ['u'] ++ (" /*".toList ++ pyRepr printable c ++ "*/".toList) =
        "0x".toList ++ hex4 c.toNat ++ "u /*".toList ++ pyRepr printable c ++ "*/".toList := by simp
    rw [e] at this
    exact this
  · cases h

/-- Tokens separated by commas. -/
def commas (ts : List CTok) : List CTok := ts.intersperse (.punct ',')

theorem joined_toks {α : Type} {f : α → Py Text} {g : α → CTok} (hf : ∀ v t, f v = .ok t → Toks t [g v]) :
    ∀ {vs : List α} {ts : List Text}, List.Forall₂ (fun v t => f v = .ok t) vs ts → Toks (", ".toList.intercalate ts) (commas (vs.map g))
  | [], [], _ => fun c _ r => rfl
  | [v], [t], .cons h .nil => by
    have e : ", ".toList.intercalate [t] = t := by simp [List.intercalate]
    rw [e]
    exact hf v t h
  | v :: w :: vs, t :: u :: ts, .cons h hs => by
    have ih := joined_toks hf hs
    have e : ", ".toList.intercalate (t :: u :: ts) = t ++ (", ".toList ++ ", ".toList.intercalate (u :: ts)) := by
      simp [List.intercalate]
    rw [e, show commas ((v :: w :: vs).map g) = [g v] ++ ([.punct ','] ++ commas ((w :: vs).map g)) from rfl]
    have hc : Closed ", ".toList [.punct ','] := by decide
    exact (hf v t h).append (hc.append_toks ih) (c := ',') (r := ' ' :: ", ".toList.intercalate (u :: ts)) rfl (by decide)

/-! ### Lines -/

/-- What is assumed about the names of virtual keys: they are words of C, not the number zero, and differ. -/
structure CNames (vkName : VkVal → Text) : Prop where
  word : ∀ v, IsWord (vkName v)
  zero : ∀ v, vkName v ≠ ['0']
  inj : ∀ v w, vkName v = vkName w → v = w

def rowToks (vkName : VkVal → Text) (e : CharEntry) : List CTok :=
  [.punct '{'] ++ ([.word (vkName e.1)] ++ ([.punct ','] ++ ([.word (natText e.2.1)] ++ ([.punct ',', .punct '{'] ++
    (commas (e.2.2.map charTok) ++ [.punct '}', .punct '}', .punct ','])))))

theorem wrowText_closed {printable : Char → Bool} {vkName : VkVal → Text} (hn : CNames vkName) {e : CharEntry} {t : Text}
    (h : wrowText printable vkName e = .ok t) : Closed t (rowToks vkName e) := by
  simp only [wrowText, bind_ok_iff, Except.ok.injEq] at h
  obtain ⟨chars, h1, rfl⟩ := h
  have h2 := joined_toks (fun v t => wcharText_toks (printable := printable)) ((mapM_ok_iff _ _ _).1 h1)
  have a1 : Closed "\t{".toList [.punct '{'] := by decide
  have a2 : Closed ", ".toList [.punct ','] := by decide
  have a3 : Closed ", {".toList [.punct ',', .punct '{'] := by decide
  have a4 : Closed "}},".toList [.punct '}', .punct '}', .punct ','] := by decide
  have b4 := h2.close a4 (c := '}') (r := "},".toList) rfl (by decide)
  have b3 := a3.append b4
  have b2 := (natText_word e.2.1).toks.close b3 (c := ',') (r := " {".toList ++ _) rfl (by decide)
  have b1 := (hn.word e.1).toks.close (a2.append b2) (c := ',') (r := " ".toList ++ _) rfl (by decide)
  have := a1.append b1
  unfold rowToks
  simp only [List.append_assoc] at this ⊢
  exact this

theorem join_closed {lines : List Text} {ts : List (List CTok)} (h : List.Forall₂ Closed lines ts) :
    Closed (['\n'].intercalate lines) ts.flatten := by
  induction h with
  | nil => rfl
  | cons h hs ih =>
    cases hs with
    | nil => simpa [List.intercalate] using h
    | cons h' hs' =>
      rename_i t x u y us ys
      have e : ['\n'].intercalate (t :: u :: us) = t ++ (['\n'] ++ ['\n'].intercalate (u :: us)) := by simp [List.intercalate]
      rw [e, List.flatten_cons]
      have hn : Closed ['\n'] [] := by decide
      have := hn.append ih
      rw [List.nil_append] at this
      exact h.append this

/-! ### Tables -/

def headToks (n : Nat) (p : Text) : List CTok :=
  [.word "static".toList, .word ("VK_TO_WCHARS".toList ++ natText n), .word (wtableName n p), .punct '[', .punct ']', .punct '=', .punct '{']

/-- `{0, 0, {0, …}},`. -/
def endToks (n : Nat) : List CTok :=
  [.punct '{', .word ['0'], .punct ',', .word ['0'], .punct ',', .punct '{'] ++
    ((List.replicate n [CTok.word ['0'], .punct ',']).flatten ++ [.punct '}', .punct '}', .punct ','])

theorem wtableName_word (n : Nat) {p : Text} (hp : ∀ c ∈ p, wordChar c = true) : IsWord (wtableName n p) := by
  unfold wtableName
  rw [List.append_assoc]
  refine IsWord.append ⟨by decide, by decide⟩ fun c hc => ?_
  rcases List.mem_append.1 hc with hc | hc
  · exact hp c hc
  · exact (natText_word n).2 c hc

theorem comment_closed {t : Text} (h : '*' ∉ t) : Closed ("/*".toList ++ t ++ "*/".toList) [] := by
  unfold Closed
  rw [List.append_assoc, cRun_append, show cRun .start "/*".toList = (.comment, []) by decide, cRun_append, cRun_comment h]
  decide

theorem natText_star (n : Nat) : '*' ∉ natText n := fun h => by
  have := (natText_word n).2 _ h
  revert this
  decide

theorem zeros_closed : ∀ n, Closed (List.replicate n "0, ".toList).flatten (List.replicate n [CTok.word ['0'], .punct ',']).flatten
  | 0 => by decide
  | n + 1 => by
    rw [List.replicate_succ, List.flatten_cons, List.replicate_succ, List.flatten_cons]
    exact Closed.append (by decide) (zeros_closed n)

/-- The tokens of the table. -/
def tableToks (vkName : VkVal → Text) (n : Nat) (g : List CharEntry) (p : Text) : List CTok :=
  headToks n p ++ ((g.map (rowToks vkName)).flatten ++ (endToks n ++ [.punct '}', .punct ';']))

theorem wtableLines_closed {printable : Char → Bool} {vkName : VkVal → Text} (hn : CNames vkName) {n : Nat} {g : List CharEntry}
    {p : Text} (hp : ∀ c ∈ p, wordChar c = true) {ls : List Text} (h : wtableLines printable vkName n g p = .ok ls) :
    ∃ tss, List.Forall₂ Closed ls tss ∧ tss.flatten = tableToks vkName n g p := by
  simp only [wtableLines, bind_ok_iff, Except.ok.injEq] at h
  obtain ⟨rows, h1, rfl⟩ := h
  have hrows : List.Forall₂ Closed rows (g.map (rowToks vkName)) := by
    rw [List.forall₂_map_right_iff]
    exact (((mapM_ok_iff _ _ _).1 h1).imp fun e t h => wrowText_closed hn h).flip
  refine ⟨[[], headToks n p] ++ g.map (rowToks vkName) ++ [endToks n, [.punct '}', .punct ';'], []], ?_, ?_⟩
  · refine List.rel_append (List.rel_append ?_ hrows) ?_
    · refine .cons ?_ (.cons ?_ .nil)
      · have := comment_closed (t := " map virtual key to flags and ".toList ++ natText n ++ " unicode output characters ".toList) (by
          simp only [List.mem_append, not_or]
          exact ⟨⟨by decide, natText_star n⟩, by decide⟩)
        have e : "/*".toList ++ (" map virtual key to flags and ".toList ++ natText n ++ " unicode output characters ".toList) ++ "*/".toList =
            "/* map virtual key to flags and ".toList ++ natText n ++ " unicode output characters */".toList := by
          simp
        rw [e] at this
        exact this
      · have b0 : Closed "[] = {".toList [.punct '[', .punct ']', .punct '=', .punct '{'] := by decide
        have b1 := (wtableName_word n hp).toks.close b0 (c := '[') (r := "] = {".toList) rfl (by decide)
        have b2 : Closed [' '] [] := by decide
        have b3 : IsWord ("VK_TO_WCHARS".toList ++ natText n) := IsWord.append ⟨by decide, by decide⟩ (natText_word n).2
        have b4 := b3.toks.close (b2.append b1) (c := ' ') (r := _) rfl (by decide)
        have b5 : Closed "static ".toList [.word "static".toList] := by decide
        have b6 := b5.append b4
        have e : "static ".toList ++ ("VK_TO_WCHARS".toList ++ natText n ++ ([' '] ++ (wtableName n p ++ "[] = {".toList))) =
            "static VK_TO_WCHARS".toList ++ natText n ++ [' '] ++ wtableName n p ++ "[] = {".toList := by simp
        rw [e] at b6
        exact b6
    · refine .cons ?_ (.cons (by decide) (.cons (by decide) .nil))
      have b1 : Closed "\t{0, 0, {".toList [.punct '{', .word ['0'], .punct ',', .word ['0'], .punct ',', .punct '{'] := by decide
      have b2 : Closed "}},".toList [.punct '}', .punct '}', .punct ','] := by decide
      have := b1.append ((zeros_closed n).append b2)
      rw [List.append_assoc]
      exact this
  · simp [tableToks]

end Lulua
