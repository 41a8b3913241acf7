import Verif.Spec.Output
import Verif.Proofs.Xmodmap

/-!
# Lemmas about the files written
-/

namespace Lulua
open Spec

/-! ### Writing -/

theorem writePieces_ok {ps : List (Py Text)} : ∀ {t : Text} {ts : List Text}, ps = ts.map .ok →
    writePieces t ps = ⟨some (t ++ ts.flatten), .ok ()⟩ := by
  induction ps with
  | nil =>
    intro t ts h
    cases ts with
    | nil => simp [writePieces]
    | cons a ts => cases h
  | cons p ps ih =>
    intro t ts h
    cases ts with
    | nil => cases h
    | cons a ts =>
      simp only [List.map_cons, List.cons.injEq] at h
      obtain ⟨rfl, h⟩ := h
      rw [writePieces, ih h]
      simp

theorem writePieces_error {ps : List (Py Text)} : ∀ {t : Text} {ts : List Text} {e : PyErr} {r : List (Py Text)},
    ps = ts.map .ok ++ .error e :: r → writePieces t ps = ⟨some (t ++ ts.flatten), .error e⟩ := by
  induction ps with
  | nil => intro t ts e r h; cases ts <;> cases h
  | cons p ps ih =>
    intro t ts e r h
    cases ts with
    | nil =>
      simp only [List.map_nil, List.nil_append, List.cons.injEq] at h
      obtain ⟨rfl, h⟩ := h
      simp [writePieces]
    | cons a ts =>
      simp only [List.map_cons, List.cons_append, List.cons.injEq] at h
      obtain ⟨rfl, h⟩ := h
      rw [writePieces, ih h]
      simp

/-- Either all pieces work or there is a first one that does not. -/
theorem pieces_cases (ps : List (Py Text)) : (∃ ts : List Text, ps = ts.map .ok) ∨
    ∃ (ts : List Text) (e : PyErr) (r : List (Py Text)), ps = ts.map .ok ++ .error e :: r := by
  induction ps with
  | nil => exact .inl ⟨[], rfl⟩
  | cons p ps ih =>
    cases p with
    | error e => exact .inr ⟨[], e, ps, rfl⟩
    | ok t =>
      rcases ih with ⟨ts, rfl⟩ | ⟨ts, e, r, rfl⟩
      · exact .inl ⟨t :: ts, rfl⟩
      · exact .inr ⟨t :: ts, e, r, rfl⟩

theorem map_ok_of_mapM {α : Type} {f : α → Py Text} : ∀ {l : List α} {ts : List Text}, l.mapM f = .ok ts → l.map f = ts.map .ok := by
  intro l
  induction l with
  | nil =>
    intro ts h
    cases h
    rfl
  | cons a l ih =>
    intro ts h
    simp only [List.mapM_cons, bind_ok_iff] at h
    obtain ⟨b, h1, bs, h2, h3⟩ := h
    cases h3
    simp [h1, ih h2]

/-! ### Words and lines -/

theorem wordsFrom_word {w : Text} (hw : ∀ c ∈ w, blankChar c = false) : ∀ (cur r : Text), wordsFrom cur (w ++ r) = wordsFrom (cur ++ w) r := by
  induction w with
  | nil => simp
  | cons c w ih =>
    intro cur r
    rw [List.cons_append, wordsFrom, hw c List.mem_cons_self]
    simp only [Bool.false_eq_true, if_false]
    rw [ih fun x hx => hw x (List.mem_cons_of_mem _ hx)]
    simp

theorem lineWords_cons {w : Text} (hw : OneWord w) {b : Char} (hb : blankChar b = true) (r : Text) :
    lineWords (w ++ b :: r) = w :: lineWords r := by
  unfold lineWords
  rw [wordsFrom_word fun c hc => (hw.2 c hc).1, List.nil_append, wordsFrom, if_pos hb, if_neg hw.1]

theorem lineWords_blank {b : Char} (hb : blankChar b = true) (r : Text) : lineWords (b :: r) = lineWords r := by
  unfold lineWords
  rw [wordsFrom, if_pos hb, if_pos rfl]

theorem lineWords_one {w : Text} (hw : OneWord w) : lineWords w = [w] := by
  unfold lineWords
  have h := wordsFrom_word (fun c hc => (hw.2 c hc).1) [] []
  rw [List.append_nil, List.nil_append] at h
  rw [h, wordsFrom, if_neg hw.1]

theorem lineWords_join {b : Char} (hb : blankChar b = true) : ∀ {ws : List Text}, (∀ w ∈ ws, OneWord w) → lineWords (joinTexts b ws) = ws := by
  intro ws
  unfold joinTexts
  induction ws with
  | nil => intro _; rfl
  | cons w ws ih =>
    intro h
    cases ws with
    | nil =>
      rw [List.intercalate_singleton]
      exact lineWords_one (h w List.mem_cons_self)
    | cons v ws =>
      rw [List.intercalate_cons_cons, List.append_assoc, List.singleton_append, lineWords_cons (h w List.mem_cons_self) hb,
        ih fun x hx => h x (List.mem_cons_of_mem _ hx)]

theorem mem_joinTexts {b c : Char} : ∀ {ts : List Text}, c ∈ joinTexts b ts → c = b ∨ ∃ t ∈ ts, c ∈ t := by
  intro ts
  unfold joinTexts
  induction ts with
  | nil => intro h; cases h
  | cons t ts ih =>
    intro h
    cases ts with
    | nil =>
      rw [List.intercalate_singleton] at h
      exact .inr ⟨t, List.mem_cons_self, h⟩
    | cons v ts =>
      rw [List.intercalate_cons_cons, List.append_assoc, List.mem_append] at h
      rcases h with h | h
      · exact .inr ⟨t, List.mem_cons_self, h⟩
      · rw [List.singleton_append, List.mem_cons] at h
        rcases h with h | h
        · exact .inl h
        · rcases ih h with h | ⟨s, hs, h⟩
          · exact .inl h
          · exact .inr ⟨s, List.mem_cons_of_mem _ hs, h⟩

/-- Lines written one after the other. -/
def linesText (ls : List Text) : Text := (ls.map (· ++ ['\n'])).flatten

theorem linesText_join (ls : List Text) : linesText ls = joinTexts '\n' (ls ++ [[]]) := by
  unfold linesText joinTexts
  induction ls with
  | nil => rfl
  | cons l ls ih =>
    cases ls with
    | nil => simp [List.intercalate_cons_cons]
    | cons m ls =>
      rw [List.cons_append, List.cons_append, List.intercalate_cons_cons, List.map_cons, List.flatten_cons, ih, List.cons_append]

theorem linesText_split {ls : List Text} (h : ∀ l ∈ ls, '\n' ∉ l) : (linesText ls).splitOn '\n' = ls ++ [[]] := by
  rw [linesText_join]
  unfold joinTexts
  apply List.splitOn_intercalate
  · intro l hl
    rcases List.mem_append.1 hl with hl | hl
    · exact h l hl
    · simp [List.mem_singleton.1 hl]
  · simp

theorem linesText_append (a b : List Text) : linesText (a ++ b) = linesText a ++ linesText b := by simp [linesText]

theorem linesText_flatMap {α : Type} (f : α → List Text) (l : List α) : linesText (l.flatMap f) = (l.map fun x => linesText (f x)).flatten := by
  induction l with
  | nil => rfl
  | cons a l ih => simp [linesText_append, ih]

/-! ### xmodmap -/

theorem xmodmap_eq (truthy : Nat → Bool) (t : InternTable) (L : KeyboardLayout) (kb : PhysicalKeyboard) :
    xmodmap truthy t L kb = (xmodmapCodes truthy L kb).bind fun d => d.mapM (xmodmapLine t) := by
  unfold xmodmap xmodmapCodes
  cases xmodmapColumns.foldlM (xmodmapColumn truthy L kb) [] <;> rfl

/-- The lines before those of the buttons. -/
def xmodmapTop (name now : Text) : List Text :=
  ["!! auto-generated xmodmap".toList, "!! layout: ".toList ++ name, "!! generated: ".toList ++ now, [],
    "clear Lock".toList, "clear Mod2".toList, "clear Mod3".toList, "clear Mod5".toList]

def xmodmapBottom : List Text := ["add Mod3 = ISO_First_Group".toList, "add Mod5 = ISO_Level3_Shift".toList]

/-- The lines of a button. -/
def xmodmapPair (ct : ScVal → Text) (x : XLine) : List Text :=
  ["!! ".toList ++ x.name.toList, "keycode ".toList ++ ct x.keycode ++ " = ".toList ++ joinTexts '\t' x.symbols]

theorem xmodmapHeader_lines (name now : Text) : xmodmapHeader name now = linesText (xmodmapTop name now) := by
  rw [linesText_join]
  rfl

theorem xmodmapFooter_lines : xmodmapFooter = linesText xmodmapBottom := by
  rw [linesText_join]
  rfl

theorem xmodmapText_lines (ct : ScVal → Text) (x : XLine) : xmodmapText ct x = linesText (xmodmapPair ct x) := by
  have h : ∀ a b c d e f : Text, a ++ b ++ '\n' :: c ++ d ++ e ++ f ++ ['\n'] = linesText [a ++ b, c ++ d ++ e ++ f] := by
    intro a b c d e f
    simp [linesText]
  exact h _ _ _ _ _ _

end Lulua
