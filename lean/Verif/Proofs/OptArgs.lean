import Verif.Spec.OptArgs
import Verif.Proofs.Carpalx

/-!
# Proofs about the command line of the optimizer
-/

namespace Lulua
open Spec

theorem intDigits_eq {u : UniNum} (hu : PlainNum u) (ds : Text) (hd : ∀ c ∈ ds, c.isDigit) (acc : Nat) (after : Bool)
    (h : after = true ∨ ds ≠ []) : intDigits u after acc ds = some (Nat.ofDigitChars 10 ds acc) := by
  induction ds generalizing acc after with
  | nil => simpa [intDigits] using h
  | cons c ds ih =>
    have hc := hd c (by simp)
    have h_ : c ≠ '_' := by rintro rfl; simp [Char.isDigit] at hc
    rw [intDigits, if_neg h_, (hu.digit c hc).1, Nat.ofDigitChars_cons]
    simp only
    rw [ih (fun x hx => hd x (by simp [hx])) _ _ (.inl rfl), Nat.mul_comm]
    rfl

theorem dropWhile_concat {α : Type} (p : α → Bool) (l : List α) (c : α) (hc : p c = false) :
    (l ++ [c]).dropWhile p = l.dropWhile p ++ [c] := by
  induction l with
  | nil => simp [List.dropWhile, hc]
  | cons x l ih =>
    rw [List.cons_append, List.dropWhile, List.dropWhile]
    cases p x with
    | true => simpa using ih
    | false => rfl

theorem pyStrip_cons {p : Char → Bool} {c : Char} {cs : Text} (hc : p c = false) :
    ∃ r, pyStrip p (c :: cs) = c :: r := by
  refine ⟨(cs.reverse.dropWhile p).reverse, ?_⟩
  unfold pyStrip
  rw [List.dropWhile_cons_of_neg (by simp [hc]), List.reverse_cons, dropWhile_concat _ _ _ hc]
  simp

theorem pyStrip_all {p : Char → Bool} {l : Text} (h : ∀ c ∈ l, p c = false) : pyStrip p l = l := by
  have : ∀ l : Text, (∀ c ∈ l, p c = false) → l.dropWhile p = l := by
    intro l h
    cases l with
    | nil => rfl
    | cons c l => exact List.dropWhile_cons_of_neg (by simp [h c (by simp)])
  unfold pyStrip
  rw [this l h, this l.reverse (fun c hc => h c (by simpa using hc)), List.reverse_reverse]

theorem decimal_cases (n : Int) :
    (0 ≤ n ∧ decimal n = Nat.toDigits 10 n.toNat) ∨ (n < 0 ∧ decimal n = '-' :: Nat.toDigits 10 (-n).toNat) := by
  cases n with
  | ofNat k =>
    left
    refine ⟨Int.natCast_nonneg k, ?_⟩
    change (Nat.repr k).toList = _
    rw [Nat.toList_repr]
    rfl
  | negSucc k =>
    right
    refine ⟨Int.negSucc_lt_zero k, ?_⟩
    change ("-" ++ Nat.repr (k + 1)).toList = _
    rw [String.toList_append, Nat.toList_repr]
    rfl

theorem decimal_chars {n : Int} {c : Char} (hc : c ∈ decimal n) : c = '-' ∨ c.isDigit := by
  rcases decimal_cases n with ⟨_, h⟩ | ⟨_, h⟩ <;> rw [h] at hc
  · exact .inr (Nat.isDigit_of_mem_toDigits (by omega) (by omega) hc)
  · rcases List.mem_cons.1 hc with rfl | hc
    · exact .inl rfl
    · exact .inr (Nat.isDigit_of_mem_toDigits (by omega) (by omega) hc)

theorem decimal_not_mem {n : Int} {c : Char} (h1 : c ≠ '-') (h2 : c.isDigit = false) : c ∉ decimal n := by
  intro h
  rcases decimal_chars h with rfl | h
  · exact h1 rfl
  · rw [h2] at h; simp at h

theorem pyInt_decimal {u : UniNum} (hu : PlainNum u) (n : Int) : pyInt u (decimal n) = .ok n := by
  have hs : pyStrip u.space (decimal n) = decimal n := by
    apply pyStrip_all
    intro c hc
    rcases decimal_chars hc with rfl | h
    · exact hu.minus
    · exact (hu.digit c h).2
  unfold pyInt
  rw [hs]
  have hne : ∀ k, Nat.toDigits 10 k ≠ [] := fun k => Nat.toDigits_ne_nil
  have hdig : ∀ k, ∀ c ∈ Nat.toDigits 10 k, c.isDigit := fun k c hc =>
    Nat.isDigit_of_mem_toDigits (by omega) (by omega) hc
  rcases decimal_cases n with ⟨h1, h⟩ | ⟨h1, h⟩
  · have hsign : intSign (decimal n) = (false, Nat.toDigits 10 n.toNat) := by
      rw [h]
      cases e : Nat.toDigits 10 n.toNat with
      | nil => exact absurd e (hne _)
      | cons c cs =>
        have hc := hdig n.toNat c (by rw [e]; simp)
        unfold intSign
        split
        · rename_i heq; simp only [List.cons.injEq] at heq; rw [heq.1] at hc; simp [Char.isDigit] at hc
        · rename_i heq; simp only [List.cons.injEq] at heq; rw [heq.1] at hc; simp [Char.isDigit] at hc
        · rfl
    simp only [hsign]
    rw [intDigits_eq hu _ (hdig _) 0 false (.inr (hne _)), Nat.ofDigitChars_ten_toDigits]
    simp [h1]
  · have hsign : intSign (decimal n) = (true, Nat.toDigits 10 (-n).toNat) := by rw [h]; rfl
    simp only [hsign]
    rw [intDigits_eq hu _ (hdig _) 0 false (.inr (hne _)), Nat.ofDigitChars_ten_toDigits]
    simp only [if_true, Except.ok.injEq]
    omega

theorem pyInt_letter {u : UniNum} (hu : PlainNum u) {c : Char} {cs : Text} (hc : c.isAlpha) :
    pyInt u (c :: cs) = .error .valueError := by
  obtain ⟨r, hr⟩ := pyStrip_cons (p := u.space) (cs := cs) (hu.letter c hc).2
  have hne : c ≠ '-' ∧ c ≠ '+' ∧ c ≠ '_' := by
    refine ⟨?_, ?_, ?_⟩ <;> rintro rfl <;> simp [Char.isAlpha, Char.isUpper, Char.isLower] at hc
  have hsign : intSign (c :: r) = (false, c :: r) := by
    unfold intSign
    split
    · rename_i heq; simp only [List.cons.injEq] at heq; exact absurd heq.1 hne.1
    · rename_i heq; simp only [List.cons.injEq] at heq; exact absurd heq.1 hne.2.1
    · rfl
  unfold pyInt
  rw [hr]
  simp only [hsign, intDigits, if_neg hne.2.2, (hu.letter c hc).1]

theorem pyInt_empty (u : UniNum) : pyInt u [] = .error .valueError := rfl

theorem splitFirst_none {c : Char} {l : Text} (h : c ∉ l) : splitFirst c l = (l, none) := by
  induction l with
  | nil => rfl
  | cons x l ih =>
    simp only [List.mem_cons, not_or] at h
    rw [splitFirst, if_neg (Ne.symm h.1), ih h.2]

theorem splitFirst_some {c : Char} {l r : Text} (h : c ∉ l) : splitFirst c (l ++ c :: r) = (l, some r) := by
  induction l with
  | nil => simp [splitFirst]
  | cons x l ih =>
    simp only [List.mem_cons, not_or] at h
    rw [List.cons_append, splitFirst, if_neg (Ne.symm h.1), ih h.2]

theorem parseOnePin_write {u : UniNum} (hu : PlainNum u) (p : Int × Option Text) : parseOnePin u (writePin p) = .ok p := by
  obtain ⟨n, pat⟩ := p
  have hc : ',' ∉ decimal n := decimal_not_mem (by decide) (by decide)
  cases pat with
  | none =>
    simp only [parseOnePin, writePin, splitFirst_none hc, pyInt_decimal hu, bind, Except.bind]
  | some pat =>
    simp only [parseOnePin, writePin, splitFirst_some hc, pyInt_decimal hu, bind, Except.bind]

theorem parsePin_writePins {u : UniNum} (hu : PlainNum u) {ps : List (Int × Option Text)} (hne : ps ≠ [])
    (hs : ∀ p ∈ ps, ∀ pat, p.2 = some pat → ';' ∉ pat) : parsePin u (writePins ps) = .ok ps := by
  unfold parsePin writePins
  rw [List.splitOn_intercalate]
  · rw [mapM_ok_iff, List.forall₂_map_left_iff, List.forall₂_same]
    exact fun p _ => parseOnePin_write hu p
  · intro l hl
    obtain ⟨⟨n, pat⟩, hp, rfl⟩ := List.mem_map.1 hl
    have hd : ';' ∉ decimal n := decimal_not_mem (by decide) (by decide)
    cases pat with
    | none => exact hd
    | some pat =>
      simp only [writePin, List.mem_append, List.mem_cons, not_or]
      exact ⟨hd, by decide, hs _ hp pat rfl⟩
  · simpa using hne

theorem splitOn_two {c : Char} {a b : Text} (ha : c ∉ a) (hb : c ∉ b) : (a ++ c :: b).splitOn c = [a, b] := by
  have := List.splitOn_intercalate (ls := [a, b]) c (by simp [ha, hb]) (by simp)
  simpa [List.intercalate, List.intersperse] using this

theorem splitTwo_ok {c : Char} {a b : Text} (ha : c ∉ a) (hb : c ∉ b) : splitTwo c (a ++ c :: b) = .ok (a, b) := by
  simp [splitTwo, splitOn_two ha hb]

theorem parseMutation_write {u : UniNum} (hu : PlainNum u) (m : (Int × Text) × (Int × Text))
    (h1 : ',' ∉ m.1.2 ∧ ':' ∉ m.1.2) (h2 : ',' ∉ m.2.2 ∧ ':' ∉ m.2.2) : parseMutation u (writeMutation m) = .ok m := by
  obtain ⟨⟨i, a⟩, ⟨j, b⟩⟩ := m
  have hc : ∀ n, ',' ∉ decimal n := fun n => decimal_not_mem (by decide) (by decide)
  have hcol : ∀ n, ':' ∉ decimal n := fun n => decimal_not_mem (by decide) (by decide)
  have hx : ∀ (n : Int) (t : Text), ':' ∉ t → ':' ∉ decimal n ++ ',' :: t := by
    intro n t ht
    simp only [List.mem_append, List.mem_cons, not_or]
    exact ⟨hcol n, by decide, ht⟩
  have h3 := splitTwo_ok (hx i a h1.2) (hx j b h2.2)
  simp only [parseMutation, writeMutation, h3, splitTwo_ok (hc i) h1.1, splitTwo_ok (hc j) h2.1, pyInt_decimal hu, bind,
    Except.bind]

/-- What was documented: the layer, a semicolon and the button. -/
theorem parsePin_documented {u : UniNum} (hu : PlainNum u) (n : Int) {c : Char} {cs : Text} (hc : c.isAlpha)
    (hs : ';' ∉ cs) : parsePin u (decimal n ++ ';' :: c :: cs) = .error .valueError := by
  have hsc : ';' ∉ c :: cs := by
    simp only [List.mem_cons, not_or]
    refine ⟨?_, hs⟩
    rintro rfl
    simp [Char.isAlpha, Char.isUpper, Char.isLower] at hc
  have h1 : parseOnePin u (decimal n) = .ok (n, none) := parseOnePin_write hu (n, none)
  have hcomma : c ≠ ',' := by rintro rfl; simp [Char.isAlpha, Char.isUpper, Char.isLower] at hc
  have h2 : parseOnePin u (c :: cs) = .error .valueError := by
    simp only [parseOnePin, splitFirst, if_neg hcomma, pyInt_letter hu hc, bind, Except.bind]
  unfold parsePin
  rw [splitOn_two (decimal_not_mem (by decide) (by decide)) hsc]
  simp only [List.mapM_cons, h1, h2, bind, Except.bind]

end Lulua
