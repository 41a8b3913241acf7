import Verif.Model.IntLimit
import Verif.Proofs.OptArgs

/-! # C44: pins and mutations with python's limit on the number of digits -/

namespace Lulua.Props
open Lulua Spec

private theorem intSign_decimal (n : Int) : (intSign (decimal n)).2 = Nat.toDigits 10 n.natAbs := by
  rcases decimal_cases n with ⟨h1, h⟩ | ⟨h1, h⟩
  · rw [h, show n.natAbs = n.toNat by omega]
    cases e : Nat.toDigits 10 n.toNat with
    | nil => exact absurd e Nat.toDigits_ne_nil
    | cons c cs =>
      have hc : c.isDigit := Nat.isDigit_of_mem_toDigits (b := 10) (n := n.toNat) (by omega) (by omega) (by rw [e]; simp)
      unfold intSign
      split
      · rename_i heq; simp only [List.cons.injEq] at heq; rw [heq.1] at hc; simp [Char.isDigit] at hc
      · rename_i heq; simp only [List.cons.injEq] at heq; rw [heq.1] at hc; simp [Char.isDigit] at hc
      · rfl
  · rw [h, show n.natAbs = (-n).toNat by omega]
    rfl

private theorem intDigitCount_decimal {u : UniNum} (hu : PlainNum u) (n : Int) :
    intDigitCount u (decimal n) = (Nat.toDigits 10 n.natAbs).length := by
  have hs : pyStrip u.space (decimal n) = decimal n := by
    apply pyStrip_all
    intro c hc
    rcases decimal_chars hc with rfl | h
    · exact hu.minus
    · exact (hu.digit c h).2
  unfold intDigitCount
  rw [hs, intSign_decimal, List.countP_eq_length]
  intro c hc
  rw [(hu.digit c (Nat.isDigit_of_mem_toDigits (by omega) (by omega) hc)).1]
  rfl

/-- A number in decimal notation is read if it has no more digits than allowed. -/
private theorem pyIntLimited_decimal {u : UniNum} (hu : PlainNum u) {limit : Nat} (hl : 0 < limit) (n : Int) :
    pyIntLimited u limit (decimal n) = if n.natAbs < 10 ^ limit then .ok n else .error .valueError := by
  unfold pyIntLimited
  rw [intDigitCount_decimal hu, pyInt_decimal hu]
  have h := Nat.length_toDigits_le_iff (b := 10) (n := n.natAbs) (by omega) hl
  by_cases hn : n.natAbs < 10 ^ limit
  · rw [if_pos hn, if_neg (by have := h.2 hn; omega)]
  · rw [if_neg hn, if_pos ⟨by omega, by have := mt h.1 hn; omega⟩]

private theorem mapM_either {α β : Type} {e : PyErr} (f : α → Py β) (P : α → Prop) [DecidablePred P] (g : α → β)
    (l : List α) (h : ∀ x ∈ l, f x = if P x then .ok (g x) else .error e) :
    l.mapM f = if ∀ x ∈ l, P x then .ok (l.map g) else .error e := by
  induction l with
  | nil => simp [pure, Except.pure]
  | cons x l ih =>
    rw [List.mapM_cons, h x (by simp), ih fun y hy => h y (by simp [hy])]
    by_cases hx : P x
    · by_cases hall : ∀ y ∈ l, P y
      · rw [if_pos hx, if_pos hall, if_pos (by simpa using ⟨hx, hall⟩)]
        rfl
      · rw [if_pos hx, if_neg hall, if_neg (by simp only [List.forall_mem_cons, not_and]; exact fun _ => hall)]
        rfl
    · have hall : ¬ ∀ y ∈ x :: l, P y := fun h => hx (h x (by simp))
      rw [if_neg hx, if_neg hall]
      rfl

/-- **C44** (limit): with a limit, pins are read back exactly if all of their layers have no more digits than allowed; otherwise there is
`ValueError`. -/
theorem C44_limit (u : UniNum) (hu : PlainNum u) (limit : Nat) (hl : 0 < limit) (ps : List (Int × Option Text)) (hne : ps ≠ [])
    (hs : ∀ p ∈ ps, ∀ pat, p.2 = some pat → ';' ∉ pat) :
    parsePinLimited u limit (writePins ps) =
      if ∀ p ∈ ps, p.1.natAbs < 10 ^ limit then .ok ps else .error .valueError := by
  unfold parsePinLimited writePins
  rw [List.splitOn_intercalate]
  · rw [List.mapM_map]
    have := mapM_either (e := PyErr.valueError) (fun p => parseOnePinLimited u limit (writePin p))
      (fun p : Int × Option Text => p.1.natAbs < 10 ^ limit) id ps (by
        rintro ⟨n, pat⟩ -
        have hc : ',' ∉ decimal n := decimal_not_mem (by decide) (by decide)
        cases pat with
        | none =>
          simp only [parseOnePinLimited, writePin, splitFirst_none hc, pyIntLimited_decimal hu hl]
          split_ifs <;> rfl
        | some pat =>
          simp only [parseOnePinLimited, writePin, splitFirst_some hc, pyIntLimited_decimal hu hl]
          split_ifs <;> rfl)
    simpa [Function.comp_def] using this
  · intro l hl
    obtain ⟨⟨n, pat⟩, hp, rfl⟩ := List.mem_map.1 hl
    have hd : ';' ∉ decimal n := decimal_not_mem (by decide) (by decide)
    cases pat with
    | none => exact hd
    | some pat =>
      simp only [writePin, List.mem_append, List.mem_cons, not_or]
      exact ⟨hd, by decide, hs _ hp pat rfl⟩
  · simpa using hne

/-- **C44** (limit, mutations): the same for `layer,button:layer,button`. -/
theorem C44_limit_mutation (u : UniNum) (hu : PlainNum u) (limit : Nat) (hl : 0 < limit) (m : (Int × Text) × (Int × Text))
    (h1 : ',' ∉ m.1.2 ∧ ':' ∉ m.1.2) (h2 : ',' ∉ m.2.2 ∧ ':' ∉ m.2.2) :
    parseMutationLimited u limit (writeMutation m) =
      if m.1.1.natAbs < 10 ^ limit ∧ m.2.1.natAbs < 10 ^ limit then .ok m else .error .valueError := by
  obtain ⟨⟨i, a⟩, ⟨j, b⟩⟩ := m
  have hc : ∀ n, ',' ∉ decimal n := fun n => decimal_not_mem (by decide) (by decide)
  have hx : ∀ (n : Int) (t : Text), ':' ∉ t → ':' ∉ decimal n ++ ',' :: t := by
    intro n t ht
    simp only [List.mem_append, List.mem_cons, not_or]
    exact ⟨decimal_not_mem (by decide) (by decide), by decide, ht⟩
  have h3 := splitTwo_ok (hx i a h1.2) (hx j b h2.2)
  simp only [parseMutationLimited, writeMutation, h3, splitTwo_ok (hc i) h1.1, splitTwo_ok (hc j) h2.1,
    pyIntLimited_decimal hu hl, bind, Except.bind]
  by_cases hi : i.natAbs < 10 ^ limit <;> by_cases hj : j.natAbs < 10 ^ limit <;> simp [hi, hj]

/-- **C44** (no limit): a limit of zero is none. -/
theorem C44_unlimited (u : UniNum) (s : Text) : parsePinLimited u 0 s = parsePin u s := by
  have h : parseOnePinLimited u 0 = parseOnePin u := by
    funext p
    simp [parseOnePinLimited, parseOnePin, pyIntLimited]
  unfold parsePinLimited parsePin
  rw [h]

example : (([(4, some ['a']), (12, none)] : List (Int × Option Text)) ≠ []) ∧
    (∀ p ∈ ([(4, some ['a']), (12, none)] : List (Int × Option Text)), ∀ pat, p.2 = some pat → ';' ∉ pat) ∧
    ¬ ∀ p ∈ ([(4, some ['a']), (12, none)] : List (Int × Option Text)), p.1.natAbs < 10 ^ 1 := by
  refine ⟨by simp, ?_, by simp⟩
  simp

end Lulua.Props
