import Verif.Spec.Klc
import Verif.Proofs.Keyboard
import Verif.Proofs.Plot

/-!
# Proofs about the import of KLC files
-/

namespace Lulua
open Spec

/-! ### Comments -/

theorem upTo_none {pat : Text} (hp : pat ≠ []) : ∀ l : Text, upTo pat l = none ↔ ¬ pat <:+: l
  | [] => by simp [upTo, hp]
  | c :: cs => by
    unfold upTo
    rw [List.infix_cons_iff]
    by_cases h : pat.isPrefixOf (c :: cs) = true
    · rw [if_pos h]
      simp [List.isPrefixOf_iff_prefix.1 h]
    · rw [if_neg h]
      rw [List.isPrefixOf_iff_prefix] at h
      simp [upTo_none hp cs, h]

theorem upTo_some {pat : Text} (hp : pat ≠ []) : ∀ {l a : Text}, upTo pat l = some a ↔
    ∃ b, l = a ++ pat ++ b ∧ ¬ pat <:+: a ++ pat.dropLast
  | [], a => by simp [upTo, hp]
  | c :: cs, a => by
    unfold upTo
    by_cases h : pat.isPrefixOf (c :: cs) = true
    · rw [if_pos h]
      rw [List.isPrefixOf_iff_prefix] at h
      obtain ⟨b, hb⟩ := h
      constructor
      · intro h
        cases h
        refine ⟨b, by simpa using hb.symm, ?_⟩
        rintro h
        have := h.length_le
        simp only [List.nil_append, List.length_dropLast] at this
        have : 0 < pat.length := List.length_pos_iff.2 hp
        omega
      · rintro ⟨b', h1, h2⟩
        cases a with
        | nil => rfl
        | cons x a =>
          exfalso
          apply h2
          have h3 : pat <+: c :: cs := ⟨b, hb⟩
          have h4 : (x :: a) ++ pat.dropLast <+: c :: cs := by
            rw [h1, List.append_assoc]
            exact (List.prefix_append_right_inj _).2 ((List.dropLast_prefix _).trans (List.prefix_append _ _))
          exact (List.prefix_of_prefix_length_le h3 h4 (by simp; omega)).isInfix
    · rw [if_neg h]
      rw [List.isPrefixOf_iff_prefix] at h
      rw [Option.map_eq_some_iff]
      constructor
      · rintro ⟨a', h1, rfl⟩
        obtain ⟨b, rfl, h2⟩ := (upTo_some hp).1 h1
        refine ⟨b, rfl, ?_⟩
        rw [List.cons_append, List.infix_cons_iff]
        rintro (h3 | h3)
        · exact h (h3.trans (by
            rw [List.append_assoc]
            exact List.prefix_cons_iff.2 (.inr ⟨_, rfl, (List.prefix_append_right_inj _).2 ((List.dropLast_prefix _).trans (List.prefix_append _ _))⟩)))
        · exact h2 h3
      · rintro ⟨b, h1, h2⟩
        cases a with
        | nil =>
          exact absurd ⟨b, by simpa using h1.symm⟩ h
        | cons x a =>
          simp only [List.cons_append, List.cons.injEq] at h1
          obtain ⟨rfl, rfl⟩ := h1
          refine ⟨a, (upTo_some hp).2 ⟨b, rfl, ?_⟩, rfl⟩
          intro h3
          exact h2 (by rw [List.cons_append]; exact List.infix_cons h3)

/-- The comment is removed as specified. -/
theorem codePart_exists (isSpace : Char → Bool) (line : Text) :
    ∃ code, CodePart line code ∧ klcClean isSpace line = pyStrip isSpace code ∧ ∀ code', CodePart line code' → code' = code := by
  have hone : ∀ a : Text, [';'] <:+: a ↔ ';' ∈ a := fun a => List.singleton_infix_iff _ _
  cases h : upTo ['/', '/'] line with
  | none =>
    have h' := (upTo_none (by simp) line).1 h
    refine ⟨line, .inl ⟨h', rfl⟩, by simp [klcClean, h], ?_⟩
    rintro code' (⟨_, rfl⟩ | ⟨a, b, rfl, _⟩)
    · rfl
    · exact absurd ⟨a, b, rfl⟩ h'
  | some l =>
    obtain ⟨b, h1, h2⟩ := (upTo_some (by simp)).1 h
    have huniq : ∀ a b', line = a ++ ['/', '/'] ++ b' → ¬ ['/', '/'] <:+: a ++ ['/'] → a = l := by
      intro a b' h3 h4
      have := (upTo_some (pat := ['/', '/']) (by simp)).2 ⟨b', h3, h4⟩
      rw [h] at this
      cases this
      rfl
    have hinf : ['/', '/'] <:+: line := ⟨l, b, h1.symm⟩
    cases h' : upTo [';'] l with
    | none =>
      have h3 := (upTo_none (by simp) l).1 h'
      rw [hone] at h3
      refine ⟨l, .inr ⟨l, b, h1, h2, .inl ⟨h3, rfl⟩⟩, by simp [klcClean, h, h'], ?_⟩
      rintro code' (⟨hn, _⟩ | ⟨a, b', e1, e2, e3⟩)
      · exact absurd hinf hn
      · obtain rfl := huniq a b' e1 e2
        rcases e3 with ⟨_, rfl⟩ | ⟨c, rfl, _⟩
        · rfl
        · simp at h3
    | some l' =>
      obtain ⟨c, h3, h4⟩ := (upTo_some (by simp)).1 h'
      simp only [List.dropLast_singleton, List.append_nil] at h4
      rw [hone] at h4
      refine ⟨l', .inr ⟨l, b, h1, h2, .inr ⟨c, by simpa using h3, h4⟩⟩, by simp [klcClean, h, h'], ?_⟩
      rintro code' (⟨hn, _⟩ | ⟨a, b', e1, e2, e3⟩)
      · exact absurd hinf hn
      · obtain rfl := huniq a b' e1 e2
        rcases e3 with ⟨hn, rfl⟩ | ⟨c', e4, e5⟩
        · rw [h3] at hn
          simp at hn
        · have := (upTo_some (pat := [';']) (l := a) (a := code') (by simp)).2 ⟨c', by simpa using e4, by simpa [hone] using e5⟩
          rw [h'] at this
          cases this
          rfl

/-! ### Words -/

section
variable (p : Char → Bool)

def filledWords (ws : List Text) : List Text := ws.filter (· ≠ [])

theorem splitSpaces_filled : ∀ (l acc : Text) (after : Bool), (after = true → acc = []) →
    filledWords (splitSpaces p l acc after) = filledWords ((l.splitOnP p).modifyHead (acc.reverse ++ ·))
  | [], acc, after, _ => by simp [splitSpaces]
  | c :: cs, acc, after, h => by
    unfold splitSpaces
    rw [List.splitOnP_cons]
    by_cases hc : p c = true
    · rw [if_pos hc, if_pos hc]
      cases after with
      | true =>
        obtain rfl := h rfl
        rw [if_pos rfl, splitSpaces_filled cs [] true (fun _ => rfl)]
        have e : (fun x : Text => ([] : Text).reverse ++ x) = id := rfl
        rw [e, List.modifyHead_id]
        simp [filledWords]
      | false =>
        rw [if_neg (by simp)]
        have := splitSpaces_filled cs [] true (fun _ => rfl)
        have e : (fun x : Text => ([] : Text).reverse ++ x) = id := rfl
        rw [e, List.modifyHead_id, id, filledWords, filledWords] at this
        simp only [List.modifyHead_cons, List.append_nil, filledWords, List.filter_cons, this]
    · rw [if_neg hc, if_neg hc, splitSpaces_filled cs (c :: acc) false (by simp)]
      cases cs.splitOnP p with
      | nil => rfl
      | cons x xs => simp

theorem splitSpaces_ne_nil : ∀ (l acc : Text) (after : Bool), splitSpaces p l acc after ≠ []
  | [], acc, after => by simp [splitSpaces]
  | c :: cs, acc, after => by
    unfold splitSpaces
    split
    · split
      · exact splitSpaces_ne_nil cs _ _
      · simp
    · exact splitSpaces_ne_nil cs _ _

theorem splitSpaces_nonempty : ∀ (l acc : Text) (after : Bool), (l = [] → acc ≠ []) → (∀ x, l.getLast? = some x → p x = false) →
    (acc = [] → after = true ∨ ∀ x, l.head? = some x → p x = false) → ∀ w ∈ splitSpaces p l acc after, w ≠ []
  | [], acc, after, h1, _, _ => by
    intro w hw
    simp only [splitSpaces, List.mem_singleton] at hw
    subst hw
    simpa using h1 rfl
  | c :: cs, acc, after, h1, h2, h3 => by
    unfold splitSpaces
    have h2' : ∀ x, cs.getLast? = some x → p x = false := by
      intro x hx
      apply h2
      rw [List.getLast?_cons, hx]
      rfl
    by_cases hc : p c = true
    · rw [if_pos hc]
      have hcs : cs ≠ [] := by
        rintro rfl
        have := h2 c rfl
        rw [hc] at this
        cases this
      cases after with
      | true =>
        rw [if_pos rfl]
        exact splitSpaces_nonempty cs acc true (fun h => absurd h hcs) h2' (fun _ => .inl rfl)
      | false =>
        rw [if_neg (by simp)]
        intro w hw
        rcases List.mem_cons.1 hw with rfl | hw
        · intro h
          rcases h3 (by simpa using h) with h | h
          · cases h
          · have := h c rfl
            rw [hc] at this
            cases this
        · exact splitSpaces_nonempty cs [] true (fun h => absurd h hcs) h2' (fun _ => .inl rfl) w hw
    · rw [if_neg hc]
      exact splitSpaces_nonempty cs (c :: acc) false (by simp) h2' (by simp)

theorem words_dropWhile : ∀ l : Text, words p (l.dropWhile p) = words p l
  | [] => rfl
  | c :: cs => by
    by_cases hc : p c = true
    · rw [List.dropWhile_cons_of_pos hc, words_dropWhile cs]
      unfold words
      rw [List.splitOnP_cons, if_pos hc]
      simp
    · rw [List.dropWhile_cons_of_neg hc]

theorem words_spaces : ∀ a : Text, (∀ c ∈ a, p c = true) → words p a = []
  | [], _ => by simp [words]
  | c :: cs, h => by
    unfold words
    rw [List.splitOnP_cons, if_pos (h c (by simp))]
    simpa [words] using words_spaces cs (fun x hx => h x (by simp [hx]))

theorem filledWords_append_spaces (a : Text) (ha : ∀ c ∈ a, p c = true) : ∀ (l acc : Text),
    filledWords (((l ++ a).splitOnP p).modifyHead (acc ++ ·)) = filledWords ((l.splitOnP p).modifyHead (acc ++ ·))
  | [], acc => by
    cases a with
    | nil => rfl
    | cons c cs =>
      rw [List.nil_append, List.splitOnP_cons, if_pos (ha c (by simp))]
      have := words_spaces p cs (fun x hx => ha x (by simp [hx]))
      unfold words at this
      simp only [List.modifyHead_cons, List.append_nil, filledWords, List.filter_cons, this, List.splitOnP_nil, List.filter_nil]
  | c :: cs, acc => by
    rw [List.cons_append, List.splitOnP_cons, List.splitOnP_cons]
    by_cases hc : p c = true
    · rw [if_pos hc, if_pos hc]
      have := filledWords_append_spaces a ha cs []
      have e : (fun x : Text => [] ++ x) = id := rfl
      rw [e, List.modifyHead_id] at this
      simp only [id_eq] at this
      simp only [List.modifyHead_cons, List.append_nil, filledWords, List.filter_cons]
      unfold filledWords at this
      rw [this]
    · rw [if_neg hc, if_neg hc]
      have := filledWords_append_spaces a ha cs (acc ++ [c])
      cases h1 : (cs ++ a).splitOnP p with
      | nil => exact absurd h1 (List.splitOnP_ne_nil _ _)
      | cons x xs =>
        cases h2 : cs.splitOnP p with
        | nil => exact absurd h2 (List.splitOnP_ne_nil _ _)
        | cons y ys =>
          rw [h1, h2] at this
          simpa using this

theorem words_append_spaces (l a : Text) (ha : ∀ c ∈ a, p c = true) : words p (l ++ a) = words p l := by
  have := filledWords_append_spaces p a ha l []
  have e : (fun x : Text => [] ++ x) = id := rfl
  rw [e, List.modifyHead_id] at this
  exact this

theorem words_pyStrip (l : Text) : words p (pyStrip p l) = words p l := by
  rw [← words_dropWhile p l]
  unfold pyStrip
  generalize l.dropWhile p = m
  have h : m = (m.reverse.dropWhile p).reverse ++ (m.reverse.takeWhile p).reverse := by
    rw [← List.reverse_append, List.takeWhile_append_dropWhile, List.reverse_reverse]
  conv => rhs; rw [h]
  rw [words_append_spaces]
  intro c hc
  rw [List.mem_reverse] at hc
  exact List.all_eq_true.1 (List.all_takeWhile (p := p) (l := m.reverse)) c hc

theorem pyStrip_ends (l : Text) : (∀ x, (pyStrip p l).head? = some x → p x = false) ∧
    ∀ x, (pyStrip p l).getLast? = some x → p x = false := by
  unfold pyStrip
  constructor
  · intro x hx
    cases hm : l.dropWhile p with
    | nil => rw [hm] at hx; simp at hx
    | cons c cs =>
      have hc : p c = false := by
        have := List.head?_dropWhile_not p l
        rw [hm] at this
        simpa using this
      rw [hm] at hx
      have h : c :: cs = ((c :: cs).reverse.dropWhile p).reverse ++ ((c :: cs).reverse.takeWhile p).reverse := by
        rw [← List.reverse_append, List.takeWhile_append_dropWhile, List.reverse_reverse]
      cases hr : ((c :: cs).reverse.dropWhile p).reverse with
      | nil => rw [hr] at hx; cases hx
      | cons y ys =>
        rw [hr] at hx h
        simp only [List.head?_cons, Option.some.injEq] at hx
        simp only [List.cons_append, List.cons.injEq] at h
        rw [← hx, ← h.1]
        exact hc
  · intro x hx
    rw [List.getLast?_reverse] at hx
    have := List.head?_dropWhile_not p (l.dropWhile p).reverse
    rw [hx] at this
    simpa using this

/-- The fields of a line are its words, or a single empty field. -/
theorem splitSpaces_words (l : Text) : splitSpaces p (pyStrip p l) [] false = if words p l = [] then [[]] else words p l := by
  rw [← words_pyStrip]
  obtain ⟨h1, h2⟩ := pyStrip_ends p l
  generalize pyStrip p l = m at h1 h2 ⊢
  cases m with
  | nil => simp [splitSpaces, words]
  | cons c cs =>
    have hf := splitSpaces_filled p (c :: cs) [] false (by simp)
    have e : (fun x : Text => ([] : Text).reverse ++ x) = id := rfl
    rw [e, List.modifyHead_id] at hf
    have hne := splitSpaces_nonempty p (c :: cs) [] false (by simp) h2 (fun _ => .inr h1)
    have : filledWords (splitSpaces p (c :: cs) [] false) = splitSpaces p (c :: cs) [] false := by
      unfold filledWords
      rw [List.filter_eq_self]
      intro w hw
      simpa using hne w hw
    rw [this] at hf
    have hw : words p (c :: cs) = splitSpaces p (c :: cs) [] false := hf.symm
    rw [hw, if_neg (splitSpaces_ne_nil p _ _ _)]

/-- The first field is in front of the first space. -/
theorem splitSpaces_head : ∀ (l acc : Text), (splitSpaces p l acc false).head? = some (acc.reverse ++ l.takeWhile fun c => !p c)
  | [], acc => by simp [splitSpaces]
  | c :: cs, acc => by
    unfold splitSpaces
    by_cases hc : p c = true
    · simp [hc]
    · rw [if_neg hc, splitSpaces_head cs (c :: acc)]
      simp [hc]

theorem splitSpaces_single : ∀ (l acc w : Text), splitSpaces p l acc false = [w] → w = acc.reverse ++ l
  | [], acc, w, h => by simpa [splitSpaces] using h.symm
  | c :: cs, acc, w, h => by
    unfold splitSpaces at h
    by_cases hc : p c = true
    · rw [if_pos hc, if_neg (by simp)] at h
      simp only [List.cons.injEq] at h
      exact absurd h.2 (splitSpaces_ne_nil p _ _ _)
    · rw [if_neg hc] at h
      rw [splitSpaces_single cs (c :: acc) w h]
      simp

theorem splitSpaces_none : ∀ (l acc : Text), (∀ c ∈ l, p c = false) → splitSpaces p l acc false = [acc.reverse ++ l]
  | [], acc, _ => by simp [splitSpaces]
  | c :: cs, acc, h => by
    unfold splitSpaces
    rw [if_neg (by simp [h c (by simp)]), splitSpaces_none cs (c :: acc) (fun x hx => h x (by simp [hx]))]
    simp

/-- A text without spaces is in front of a line exactly if it is in front of its first word. -/
theorem prefix_words (pat l : Text) (hp : pat ≠ []) (hs : ∀ c ∈ pat, p c = false) :
    pat <+: pyStrip p l ↔ ∃ w ws, words p l = w :: ws ∧ pat <+: w := by
  have hh := splitSpaces_head p (pyStrip p l) []
  have hw := splitSpaces_words p l
  generalize pyStrip p l = m at hh hw
  simp only [List.reverse_nil, List.nil_append] at hh
  have h1 : pat <+: m ↔ pat <+: m.takeWhile fun c => !p c := by
    constructor
    · rintro ⟨b, rfl⟩
      rw [List.takeWhile_append_of_pos (by simpa using hs)]
      exact List.prefix_append _ _
    · intro h
      exact h.trans (List.takeWhile_prefix _)
  rw [h1]
  rw [hw] at hh
  cases hws : words p l with
  | nil =>
    rw [hws] at hh
    simp only [if_true, List.head?_cons, Option.some.injEq] at hh
    rw [← hh]
    simp [hp]
  | cons w ws =>
    rw [hws] at hh
    simp only [reduceCtorEq, if_false, List.head?_cons, Option.some.injEq] at hh
    rw [← hh]
    simp

theorem eq_words (pat l : Text) (hp : pat ≠ []) (hs : ∀ c ∈ pat, p c = false) : pyStrip p l = pat ↔ words p l = [pat] := by
  have hw := splitSpaces_words p l
  constructor
  · intro h
    rw [h, splitSpaces_none p pat [] hs] at hw
    by_cases hws : words p l = []
    · rw [if_pos hws] at hw
      simp only [List.reverse_nil, List.nil_append, List.cons.injEq, and_true] at hw
      exact absurd hw hp
    · rw [if_neg hws] at hw
      simpa using hw.symm
  · intro h
    rw [h, if_neg (by simp)] at hw
    simpa using (splitSpaces_single p _ _ _ hw).symm

end

/-! ### Numbers -/

section
variable (dig : Char → Option Nat)

theorem hexDigitValue_iff (c : Char) (d : Nat) : hexDigitValue dig c = some d ↔ HexDigit dig c d := by
  unfold HexDigit
  by_cases hc : c.toNat < 128
  · have hall : ∀ n < 128, ∀ d < 16, hexDigitValue (fun _ => none) (Char.ofNat n) = some d ↔
        (Char.ofNat n = Nat.digitChar d ∨ Char.ofNat n = (Nat.digitChar d).toUpper) := by decide +kernel
    have hle : ∀ n < 128, ∀ d, hexDigitValue (fun _ => none) (Char.ofNat n) = some d → d < 16 := by
      intro n hn d h
      have : ∀ n < 128, (hexDigitValue (fun _ => none) (Char.ofNat n)).all (· < 16) = true := by decide +kernel
      have := this n hn
      rw [h] at this
      simpa using this
    have hsame : hexDigitValue dig c = hexDigitValue (fun _ => none) c := by
      unfold hexDigitValue
      split
      · rfl
      · split
        · rfl
        · split
          · rfl
          · rfl
    have hofNat : Char.ofNat c.toNat = c := Char.ofNat_toNat c
    have h1 := hall c.toNat hc
    have h2 := hle c.toNat hc
    rw [hofNat] at h1 h2
    rw [hsame]
    constructor
    · intro h
      exact .inl ⟨h2 d h, (h1 d (h2 d h)).1 h⟩
    · rintro (⟨h3, h4⟩ | ⟨h3, _⟩)
      · exact (h1 d h3).2 h4
      · omega
  · have h128 : ∀ d < 16, (Nat.digitChar d).toNat < 128 ∧ ((Nat.digitChar d).toUpper).toNat < 128 := by decide +kernel
    have hlt : ∀ x : Char, x.toNat < 128 → ¬ c ≤ x := by
      intro x hx h
      rw [Char.le_def] at h
      have : c.toNat ≤ x.toNat := h
      omega
    have : hexDigitValue dig c = dig c := by
      unfold hexDigitValue
      rw [if_neg (fun h => hlt '9' (by decide) h.2), if_neg (fun h => hlt 'f' (by decide) h.2), if_neg (fun h => hlt 'F' (by decide) h.2),
        if_neg hc]
    rw [this]
    constructor
    · intro h; exact .inr ⟨by omega, h⟩
    · rintro (⟨h3, rfl | rfl⟩ | ⟨_, h⟩)
      · exact absurd (h128 d h3).1 hc
      · exact absurd (h128 d h3).2 hc
      · exact h

theorem hexDigit_underscore (d : Nat) : ¬ HexDigit dig '_' d := by
  rw [← hexDigitValue_iff]
  have : hexDigitValue dig '_' = none := rfl
  rw [this]
  simp

theorem ofDigits_snoc (ds : List Nat) (d : Nat) : Nat.ofDigits 16 (d :: ds).reverse = Nat.ofDigits 16 ds.reverse + 16 ^ ds.length * d := by
  rw [List.reverse_cons, Nat.ofDigits_append]
  simp

theorem hexDigits_iff : ∀ (cs : Text) (n v : Nat),
    (hexDigits dig cs false n = some v ↔ ∃ ds, HexRun dig cs ds ∧ v = 16 ^ ds.length * n + Nat.ofDigits 16 ds.reverse) ∧
    (hexDigits dig cs true n = some v ↔ (cs = [] ∧ v = n) ∨
      (∃ ds, HexRun dig cs ds ∧ v = 16 ^ ds.length * n + Nat.ofDigits 16 ds.reverse) ∨
      ∃ cs' ds, cs = '_' :: cs' ∧ HexRun dig cs' ds ∧ v = 16 ^ ds.length * n + Nat.ofDigits 16 ds.reverse)
  | [], n, v => by
    have hn : ∀ ds, ¬ HexRun dig [] ds := by intro ds h; cases h
    simp only [hexDigits, hn]
    simp [eq_comm]
  | c :: cs, n, v => by
    unfold hexDigits
    by_cases hc : c = '_'
    · subst hc
      have hn : ∀ ds, ¬ HexRun dig ('_' :: cs) ds := by
        intro ds h
        cases h with
        | one h => exact hexDigit_underscore dig _ h
        | next h _ => exact hexDigit_underscore dig _ h
        | gap h _ => exact hexDigit_underscore dig _ h
      simp only [if_true, Bool.false_eq_true, if_false, hn, false_and, exists_false, reduceCtorEq, false_or, List.cons.injEq, true_and]
      rw [(hexDigits_iff cs n v).1]
      constructor
      · rintro ⟨ds, h⟩; exact ⟨cs, ds, rfl, h⟩
      · rintro ⟨_, ds, rfl, h⟩; exact ⟨ds, h⟩
    · rw [if_neg hc, if_neg hc]
      have hstep : (match hexDigitValue dig c with
          | some d => hexDigits dig cs true (16 * n + d)
          | none => none) = some v ↔ ∃ ds, HexRun dig (c :: cs) ds ∧ v = 16 ^ ds.length * n + Nat.ofDigits 16 ds.reverse := by
        have hval : ∀ (d : Nat) (ds : List Nat), 16 ^ ds.length * (16 * n + d) + Nat.ofDigits 16 ds.reverse =
            16 ^ (d :: ds).length * n + Nat.ofDigits 16 (d :: ds).reverse := by
          intro d ds
          rw [ofDigits_snoc, List.length_cons, pow_succ]
          ring
        cases hd : hexDigitValue dig c with
        | none =>
          simp only [reduceCtorEq, false_iff, not_exists]
          rintro ds ⟨h, _⟩
          cases h with
          | one h => rw [(hexDigitValue_iff dig _ _).2 h] at hd; cases hd
          | next h _ => rw [(hexDigitValue_iff dig _ _).2 h] at hd; cases hd
          | gap h _ => rw [(hexDigitValue_iff dig _ _).2 h] at hd; cases hd
        | some d =>
          have hd' := (hexDigitValue_iff dig _ _).1 hd
          have huniq : ∀ d', HexDigit dig c d' → d' = d := by
            intro d' h
            have := (hexDigitValue_iff dig _ _).2 h
            rw [hd] at this
            cases this
            rfl
          simp only
          rw [(hexDigits_iff cs _ v).2]
          constructor
          · rintro (⟨rfl, rfl⟩ | ⟨ds, h1, rfl⟩ | ⟨cs', ds, rfl, h1, rfl⟩)
            · exact ⟨[d], .one hd', by simp⟩
            · exact ⟨d :: ds, .next hd' h1, hval d ds⟩
            · exact ⟨d :: ds, .gap hd' h1, hval d ds⟩
          · rintro ⟨ds, h1, rfl⟩
            cases h1 with
            | one h => rw [huniq _ h]; left; simp
            | next h h1 => rw [huniq _ h]; right; left; exact ⟨_, h1, (hval _ _).symm⟩
            | gap h h1 => rw [huniq _ h]; right; right; exact ⟨_, _, rfl, h1, (hval _ _).symm⟩
      refine ⟨hstep, hstep.trans ?_⟩
      constructor
      · intro h; exact .inr (.inl h)
      · rintro (⟨h, _⟩ | h | ⟨_, _, h, _⟩)
        · cases h
        · exact h
        · exact absurd (List.cons.inj h).1 hc

theorem hexRun_x (z x : Char) (hx : x = 'x' ∨ x = 'X') (cs : Text) (ds : List Nat) : ¬ HexRun dig (z :: x :: cs) ds := by
  have hno : ∀ d, ¬ HexDigit dig x d := by
    intro d
    rw [← hexDigitValue_iff]
    rcases hx with rfl | rfl
    · rw [show hexDigitValue dig 'x' = none from rfl]; simp
    · rw [show hexDigitValue dig 'X' = none from rfl]; simp
  intro h
  cases h with
  | next _ h =>
    cases h with
    | one h => exact hno _ h
    | next h _ => exact hno _ h
    | gap h _ => exact hno _ h
  | gap _ h => rcases hx with h | h <;> exact absurd h (by decide)

theorem hexBody_iff (t : Text) (n : Nat) : hexBody dig t = some n ↔ HexNat dig t n := by
  have hplain : (∀ z x cs, t = z :: x :: cs → ¬ (HexDigit dig z 0 ∧ (x = 'x' ∨ x = 'X'))) →
      (hexDigits dig t false 0 = some n ↔ HexNat dig t n) := by
    intro hno
    rw [(hexDigits_iff dig t 0 n).1]
    simp only [mul_zero, zero_add]
    constructor
    · rintro ⟨ds, h, hv⟩; exact ⟨[], t, ds, rfl, .none, h, hv⟩
    · rintro ⟨pre, body, ds, h5, h6, h7, rfl⟩
      cases h6 with
      | none => exact ⟨ds, by rw [h5]; exact h7, rfl⟩
      | plain h8 h9 => exact absurd ⟨h8, h9⟩ (hno _ _ _ h5)
      | under h8 h9 => exact absurd ⟨h8, h9⟩ (hno _ _ _ h5)
  unfold hexBody
  split
  · rename_i z x cs
    split
    · rename_i hzx
      rw [hexDigitValue_iff] at hzx
      have hx : HexNat dig (z :: x :: cs) n ↔ (∃ ds, HexRun dig cs ds ∧ n = Nat.ofDigits 16 ds.reverse) ∨
          ∃ cs' ds, cs = '_' :: cs' ∧ HexRun dig cs' ds ∧ n = Nat.ofDigits 16 ds.reverse := by
        constructor
        · rintro ⟨pre, body, ds, h1, h2, h3, rfl⟩
          cases h2 with
          | none =>
            simp only [List.nil_append] at h1
            subst h1
            exact absurd h3 (hexRun_x dig z x hzx.2 cs ds)
          | plain _ _ =>
            simp only [List.cons_append, List.nil_append, List.cons.injEq] at h1
            obtain ⟨-, -, rfl⟩ := h1; exact .inl ⟨ds, h3, rfl⟩
          | under _ _ =>
            simp only [List.cons_append, List.nil_append, List.cons.injEq] at h1
            obtain ⟨-, -, rfl⟩ := h1; exact .inr ⟨_, ds, rfl, h3, rfl⟩
        · rintro (⟨ds, h, rfl⟩ | ⟨cs', ds, rfl, h, rfl⟩)
          · exact ⟨[z, x], cs, ds, rfl, .plain hzx.1 hzx.2, h, rfl⟩
          · exact ⟨[z, x, '_'], cs', ds, rfl, .under hzx.1 hzx.2, h, rfl⟩
      rw [hx]
      split
      · rename_i hcs
        subst hcs
        have hn : ∀ ds, ¬ HexRun dig [] ds := by intro ds h; cases h
        simp [hn]
      · rename_i hcs
        rw [(hexDigits_iff dig cs 0 n).2]
        simp [hcs]
    · rename_i hzx
      rw [hexDigitValue_iff] at hzx
      refine hplain fun z' x' cs' h => ?_
      simp only [List.cons.injEq] at h
      rw [← h.1, ← h.2.1]
      exact hzx
  · rename_i hne
    exact hplain fun z x cs h => absurd h (hne z x cs)

theorem hexNat_head {c : Char} {cs : Text} {n : Nat} (h : HexNat dig (c :: cs) n) : ∃ d, HexDigit dig c d := by
  obtain ⟨pre, body, ds, h1, h2, h3, _⟩ := h
  cases h2 with
  | none =>
    simp only [List.nil_append] at h1
    subst h1
    cases h3 with
    | one h => exact ⟨_, h⟩
    | next h _ => exact ⟨_, h⟩
    | gap h _ => exact ⟨_, h⟩
  | plain h _ => simp only [List.cons_append, List.cons.injEq] at h1; exact ⟨0, by rw [h1.1]; exact h⟩
  | under h _ => simp only [List.cons_append, List.cons.injEq] at h1; exact ⟨0, by rw [h1.1]; exact h⟩

theorem hexNat_ne_nil {n : Nat} : ¬ HexNat dig [] n := by
  rintro ⟨pre, body, ds, h1, h2, h3, _⟩
  obtain ⟨rfl, rfl⟩ := List.append_eq_nil_iff.1 h1.symm
  cases h3

theorem intHex_iff (t : Text) (n : Int) : intHex dig t = some n ↔ HexInt dig t n := by
  have hno : ∀ x : Char, x = '+' ∨ x = '-' → ∀ cs m, ¬ HexNat dig (x :: cs) m := by
    intro x hx cs m h
    obtain ⟨d, h⟩ := hexNat_head dig h
    rw [← hexDigitValue_iff] at h
    rcases hx with rfl | rfl
    · rw [show hexDigitValue dig '+' = none from rfl] at h; cases h
    · rw [show hexDigitValue dig '-' = none from rfl] at h; cases h
  unfold intHex HexInt
  split
  · rename_i cs
    rw [Option.map_eq_some_iff]
    constructor
    · rintro ⟨m, h, rfl⟩
      exact ⟨['+'], cs, m, rfl, (hexBody_iff dig _ _).1 h, .inl ⟨by simp, rfl⟩⟩
    · rintro ⟨s, body, m, h1, h2, h3⟩
      rcases h3 with ⟨hs, rfl⟩ | ⟨rfl, rfl⟩
      · simp only [List.mem_cons, List.not_mem_nil, or_false] at hs
        rcases hs with rfl | rfl
        · simp only [List.nil_append] at h1
          subst h1
          exact absurd h2 (hno _ (.inl rfl) _ _)
        · simp only [List.cons_append, List.nil_append, List.cons.injEq, true_and] at h1
          subst h1
          exact ⟨m, (hexBody_iff dig _ _).2 h2, rfl⟩
      · simp at h1
  · rename_i cs
    rw [Option.map_eq_some_iff]
    constructor
    · rintro ⟨m, h, rfl⟩
      exact ⟨['-'], cs, m, rfl, (hexBody_iff dig _ _).1 h, .inr ⟨rfl, rfl⟩⟩
    · rintro ⟨s, body, m, h1, h2, h3⟩
      rcases h3 with ⟨hs, rfl⟩ | ⟨rfl, rfl⟩
      · simp only [List.mem_cons, List.not_mem_nil, or_false] at hs
        rcases hs with rfl | rfl
        · simp only [List.nil_append] at h1
          subst h1
          exact absurd h2 (hno _ (.inr rfl) _ _)
        · simp at h1
      · simp only [List.cons_append, List.nil_append, List.cons.injEq, true_and] at h1
        subst h1
        exact ⟨m, (hexBody_iff dig _ _).2 h2, rfl⟩
  · rename_i h4 h5
    rw [Option.map_eq_some_iff]
    constructor
    · rintro ⟨m, h, rfl⟩
      exact ⟨[], t, m, rfl, (hexBody_iff dig _ _).1 h, .inl ⟨by simp, rfl⟩⟩
    · rintro ⟨s, body, m, h1, h2, h3⟩
      rcases h3 with ⟨hs, rfl⟩ | ⟨rfl, rfl⟩
      · simp only [List.mem_cons, List.not_mem_nil, or_false] at hs
        rcases hs with rfl | rfl
        · simp only [List.nil_append] at h1
          subst h1
          exact ⟨m, (hexBody_iff dig _ _).2 h2, rfl⟩
        · exact absurd h1 (h4 body)
      · exact absurd h1 (h5 body)

theorem codeToText_none {nfd : Nat → List Nat} {c : Text} : codeToText dig nfd c = .ok none ↔ NoCode dig c := by
  unfold codeToText NoCode
  rw [← intHex_iff]
  by_cases hc : c = ['%', '%']
  · simp [hc]
  · rw [if_neg hc]
    simp only [hc, false_or]
    cases intHex dig c with
    | none => simp
    | some n =>
      simp only [Option.some.injEq]
      split
      · simp [*]
      · split
        · simp [*]
        · split <;> simp [*]

theorem codeToText_some {nfd : Nat → List Nat} {c : Text} {t : List Nat} :
    codeToText dig nfd c = .ok (some t) ↔ ∃ n, CodePoint dig c n ∧ t = nfd n := by
  unfold codeToText CodePoint
  simp only [← intHex_iff]
  by_cases hc : c = ['%', '%']
  · subst hc
    rw [if_pos rfl]
    have : intHex dig ['%', '%'] = none := rfl
    rw [this]
    simp
  · rw [if_neg hc]
    cases intHex dig c with
    | none => simp
    | some n =>
      simp only [Option.some.injEq]
      split
      · rename_i h
        subst h
        simp only [Except.ok.injEq, reduceCtorEq, false_iff, not_exists]
        rintro m ⟨⟨h, _⟩, _⟩
        omega
      · split
        · simp only [reduceCtorEq, false_iff, not_exists]
          rintro m ⟨⟨h, _⟩, _⟩
          omega
        · split
          · simp only [reduceCtorEq, false_iff, not_exists]
            rintro m ⟨⟨h, _⟩, _⟩
            omega
          · simp only [Except.ok.injEq, Option.some.injEq]
            constructor
            · rintro rfl
              exact ⟨n.toNat, ⟨by omega, by omega⟩, rfl⟩
            · rintro ⟨m, ⟨h, _⟩, rfl⟩
              subst h
              rfl

theorem codePoint_unique {c : Text} {n m : Nat} (h : CodePoint dig c n) (h' : CodePoint dig c m) : n = m := by
  have h1 := (intHex_iff dig _ _).2 h.1
  rw [(intHex_iff dig _ _).2 h'.1] at h1
  simpa using h1.symm

theorem noCode_codePoint {c : Text} {n : Nat} (h : NoCode dig c) : ¬ CodePoint dig c n := by
  intro h'
  have h1 := (codeToText_none dig (nfd := fun _ => [])).2 h
  rw [(codeToText_some dig (nfd := fun _ => [])).2 ⟨n, h', rfl⟩] at h1
  cases h1

end

/-! ### Lines -/

/-- What a layer says about a button. -/
def cell (ls : KlcLayers) (i : Nat) (b : String) : Option (List Nat) := ls[i]?.bind fun l => l.get? b

theorem klcAssign_ok (button : String) : ∀ (cs : List (Option (List Nat))) (k : Nat) (ls ls' : KlcLayers),
    klcAssign button k cs ls = .ok ls' → ls'.length = ls.length ∧
      ∀ i b, cell ls' i b = if b = button ∧ k ≤ i then ((cs[i - k]?).bind id).or (cell ls i b) else cell ls i b
  | [], k, ls, ls', h => by
    cases h
    simp
  | none :: cs, k, ls, ls', h => by
    obtain ⟨h1, h2⟩ := klcAssign_ok button cs (k + 1) ls ls' h
    refine ⟨h1, ?_⟩
    intro i b
    rw [h2 i b]
    by_cases hb : b = button
    · rcases Nat.lt_trichotomy i k with hi | rfl | hi
      · simp [hb, show ¬ k + 1 ≤ i by omega, show ¬ k ≤ i by omega]
      · simp [hb]
      · have : i - k = (i - (k + 1)) + 1 := by omega
        rw [if_pos ⟨hb, by omega⟩, if_pos ⟨hb, by omega⟩, this, List.getElem?_cons_succ]
    · simp [hb]
  | some t :: cs, k, ls, ls', h => by
    unfold klcAssign at h
    cases hl : ls[k]? with
    | none => rw [hl] at h; cases h
    | some l =>
      rw [hl] at h
      obtain ⟨h1, h2⟩ := klcAssign_ok button cs (k + 1) _ ls' h
      have hk : k < ls.length := (List.getElem?_eq_some_iff.1 hl).1
      refine ⟨by simpa using h1, ?_⟩
      intro i b
      rw [h2 i b]
      have hcell : ∀ i, cell (ls.set k (l.set button t)) i b = if i = k then (if b = button then some t else cell ls i b) else cell ls i b := by
        intro i
        unfold cell
        by_cases hik : i = k
        · subst hik
          rw [List.getElem?_set_self hk, if_pos rfl, Option.bind_some, Dict.get?_set, hl, Option.bind_some]
          by_cases hb : b = button
          · subst hb; simp
          · rw [if_neg (Ne.symm hb), if_neg hb]
        · rw [List.getElem?_set_ne (by omega), if_neg hik]
      rw [hcell]
      by_cases hb : b = button
      · rcases Nat.lt_trichotomy i k with hi | rfl | hi
        · simp [hb, show ¬ k + 1 ≤ i by omega, show ¬ k ≤ i by omega, show i ≠ k by omega]
        · simp [hb]
        · have : i - k = (i - (k + 1)) + 1 := by omega
          rw [if_pos ⟨hb, by omega⟩, if_neg (by omega), if_pos ⟨hb, by omega⟩, this, List.getElem?_cons_succ]
      · simp [hb]

theorem klcAssign_works (button : String) : ∀ (cs : List (Option (List Nat))) (k : Nat) (ls : KlcLayers),
    (∃ ls', klcAssign button k cs ls = .ok ls') ↔ ∀ (i : Nat) (t : List Nat), cs[i]? = some (some t) → k + i < ls.length
  | [], k, ls => by simp [klcAssign]
  | none :: cs, k, ls => by
    unfold klcAssign
    rw [klcAssign_works button cs (k + 1) ls]
    constructor
    · intro h i t hi
      cases i with
      | zero => simp at hi
      | succ i => have := h i t (by simpa using hi); omega
    · intro h i t hi
      have := h (i + 1) t (by simpa using hi)
      omega
  | some t :: cs, k, ls => by
    unfold klcAssign
    cases hl : ls[k]? with
    | none =>
      have hk : ls.length ≤ k := List.getElem?_eq_none_iff.1 hl
      simp only [reduceCtorEq, exists_false, false_iff, not_forall]
      exact ⟨0, t, rfl, by omega⟩
    | some l =>
      have hk : k < ls.length := (List.getElem?_eq_some_iff.1 hl).1
      simp only
      rw [klcAssign_works button cs (k + 1), List.length_set]
      constructor
      · intro h i t hi
        cases i with
        | zero => omega
        | succ i => have := h i t (by simpa using hi); omega
      · intro h i t hi
        have := h (i + 1) t (by simpa using hi)
        omega

section
variable {isSpace : Char → Bool} {dig : Char → Option Nat} {nfd : Nat → List Nat}

/-- The words of the markers have no spaces. -/
def PlainMarkers (isSpace : Char → Bool) : Prop := ∀ c ∈ "LAYOUTLIGATURE".toList, isSpace c = false

theorem opens_iff (hp : PlainMarkers isSpace) (line : Text) : "LAYOUT".toList.isPrefixOf (klcClean isSpace line) = true ↔ Opens isSpace line := by
  obtain ⟨code, h1, h2, h3⟩ := codePart_exists isSpace line
  rw [List.isPrefixOf_iff_prefix, h2, prefix_words isSpace _ _ (by decide) (fun c hc => hp c (by
    rw [show "LAYOUTLIGATURE".toList = "LAYOUT".toList ++ "LIGATURE".toList from rfl]; exact List.mem_append_left _ hc))]
  constructor
  · rintro ⟨w, ws, h4, h5⟩; exact ⟨code, w, ws, h1, h4, h5⟩
  · rintro ⟨code', w, ws, h4, h5, h6⟩
    obtain rfl := h3 code' h4
    exact ⟨w, ws, h5, h6⟩

theorem closes_iff (hp : PlainMarkers isSpace) (line : Text) : klcClean isSpace line = "LIGATURE".toList ↔ Closes isSpace line := by
  obtain ⟨code, h1, h2, h3⟩ := codePart_exists isSpace line
  rw [h2, eq_words isSpace _ _ (by decide) (fun c hc => hp c (by
    rw [show "LAYOUTLIGATURE".toList = "LAYOUT".toList ++ "LIGATURE".toList from rfl]; exact List.mem_append_right _ hc))]
  constructor
  · intro h; exact ⟨code, h1, h⟩
  · rintro ⟨code', h4, h5⟩
    obtain rfl := h3 code' h4
    exact h5

theorem opens_not_closes {line : Text} (h : Opens isSpace line) : ¬ Closes isSpace line := by
  obtain ⟨code, w, ws, h1, h2, h3⟩ := h
  rintro ⟨code', h4, h5⟩
  obtain ⟨c, _, _, h6⟩ := codePart_exists isSpace line
  obtain rfl := h6 _ h1
  obtain rfl := h6 _ h4
  rw [h2] at h5
  simp only [List.cons.injEq] at h5
  rw [h5.1] at h3
  revert h3
  rw [← List.isPrefixOf_iff_prefix]
  decide

/-- The fields of a line. -/
theorem fields_eq (line : Text) : ∃ code, CodePart line code ∧ (∀ code', CodePart line code' → code' = code) ∧
    splitSpaces isSpace (klcClean isSpace line) [] false = if words isSpace code = [] then [[]] else words isSpace code := by
  obtain ⟨code, h1, h2, h3⟩ := codePart_exists isSpace line
  exact ⟨code, h1, h3, by rw [h2, splitSpaces_words]⟩

theorem klcEntry_ok {ls ls' : KlcLayers} {line : Text} (h : klcEntry isSpace dig nfd ls (klcClean isSpace line) = .ok ls') :
    ls'.length = ls.length ∧ ∀ i b, ((∃ t, Entry isSpace dig nfd line i b t) → Entry isSpace dig nfd line i b ((cell ls' i b).getD []) ∧ (cell ls' i b).isSome) ∧
      ((¬ ∃ t, Entry isSpace dig nfd line i b t) → cell ls' i b = cell ls i b) := by
  obtain ⟨code, h1, h2, h3⟩ := fields_eq (isSpace := isSpace) line
  have hent : ∀ i b t, Entry isSpace dig nfd line i b t ↔ ∃ sc vk cap codes c n, words isSpace code = sc :: vk :: cap :: codes ∧
      vkToButton.get? vk = some b ∧ codes[i]? = some c ∧ CodePoint dig c n ∧ t = nfd n := by
    intro i b t
    constructor
    · rintro ⟨code', sc, vk, cap, codes, c, n, e1, e2⟩
      obtain rfl := h2 _ e1
      exact ⟨sc, vk, cap, codes, c, n, e2⟩
    · rintro ⟨sc, vk, cap, codes, c, n, e⟩
      exact ⟨code, sc, vk, cap, codes, c, n, h1, e⟩
  unfold klcEntry at h
  rw [h3] at h
  have hshort : ls' = ls → (∀ i b t, ¬ Entry isSpace dig nfd line i b t) → ls'.length = ls.length ∧
      ∀ i b, ((∃ t, Entry isSpace dig nfd line i b t) → Entry isSpace dig nfd line i b ((cell ls' i b).getD []) ∧ (cell ls' i b).isSome) ∧
      ((¬ ∃ t, Entry isSpace dig nfd line i b t) → cell ls' i b = cell ls i b) := by
    rintro rfl hno
    refine ⟨rfl, fun i b => ⟨?_, fun _ => rfl⟩⟩
    rintro ⟨t, ht⟩
    exact absurd ht (hno i b t)
  match hw : words isSpace code with
  | [] =>
    rw [hw] at h
    simp only [if_true, Except.ok.injEq] at h
    refine hshort h.symm ?_
    intro i b t ht
    obtain ⟨_, _, _, _, _, _, e, _⟩ := (hent i b t).1 ht
    rw [hw] at e; cases e
  | [x] =>
    rw [hw] at h
    simp only [reduceCtorEq, if_false, Except.ok.injEq] at h
    refine hshort h.symm ?_
    intro i b t ht
    obtain ⟨_, _, _, _, _, _, e, _⟩ := (hent i b t).1 ht
    rw [hw] at e; cases e
  | [x, y] =>
    rw [hw] at h
    simp only [reduceCtorEq, if_false, Except.ok.injEq] at h
    refine hshort h.symm ?_
    intro i b t ht
    obtain ⟨_, _, _, _, _, _, e, _⟩ := (hent i b t).1 ht
    rw [hw] at e; cases e
  | sc :: vk :: cap :: codes =>
    rw [hw] at h
    simp only [reduceCtorEq, if_false, bind_ok_iff, mapM_ok_iff] at h
    obtain ⟨cs, hcs, h⟩ := h
    have hent' : ∀ i b t, Entry isSpace dig nfd line i b t ↔ vkToButton.get? vk = some b ∧ cs[i]? = some (some t) := by
      intro i b t
      rw [hent]
      constructor
      · rintro ⟨_, _, _, _, c, n, e, e2, e3, e4⟩
        rw [hw] at e
        cases e
        refine ⟨e2, ?_⟩
        have hi := (List.getElem?_eq_some_iff.1 e3).1
        have hl := (List.forall₂_iff_get.1 hcs).1
        have := (List.forall₂_iff_get.1 hcs).2 i hi (by omega)
        simp only [List.get_eq_getElem] at this
        rw [(List.getElem?_eq_some_iff.1 e3).2] at this
        obtain ⟨y, hy, hy2⟩ : ∃ y, cs[i]? = some y ∧ codeToText dig nfd c = Except.ok y := ⟨_, List.getElem?_eq_getElem (by omega), this⟩
        rw [(codeToText_some dig).2 ⟨n, e4⟩] at hy2
        cases hy2
        exact hy
      · rintro ⟨e2, e3⟩
        have hi := (List.getElem?_eq_some_iff.1 e3).1
        have hl := (List.forall₂_iff_get.1 hcs).1
        have := (List.forall₂_iff_get.1 hcs).2 i (by omega) hi
        simp only [List.get_eq_getElem] at this
        rw [(List.getElem?_eq_some_iff.1 e3).2, codeToText_some] at this
        obtain ⟨n, hn⟩ := this
        exact ⟨sc, vk, cap, codes, _, n, hw, e2, List.getElem?_eq_getElem (by omega), hn⟩
    cases hb : vkToButton.get? vk with
    | none =>
      rw [hb] at h
      simp only at h
      split at h
      · cases h
        refine hshort rfl ?_
        intro i b t ht
        have := ((hent' i b t).1 ht).1
        rw [hb] at this
        cases this
      · cases h
    | some button =>
      rw [hb] at h
      obtain ⟨k1, k2⟩ := klcAssign_ok button cs 0 ls ls' h
      refine ⟨k1, fun i b => ?_⟩
      rw [k2 i b]
      by_cases hbb : b = button
      · subst hbb
        rw [if_pos ⟨rfl, Nat.zero_le _⟩, Nat.sub_zero]
        constructor
        · rintro ⟨t, ht⟩
          have := ((hent' i b t).1 ht).2
          rw [this]
          simp only [Option.bind_some, id_eq, Option.some_or, Option.getD_some, Option.isSome_some, and_true]
          exact ht
        · intro hno
          cases hci : (cs[i]?).bind id with
          | none => rfl
          | some t =>
            exfalso
            apply hno
            refine ⟨t, (hent' i b t).2 ⟨hb, ?_⟩⟩
            cases hc : cs[i]? with
            | none => rw [hc] at hci; cases hci
            | some o => rw [hc] at hci; simpa using hci
      · rw [if_neg (fun h => hbb h.1)]
        refine ⟨?_, fun _ => rfl⟩
        rintro ⟨t, ht⟩
        have := ((hent' i b t).1 ht).1
        rw [hb] at this
        exact absurd (by simpa using this.symm) hbb

theorem klcEntry_works {ls : KlcLayers} (hl : ls.length = 6) {line : Text} :
    (∃ ls', klcEntry isSpace dig nfd ls (klcClean isSpace line) = .ok ls') ↔ Importable isSpace dig line := by
  obtain ⟨code, h1, h2, h3⟩ := fields_eq (isSpace := isSpace) line
  have himp : Importable isSpace dig line ↔ (words isSpace code).length < 3 ∨
    ∃ sc vk cap codes, words isSpace code = sc :: vk :: cap :: codes ∧ (∀ c ∈ codes, NoCode dig c ∨ ∃ n, CodePoint dig c n) ∧
      (((∃ b, vkToButton.get? vk = some b) ∧ ∀ i c, codes[i]? = some c → 6 ≤ i → NoCode dig c) ∨ vk = "DECIMAL".toList) := by
    constructor
    · rintro ⟨code', e1, e2⟩
      obtain rfl := h2 _ e1
      exact e2
    · intro h; exact ⟨code, h1, h⟩
  rw [himp]
  unfold klcEntry
  rw [h3]
  match hw : words isSpace code with
  | [] => simp
  | [x] => simp
  | [x, y] => simp
  | sc :: vk :: cap :: codes =>
    simp only [reduceCtorEq, if_false, bind_ok_iff]
    have hlen : ¬ (sc :: vk :: cap :: codes).length < 3 := by simp
    simp only [hlen, false_or]
    have hcodes : (∃ cs, codes.mapM (codeToText dig nfd) = .ok cs) ↔ ∀ c ∈ codes, NoCode dig c ∨ ∃ n, CodePoint dig c n := by
      rw [mapM_exists_iff]
      refine forall₂_congr fun c _ => ?_
      constructor
      · rintro ⟨o, ho⟩
        cases o with
        | none => exact .inl ((codeToText_none dig).1 ho)
        | some t =>
          obtain ⟨n, hn, _⟩ := (codeToText_some dig).1 ho
          exact .inr ⟨n, hn⟩
      · rintro (h | ⟨n, hn⟩)
        · exact ⟨none, (codeToText_none dig).2 h⟩
        · exact ⟨_, (codeToText_some dig).2 ⟨n, hn, rfl⟩⟩
    have hdec : vkToButton.get? "DECIMAL".toList = none := by decide +kernel
    constructor
    · rintro ⟨ls', cs, hcs, h⟩
      refine ⟨sc, vk, cap, codes, rfl, hcodes.1 ⟨cs, hcs⟩, ?_⟩
      cases hb : vkToButton.get? vk with
      | none =>
        rw [hb] at h
        simp only at h
        split at h
        · right; assumption
        · cases h
      | some b =>
        rw [hb] at h
        left
        refine ⟨⟨b, rfl⟩, ?_⟩
        intro i c hc hi
        have hw := (klcAssign_works b cs 0 ls).1 ⟨ls', h⟩
        rw [mapM_ok_iff] at hcs
        obtain ⟨l1, l2⟩ := List.forall₂_iff_get.1 hcs
        have hi' := (List.getElem?_eq_some_iff.1 hc).1
        have hci := l2 i hi' (by omega)
        simp only [List.get_eq_getElem] at hci
        rw [(List.getElem?_eq_some_iff.1 hc).2] at hci
        cases ho : cs[i]'(by omega) with
        | none =>
          rw [ho] at hci
          exact (codeToText_none dig).1 hci
        | some t =>
          have := hw i t (by rw [List.getElem?_eq_getElem (by omega), ho])
          omega
    · rintro ⟨sc', vk', cap', codes', he, hc, hk⟩
      cases he
      obtain ⟨cs, hcs⟩ := hcodes.2 hc
      cases hb : vkToButton.get? vk with
      | none =>
        rcases hk with ⟨⟨b, h⟩, _⟩ | h
        · rw [hb] at h; cases h
        · exact ⟨ls, cs, hcs, by simp [h]⟩
      | some b =>
        rcases hk with ⟨_, h⟩ | h
        · obtain ⟨ls', hls⟩ := (klcAssign_works b cs 0 ls).2 (by
            intro i t hi
            rw [hl]
            by_contra hge
            rw [mapM_ok_iff] at hcs
            obtain ⟨l1, l2⟩ := List.forall₂_iff_get.1 hcs
            have hi' := (List.getElem?_eq_some_iff.1 hi).1
            have hci := l2 i (by omega) hi'
            simp only [List.get_eq_getElem] at hci
            rw [(List.getElem?_eq_some_iff.1 hi).2] at hci
            have := h i _ (List.getElem?_eq_getElem (by omega)) (by omega)
            rw [(codeToText_none dig).2 this] at hci
            cases hci)
          exact ⟨ls', cs, hcs, by simpa using hls⟩
        · rw [h, hdec] at hb; cases hb

/-! ### All lines -/

theorem inLayout_nil : ¬ InLayout isSpace [] := by
  rintro ⟨a, m, b, h, _⟩
  simp at h

theorem inLayout_snoc (pre : List Text) (l : Text) :
    InLayout isSpace (pre ++ [l]) ↔ Opens isSpace l ∨ (InLayout isSpace pre ∧ ¬ Closes isSpace l) := by
  constructor
  · rintro ⟨a, m, b, h1, h2, h3⟩
    rcases List.eq_nil_or_concat b with rfl | ⟨b', x, rfl⟩
    · have : m = l := by
        have := List.append_inj' h1 rfl
        simpa using this.2.symm
      subst this
      exact .inl h2
    · rw [List.concat_eq_append, ← List.cons_append, ← List.append_assoc] at h1
      rw [List.concat_eq_append] at h3
      obtain ⟨h4, h5⟩ := List.append_inj' h1 rfl
      simp only [List.cons.injEq, and_true] at h5
      subst h5
      exact .inr ⟨⟨a, m, b', h4, h2, fun y hy => h3 y (by simp [hy])⟩, h3 _ (by simp)⟩
  · rintro (h | ⟨⟨a, m, b, rfl, h2, h3⟩, h⟩)
    · exact ⟨pre, l, [], rfl, h, by simp⟩
    · refine ⟨a, m, b ++ [l], by simp, h2, ?_⟩
      intro y hy
      rcases List.mem_append.1 hy with hy | hy
      · exact h3 y hy
      · rw [List.mem_singleton.1 hy]; exact h

theorem sets_snoc (lines : List Text) (l : Text) (k i : Nat) (b : String) (t : List Nat) :
    Sets isSpace dig nfd (lines ++ [l]) k i b t ↔ Sets isSpace dig nfd lines k i b t ∨
      (k = lines.length ∧ InLayout isSpace lines ∧ ¬ Opens isSpace l ∧ ¬ Closes isSpace l ∧ Entry isSpace dig nfd l i b t) := by
  unfold Sets
  constructor
  · rintro ⟨line, h1, h2⟩
    rcases Nat.lt_or_ge k lines.length with hk | hk
    · rw [List.getElem?_append_left hk] at h1
      rw [List.take_append_of_le_length (by omega)] at h2
      exact .inl ⟨line, h1, h2⟩
    · have hk' : k < (lines ++ [l]).length := (List.getElem?_eq_some_iff.1 h1).1
      simp only [List.length_append, List.length_singleton] at hk'
      have : k = lines.length := by omega
      subst this
      simp only [List.getElem?_concat_length, Option.some.injEq] at h1
      subst h1
      rw [List.take_left] at h2
      exact .inr ⟨rfl, h2⟩
  · rintro (⟨line, h1, h2⟩ | ⟨rfl, h2⟩)
    · have hk := (List.getElem?_eq_some_iff.1 h1).1
      exact ⟨line, by rw [List.getElem?_append_left hk]; exact h1, by rw [List.take_append_of_le_length (by omega)]; exact h2⟩
    · exact ⟨l, by simp, by rw [List.take_left]; exact h2⟩

theorem sets_lt {lines : List Text} {k i : Nat} {b : String} {t : List Nat} (h : Sets isSpace dig nfd lines k i b t) : k < lines.length := by
  obtain ⟨line, h1, _⟩ := h
  exact (List.getElem?_eq_some_iff.1 h1).1

theorem entry_unique {line : Text} {i : Nat} {b : String} {t t' : List Nat} (h : Entry isSpace dig nfd line i b t)
    (h' : Entry isSpace dig nfd line i b t') : t = t' := by
  obtain ⟨code, _, _, _, codes, c, n, e1, e2, e3, e4, e5, rfl⟩ := h
  obtain ⟨code', _, _, _, codes', c', n', f1, f2, f3, f4, f5, rfl⟩ := h'
  obtain ⟨_, _, _, hu⟩ := codePart_exists isSpace line
  obtain rfl := hu _ e1
  obtain rfl := hu _ f1
  rw [e2] at f2
  cases f2
  rw [e4] at f4
  cases f4
  rw [codePoint_unique dig e5 f5]

/-- The state after some lines. -/
structure KlcState (isSpace : Char → Bool) (dig : Char → Option Nat) (nfd : Nat → List Nat) (lines : List Text) (s : Bool × KlcLayers) : Prop where
  mode : s.1 = true ↔ InLayout isSpace lines
  length : s.2.length = 6
  cells : ∀ i b t, cell s.2 i b = some t ↔ ∃ k, Sets isSpace dig nfd lines k i b t ∧ ∀ k' t', k < k' → ¬ Sets isSpace dig nfd lines k' i b t'

theorem klcState_nil : KlcState isSpace dig nfd [] (false, List.replicate 6 []) := by
  refine ⟨by simp [inLayout_nil], by simp, ?_⟩
  intro i b t
  constructor
  · intro h
    unfold cell at h
    rw [List.getElem?_replicate] at h
    split at h <;> simp at h
  · rintro ⟨k, h, _⟩
    have := sets_lt h
    simp at this

theorem klcLine_step (hp : PlainMarkers isSpace) {lines : List Text} {l : Text} {s s' : Bool × KlcLayers}
    (hs : KlcState isSpace dig nfd lines s) (h : klcLine isSpace dig nfd s l = .ok s') : KlcState isSpace dig nfd (lines ++ [l]) s' := by
  unfold klcLine at h
  dsimp only at h
  have hsame : (¬ (InLayout isSpace lines ∧ ¬ Opens isSpace l ∧ ¬ Closes isSpace l)) → s'.2 = s.2 → ∀ i b t, cell s'.2 i b = some t ↔
      ∃ k, Sets isSpace dig nfd (lines ++ [l]) k i b t ∧ ∀ k' t', k < k' → ¬ Sets isSpace dig nfd (lines ++ [l]) k' i b t' := by
    intro hno heq i b t
    have : ∀ k i b t, Sets isSpace dig nfd (lines ++ [l]) k i b t ↔ Sets isSpace dig nfd lines k i b t := by
      intro k i b t
      rw [sets_snoc]
      constructor
      · rintro (h | ⟨_, h1, h2, h3, _⟩)
        · exact h
        · exact absurd ⟨h1, h2, h3⟩ hno
      · exact .inl
    simp only [this, heq]
    exact hs.cells i b t
  by_cases ho : Opens isSpace l
  · rw [if_pos ((opens_iff hp l).2 ho)] at h
    cases h
    refine ⟨?_, hs.length, hsame (fun h => h.2.1 ho) rfl⟩
    rw [inLayout_snoc]
    simp [ho]
  · rw [if_neg (fun h => ho ((opens_iff hp l).1 h))] at h
    by_cases hc : Closes isSpace l
    · rw [if_pos ((closes_iff hp l).2 hc)] at h
      cases h
      refine ⟨?_, hs.length, hsame (fun h => h.2.2 hc) rfl⟩
      rw [inLayout_snoc]
      simp [ho, hc]
    · rw [if_neg (fun h => hc ((closes_iff hp l).1 h))] at h
      by_cases hm : s.1 = true
      · rw [if_pos hm] at h
        have hin := hs.mode.1 hm
        cases he : klcEntry isSpace dig nfd s.2 (klcClean isSpace l) with
        | error e => rw [he] at h; cases h
        | ok ls' =>
          rw [he] at h
          cases h
          obtain ⟨e1, e2⟩ := klcEntry_ok he
          refine ⟨?_, e1.trans hs.length, ?_⟩
          · rw [inLayout_snoc]
            simp [ho, hc, hin]
          · intro i b t
            simp only [sets_snoc]
            by_cases hex : ∃ t, Entry isSpace dig nfd l i b t
            · obtain ⟨t0, ht0⟩ := hex
              obtain ⟨f1, f2⟩ := (e2 i b).1 ⟨t0, ht0⟩
              obtain ⟨t1, ht1⟩ := Option.isSome_iff_exists.1 f2
              rw [ht1, Option.getD_some] at f1
              simp only [ht1, Option.some.injEq]
              constructor
              · rintro rfl
                refine ⟨lines.length, .inr ⟨rfl, hin, ho, hc, f1⟩, ?_⟩
                rintro k' t' hk (h | ⟨h, _⟩)
                · have := sets_lt h; omega
                · omega
              · rintro ⟨k, h1 | ⟨rfl, _, _, _, h2⟩, h3⟩
                · exact absurd (.inr ⟨rfl, hin, ho, hc, f1⟩) (h3 lines.length t1 (sets_lt h1))
                · exact entry_unique f1 h2
            · rw [(e2 i b).2 hex, hs.cells i b t]
              have : ∀ t, ¬ Entry isSpace dig nfd l i b t := fun t ht => hex ⟨t, ht⟩
              simp only [this, and_false, or_false]
      · rw [if_neg hm] at h
        cases h
        have hnin : ¬ InLayout isSpace lines := fun h => hm (hs.mode.2 h)
        refine ⟨?_, hs.length, hsame (fun h => hnin h.1) rfl⟩
        rw [inLayout_snoc]
        simp [ho, hnin, hm]

theorem klcFold (hp : PlainMarkers isSpace) (post : List Text) : ∀ (lines : List Text) (s s' : Bool × KlcLayers),
    KlcState isSpace dig nfd lines s → post.foldlM (klcLine isSpace dig nfd) s = .ok s' → KlcState isSpace dig nfd (lines ++ post) s' := by
  induction post with
  | nil =>
    intro lines s s' hs h
    cases h
    simpa using hs
  | cons l post ih =>
    intro lines s s' hs h
    rw [List.foldlM_cons, bind_ok_iff] at h
    obtain ⟨s1, h1, h2⟩ := h
    have := ih (lines ++ [l]) s1 s' (klcLine_step hp hs h1) h2
    simpa using this

theorem klcFold_works (hp : PlainMarkers isSpace) (post : List Text) : ∀ (lines : List Text) (s : Bool × KlcLayers),
    KlcState isSpace dig nfd lines s → ((∃ s', post.foldlM (klcLine isSpace dig nfd) s = .ok s') ↔
      ∀ (k : Nat) (l : Text), post[k]? = some l → InLayout isSpace (lines ++ post.take k) → ¬ Opens isSpace l → ¬ Closes isSpace l → Importable isSpace dig l) := by
  induction post with
  | nil =>
    intro lines s hs
    constructor
    · intro _ k l h; simp at h
    · intro _; exact ⟨s, rfl⟩
  | cons x post ih =>
    intro lines s hs
    have hstep : (∃ s1, klcLine isSpace dig nfd s x = .ok s1) ↔ (InLayout isSpace lines → ¬ Opens isSpace x → ¬ Closes isSpace x → Importable isSpace dig x) := by
      unfold klcLine
      dsimp only
      by_cases ho : Opens isSpace x
      · rw [if_pos ((opens_iff hp x).2 ho)]
        simp [ho]
      · rw [if_neg (fun h => ho ((opens_iff hp x).1 h))]
        by_cases hc : Closes isSpace x
        · rw [if_pos ((closes_iff hp x).2 hc)]
          simp [hc]
        · rw [if_neg (fun h => hc ((closes_iff hp x).1 h))]
          by_cases hm : s.1 = true
          · have hin := hs.mode.1 hm
            simp only [ho, hc, hm, if_true, hin, not_false_eq_true, forall_const]
            rw [← klcEntry_works (nfd := nfd) hs.length]
            constructor
            · rintro ⟨s1, h⟩
              cases he : klcEntry isSpace dig nfd s.2 (klcClean isSpace x) with
              | error e => rw [he] at h; cases h
              | ok ls => exact ⟨ls, rfl⟩
            · rintro ⟨ls, h⟩
              exact ⟨_, by rw [h]; rfl⟩
          · have hnin : ¬ InLayout isSpace lines := fun h => hm (hs.mode.2 h)
            simp [ho, hc, hm, hnin]
    constructor
    · rintro ⟨s', h⟩ k l hk hin ho hc
      rw [List.foldlM_cons, bind_ok_iff] at h
      obtain ⟨s1, h1, h2⟩ := h
      cases k with
      | zero =>
        simp only [List.getElem?_cons_zero, Option.some.injEq] at hk
        subst hk
        simp only [List.take_zero, List.append_nil] at hin
        exact hstep.1 ⟨s1, h1⟩ hin ho hc
      | succ k =>
        refine (ih (lines ++ [x]) s1 (klcLine_step hp hs h1)).1 ⟨s', h2⟩ k l (by simpa using hk) ?_ ho hc
        simpa using hin
    · intro h
      obtain ⟨s1, h1⟩ := hstep.2 (by
        intro hin ho hc
        exact h 0 x rfl (by simpa using hin) ho hc)
      obtain ⟨s', h2⟩ := (ih (lines ++ [x]) s1 (klcLine_step hp hs h1)).2 (by
        intro k l hk hin ho hc
        exact h (k + 1) l (by simpa using hk) (by simpa using hin) ho hc)
      exact ⟨s', by rw [List.foldlM_cons, bind_ok_iff]; exact ⟨s1, h1, h2⟩⟩

end
end Lulua
