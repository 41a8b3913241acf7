import Mathlib.Data.List.Sort
import Mathlib.Data.List.TakeWhile
import Verif.Spec.Page
import Verif.Proofs.Analyze
import Verif.Proofs.Carpalx
import Verif.Props.Report

/-!
# Lemmas for the page of the report
-/

namespace Lulua
open Spec Props

/-! ### Numbers -/

/-- What is left of a text when blanks and separators are removed. -/
def bare (s : Text) : Text := s.filter fun c => c ≠ ' ' ∧ c ≠ Char.ofNat 0x2007 ∧ c ≠ ','

theorem western_of_digit : ∀ c : Char, c.isDigit → c ∉ arabic := by
  intro c hc h
  have : ∀ c ∈ arabic, c.isDigit = false := by decide +kernel
  rw [this c h] at hc
  cases hc

theorem bare_digits (lang : PageLang) (s : Text) (h : ∀ c ∈ s, c ∉ arabic) :
    ((lang.digits s).map toWestern).filter (fun c => c ≠ ' ' ∧ c ≠ Char.ofNat 0x2007 ∧ c ≠ ',') = bare s := by
  cases lang with
  | ar =>
    show ((arabnum s).map toWestern).filter _ = _
    rw [C59_reversible s h]
    rfl
  | en =>
    show ((numspace s).map toWestern).filter _ = _
    unfold numspace bare
    induction s with
    | nil => rfl
    | cons c s ih =>
      have ih := ih fun x hx => h x (List.mem_cons_of_mem _ hx)
      have hc := h c List.mem_cons_self
      have hw : toWestern c = c := by
        unfold toWestern
        rw [List.idxOf_eq_length hc]
        rfl
      have h7 : toWestern (Char.ofNat 0x2007) = Char.ofNat 0x2007 := by decide +kernel
      have h8 : ' ' = Char.ofNat 0x2007 := by decide
      simp only [List.map_cons, List.filter_cons]
      by_cases h1 : c = ' '
      · subst h1
        rw [if_pos rfl, h8, h7]
        simpa using ih
      · rw [if_neg h1, hw, ih]

theorem bare_of_digits {s : Text} (h : ∀ c ∈ s, c.isDigit) : bare s = s := by
  refine List.filter_eq_self.2 fun c hc => ?_
  have := h c hc
  have h2 : ∀ x ∈ [' ', Char.ofNat 0x2007, ','], x.isDigit = false := by decide +kernel
  simp only [decide_eq_true_eq]
  refine ⟨?_, ?_, ?_⟩ <;> rintro rfl
  · exact absurd this (by decide)
  · rw [h2 _ (by simp)] at this; cases this
  · exact absurd this (by decide)

theorem bare_append (s t : Text) : bare (s ++ t) = bare s ++ bare t := List.filter_append ..

theorem bare_padLeft (w : Nat) (s : Text) : bare (padLeft w s) = bare s := by
  unfold padLeft
  rw [bare_append]
  have : ∀ n, bare (List.replicate n ' ') = [] := by
    intro n
    refine List.filter_eq_nil_iff.2 fun c hc => ?_
    rw [List.eq_of_mem_replicate hc]
    decide
  rw [this, List.nil_append]

theorem natText_digits (n : Nat) : ∀ c ∈ natText n, c.isDigit := fun c hc =>
  Nat.isDigit_of_mem_toDigits (by omega) (by omega) hc

theorem wholeNumber_natText (n : Nat) : wholeNumber (natText n) = some n := by
  have h1 : (natText n).isEmpty = false := by
    rw [List.isEmpty_eq_false_iff]
    exact Nat.toDigits_ne_nil
  have h2 : (natText n).all Char.isDigit = true := List.all_eq_true.2 (natText_digits n)
  unfold wholeNumber
  rw [h1, h2]
  simp only [natText, Nat.ofDigitChars_ten_toDigits]
  rfl

theorem thousands_bare : ∀ s : Text, (∀ c ∈ s, c.isDigit) → bare (thousands s) = s ∧ ∀ c ∈ thousands s, c ∈ s ∨ c = ','
  | a :: b :: c :: d :: rest, h => by
    have ih := thousands_bare (d :: rest) fun x hx => h x (by simp only [List.mem_cons] at hx ⊢; tauto)
    rw [thousands]
    constructor
    · have e : a :: b :: c :: ',' :: thousands (d :: rest) = [a, b, c] ++ ([','] ++ thousands (d :: rest)) := rfl
      rw [e, bare_append, bare_append, ih.1, bare_of_digits fun x hx => h x (by simp only [List.mem_cons, List.not_mem_nil, or_false] at hx ⊢; tauto)]
      rfl
    · intro x hx
      simp only [List.mem_cons] at hx ih ⊢
      rcases hx with rfl | rfl | rfl | rfl | hx
      · tauto
      · tauto
      · tauto
      · tauto
      · have := ih.2 x hx; tauto
  | [], _ => ⟨rfl, by simp [thousands]⟩
  | [a], h => ⟨bare_of_digits h, fun x hx => .inl hx⟩
  | [a, b], h => ⟨bare_of_digits h, fun x hx => .inl hx⟩
  | [a, b, c], h => ⟨bare_of_digits h, fun x hx => .inl hx⟩

theorem readNumber_bare (lang : PageLang) (s : Text) (h : ∀ c ∈ s, c ∉ arabic) (b : Text) (hb : bare s = b) :
    readNumber (lang.digits s) = match b.dropWhile (· ≠ '.') with
      | [] => (wholeNumber b).map fun n : Nat => (n : Rat)
      | _ :: f => (wholeNumber (b.takeWhile (· ≠ '.'))).bind fun n => (wholeNumber f).map fun m : Nat => (n : Rat) + (m : Rat) / 10 ^ f.length := by
  unfold readNumber
  dsimp only
  rw [bare_digits lang s h, hb]
  rfl

theorem not_arabic_space : ' ' ∉ arabic := by decide +kernel
theorem not_arabic_comma : ',' ∉ arabic := by decide +kernel
theorem not_arabic_dot : '.' ∉ arabic := by decide +kernel

theorem padLeft_not_arabic {w : Nat} {s : Text} (h : ∀ c ∈ s, c ∉ arabic) : ∀ c ∈ padLeft w s, c ∉ arabic := by
  intro c hc
  rcases List.mem_append.1 hc with hc | hc
  · rw [List.eq_of_mem_replicate hc]; exact not_arabic_space
  · exact h c hc

theorem dot_not_digit {s : Text} (h : ∀ c ∈ s, c.isDigit) : ∀ c ∈ s, decide (c ≠ '.') = true := by
  intro c hc
  have := h c hc
  simp only [decide_eq_true_eq]
  rintro rfl
  exact absurd this (by decide)

theorem readNumber_comma (lang : PageLang) (n : Nat) : readNumber (lang.digits (commaFormat n)) = some (n : Rat) := by
  have hd : ∀ c ∈ (natText n).reverse, c.isDigit := fun c hc => natText_digits n c (List.mem_reverse.1 hc)
  obtain ⟨h1, h2⟩ := thousands_bare _ hd
  have hb : bare (commaFormat n) = natText n := by
    unfold commaFormat
    rw [bare_padLeft]
    have : bare (thousands (natText n).reverse).reverse = (bare (thousands (natText n).reverse)).reverse := List.filter_reverse
    rw [this, h1, List.reverse_reverse]
  have hna : ∀ c ∈ commaFormat n, c ∉ arabic := padLeft_not_arabic fun c hc => by
    rcases h2 c (List.mem_reverse.1 hc) with h | rfl
    · exact western_of_digit c (hd c h)
    · exact not_arabic_comma
  rw [readNumber_bare lang _ hna _ hb]
  · rw [List.dropWhile_eq_nil_iff.2 (dot_not_digit (natText_digits n)), wholeNumber_natText]
    rfl

theorem readNumber_oneDecimal (lang : PageLang) (c : Nat) :
    readNumber (lang.digits (oneDecimal ⟨false, c, -1⟩)) = some ((c : Rat) / 10) := by
  have hlen : ∀ k < 10, (natText k).length = 1 := by decide
  have hb : bare (oneDecimal ⟨false, c, -1⟩) = natText (c / 10) ++ '.' :: natText (c % 10) := by
    unfold oneDecimal
    rw [bare_padLeft]
    have e : (if (⟨false, c, -1⟩ : Dec).neg then ['-'] else []) ++ natText ((⟨false, c, -1⟩ : Dec).coeff / 10) ++
        '.' :: natText ((⟨false, c, -1⟩ : Dec).coeff % 10) = natText (c / 10) ++ (['.'] ++ natText (c % 10)) := rfl
    rw [e, bare_append, bare_append, bare_of_digits (natText_digits _), bare_of_digits (natText_digits _)]
    rfl
  have hna : ∀ x ∈ oneDecimal ⟨false, c, -1⟩, x ∉ arabic := padLeft_not_arabic fun x hx => by
    simp only [Bool.false_eq_true, if_false, List.nil_append, List.mem_append, List.mem_cons] at hx
    rcases hx with hx | rfl | hx
    · exact western_of_digit x (natText_digits _ x hx)
    · exact not_arabic_dot
    · exact western_of_digit x (natText_digits _ x hx)
  rw [readNumber_bare lang _ hna _ hb]
  · rw [List.dropWhile_append_of_pos (dot_not_digit (natText_digits _)),
      List.takeWhile_append_of_pos (dot_not_digit (natText_digits _))]
    simp only [ne_eq, not_true_eq_false, decide_false, Bool.false_eq_true, not_false_eq_true, List.dropWhile_cons_of_neg,
      List.takeWhile_cons_of_neg, List.append_nil, wholeNumber_natText, Option.bind_some, Option.map_some, Option.some.injEq]
    rw [hlen _ (Nat.mod_lt _ (by decide)), pow_one]
    have := Nat.div_add_mod c 10
    have h2 : (10 : Rat) * ((c / 10 : Nat) : Rat) + ((c % 10 : Nat) : Rat) = c := by exact_mod_cast this
    rw [← h2]
    ring

/-! ### Cells -/

theorem used_ok {α : Type} {x : Option α} {y : α} : used x = .ok y ↔ x = some y := by
  cases x <;> simp [used]

theorem unitWords_eq (lang : PageLang) : reportUnits lang.name = unitWords lang := by cases lang <;> rfl

theorem figureCell_works (lang : PageLang) (n : Nat) : (∃ c, figureCell lang n = .ok c) ↔ n < 10 ^ 27 := by
  have hl : lang.name = "en" ∨ lang.name = "ar" := by cases lang <;> simp [PageLang.name]
  have hv : decVal ⟨false, n, 0⟩ = (n : Rat) := by simp [decVal]
  constructor
  · rintro ⟨c, hc⟩
    by_contra hn
    have : approx ⟨false, n, 0⟩ lang.name = .error .invalidOperation :=
      C58_huge_fails lang.name hl _ rfl (by rw [hv]; exact_mod_cast not_lt.1 hn)
    simp only [figureCell, this, bind, Except.bind] at hc
    cases hc
  · intro hn
    have hn1 : (n : Rat) ≤ 10 ^ 27 - 1 := by
      have : n + 1 ≤ 10 ^ 27 := hn
      have : ((n : Rat) + 1) ≤ 10 ^ 27 := by exact_mod_cast this
      linarith
    obtain ⟨j, c, hj, h, _⟩ := C58_accurate_partial lang.name hl ⟨false, n, 0⟩ rfl (lt_trans hn (by norm_num))
      (by rw [hv]; linarith)
    exact ⟨_, by simp only [figureCell, h, bind, Except.bind]; rfl⟩

theorem figureCell_shows {lang : PageLang} {n : Nat} {c : Cell} (h : figureCell lang n = .ok c) : ShowsAbout lang n c := by
  have hn := (figureCell_works lang n).1 ⟨c, h⟩
  have hl : lang.name = "en" ∨ lang.name = "ar" := by cases lang <;> simp [PageLang.name]
  have hv : decVal ⟨false, n, 0⟩ = (n : Rat) := by simp [decVal]
  have hn1 : (n : Rat) ≤ 10 ^ 27 - 1 := by
    have : n + 1 ≤ 10 ^ 27 := hn
    have : ((n : Rat) + 1) ≤ 10 ^ 27 := by exact_mod_cast this
    linarith
  obtain ⟨j, k, hj, h1, h2, h3, h4⟩ := C58_accurate_partial lang.name hl ⟨false, n, 0⟩ rfl (lt_trans hn (by norm_num))
    (by rw [hv]; linarith)
  simp only [figureCell, h1, bind, Except.bind, Except.ok.injEq] at h
  subst h
  have hk : decVal ⟨false, k, -1⟩ = (k : Rat) / 10 := by
    simp only [decVal, Bool.false_eq_true, if_false, one_mul, zpow_neg, zpow_one]
    ring
  rw [hv, hk] at h2
  refine ⟨j, (k : Rat) / 10, readNumber_oneDecimal lang k, ?_, h2, ?_, ?_⟩
  · dsimp only
    rw [String.ofList_toList, ← unitWords_eq]
    exact List.getElem?_eq_getElem hj
  · refine h3.imp (fun hk => ?_) id
    have : (k : Rat) < 10000 := by exact_mod_cast hk
    linarith
  · intro hj0
    have := h4 hj0
    have : (10 : Rat) ≤ k := by exact_mod_cast this
    linarith

theorem printed_get (lang : PageLang) (n : BothNames) : printed (n.get lang) = nameIn lang n := by cases lang <;> rfl

theorem corpusRow_works (lang : PageLang) (d : CorpusDoc) : (∃ r, corpusRow lang d = .ok r) ↔
    HasMetadata d ∧ ∀ x, d.stats = some x → x.1 < 10 ^ 27 ∧ x.2 < 10 ^ 27 := by
  constructor
  · rintro ⟨r, h⟩
    simp only [corpusRow, bind_ok_iff, used_ok] at h
    obtain ⟨s, hs, n, hn, cell, hc, st, hst, w, hw, ch, hch, _⟩ := h
    refine ⟨⟨⟨s, n, hs, hn⟩, ?_, by rw [hst]; simp⟩, ?_⟩
    · intro c hcc
      rw [hcc] at hc
      simp only [countCell, bind_ok_iff, used_ok] at hc
      obtain ⟨a, ha, b, hb, _⟩ := hc
      rw [ha, hb]
      simp
    · intro x hx
      rw [hst] at hx
      cases hx
      exact ⟨(figureCell_works lang _).1 ⟨_, hch⟩, (figureCell_works lang _).1 ⟨_, hw⟩⟩
  · rintro ⟨⟨⟨s, n, hs, hn⟩, hc, hst⟩, hb⟩
    obtain ⟨st, hst⟩ := Option.ne_none_iff_exists'.1 hst
    obtain ⟨h1, h2⟩ := hb st hst
    obtain ⟨w, hw⟩ := (figureCell_works lang st.2).2 h2
    obtain ⟨ch, hch⟩ := (figureCell_works lang st.1).2 h1
    obtain ⟨cell, hcell⟩ : ∃ cell, countCell lang d.count = .ok cell := by
      cases hcc : d.count with
      | none => exact ⟨none, rfl⟩
      | some c =>
        obtain ⟨ha, hb⟩ := hc c hcc
        obtain ⟨a, ha⟩ := Option.ne_none_iff_exists'.1 ha
        obtain ⟨b, hb⟩ := Option.ne_none_iff_exists'.1 hb
        exact ⟨_, by simp only [countCell, bind_ok_iff, used_ok]; exact ⟨a, ha, b, hb, rfl⟩⟩
    refine ⟨_, by simp only [corpusRow, bind_ok_iff, used_ok]; exact ⟨s, hs, n, hn, cell, hcell, st, hst, w, hw, ch, hch, rfl⟩⟩

theorem corpusRow_shows {lang : PageLang} {d : CorpusDoc} {r : CorpusRow} (h : corpusRow lang d = .ok r) : RowShows lang d r := by
  simp only [corpusRow, bind_ok_iff, used_ok, Except.ok.injEq] at h
  obtain ⟨s, hs, n, hn, cell, hc, st, hst, w, hw, ch, hch, rfl⟩ := h
  refine ⟨⟨s, n, hs, hn, rfl, printed_get lang n⟩, ?_, st.1, st.2, hst, figureCell_shows hw, figureCell_shows hch⟩
  cases hcc : d.count with
  | none =>
    rw [hcc] at hc
    simp only [countCell, Except.ok.injEq] at hc
    exact hc.symm
  | some c =>
    rw [hcc] at hc
    simp only [countCell, bind_ok_iff, used_ok, Except.ok.injEq] at hc
    obtain ⟨a, ha, b, hb, rfl⟩ := hc
    exact ⟨_, a, b, rfl, ha, hb, readNumber_comma lang a, printed_get lang b⟩

/-! ### Order -/

theorem textLe_iff : ∀ s t : Text, textLe s t = true ↔ NotAfter s t
  | [], t => by
    cases t with
    | nil => simp [textLe, NotAfter]
    | cons b t => simp only [textLe, NotAfter, true_iff]; exact .inr .nil
  | a :: s, [] => by
    simp only [textLe, Bool.false_eq_true, NotAfter, reduceCtorEq, false_or, false_iff]
    intro h; cases h
  | a :: s, b :: t => by
    have ih := textLe_iff s t
    have hinj : a.toNat = b.toNat → a = b := fun h => Char.toNat_inj.1 h
    unfold textLe
    by_cases h1 : a.toNat < b.toNat
    · rw [if_pos h1]
      exact iff_of_true rfl (.inr (.rel h1))
    · rw [if_neg h1]
      by_cases h2 : b.toNat < a.toNat
      · rw [if_pos h2]
        refine iff_of_false (by simp) ?_
        rintro (h | h)
        · cases h; omega
        · cases h with
          | rel h => exact h1 h
          | cons h => omega
      · rw [if_neg h2, ih]
        obtain rfl := hinj (by omega)
        constructor
        · rintro (rfl | h)
          · exact .inl rfl
          · exact .inr (.cons h)
        · rintro (h | h)
          · cases h; exact .inl rfl
          · cases h with
            | rel h => omega
            | cons h => exact .inr h

theorem textLe_total : ∀ s t : Text, textLe s t = true ∨ textLe t s = true
  | [], t => .inl (by simp [textLe])
  | a :: s, [] => .inr (by simp [textLe])
  | a :: s, b :: t => by
    unfold textLe
    by_cases h1 : a.toNat < b.toNat
    · exact .inl (if_pos h1)
    · by_cases h2 : b.toNat < a.toNat
      · exact .inr (if_pos h2)
      · rw [if_neg h1, if_neg h2, if_neg h2, if_neg h1]
        exact textLe_total s t

theorem textLe_trans : ∀ s t u : Text, textLe s t = true → textLe t u = true → textLe s u = true
  | [], _, _, _, _ => by simp [textLe]
  | a :: s, [], _, h, _ => by simp [textLe] at h
  | a :: s, b :: t, [], _, h => by simp [textLe] at h
  | a :: s, b :: t, c :: u, h1, h2 => by
    unfold textLe at h1 h2 ⊢
    by_cases hab : a.toNat < b.toNat
    · by_cases hbc : b.toNat < c.toNat
      · rw [if_pos (by omega)]
      · rw [if_neg hbc] at h2
        by_cases hcb : c.toNat < b.toNat
        · rw [if_pos hcb] at h2; cases h2
        · rw [if_pos (by omega)]
    · rw [if_neg hab] at h1
      by_cases hba : b.toNat < a.toNat
      · rw [if_pos hba] at h1; cases h1
      · rw [if_neg hba] at h1
        by_cases hbc : b.toNat < c.toNat
        · rw [if_pos (by omega)]
        · rw [if_neg hbc] at h2
          by_cases hcb : c.toNat < b.toNat
          · rw [if_pos hcb] at h2; cases h2
          · rw [if_neg hcb] at h2
            rw [if_neg (by omega), if_neg (by omega)]
            exact textLe_trans s t u h1 h2

theorem sortKey_ok {d : CorpusDoc} {k : Option Text} : sortKey d = .ok k ↔ (∃ s n, d.source = some s ∧ s.name = some n) ∧ k = englishName d := by
  simp only [sortKey, bind_ok_iff, used_ok, Except.ok.injEq]
  constructor
  · rintro ⟨s, hs, n, hn, rfl⟩
    exact ⟨⟨s, n, hs, hn⟩, by simp [englishName, hs, hn]⟩
  · rintro ⟨⟨s, n, hs, hn⟩, rfl⟩
    exact ⟨s, hs, n, hn, by simp [englishName, hs, hn]⟩

theorem keyOf_eq (lower : Text → Text) (d : CorpusDoc) : keyOf lower d = lower ((englishName d).getD []) := by
  unfold keyOf englishName printed
  cases d.source with
  | none => rfl
  | some s => cases h : s.name <;> simp [h]

theorem sortCorpora_ok {lower : Text → Text} {docs r : List CorpusDoc} : sortCorpora lower docs = .ok r ↔
    (∀ d ∈ docs, ∃ s n, d.source = some s ∧ s.name = some n) ∧ (2 ≤ docs.length → ∀ d ∈ docs, englishName d ≠ none) ∧
    r = docs.insertionSort fun a b => textLe (keyOf lower a) (keyOf lower b) := by
  simp only [sortCorpora, bind_ok_iff, mapM_ok_iff]
  constructor
  · rintro ⟨keys, hk, h⟩
    split at h
    · cases h
    · rename_i hno
      simp only [Except.ok.injEq] at h
      refine ⟨fun d hd => ?_, fun h2 d hd hnone => ?_, h.symm⟩
      · obtain ⟨k, _, hk⟩ := forall₂_left_mem hk hd
        exact (sortKey_ok.1 hk).1
      · obtain ⟨k, hm, hk⟩ := forall₂_left_mem hk hd
        rw [(sortKey_ok.1 hk).2, hnone] at hm
        exact hno ⟨h2, hm⟩
  · rintro ⟨h1, h2, rfl⟩
    refine ⟨docs.map englishName, ?_, ?_⟩
    · rw [List.forall₂_map_right_iff, List.forall₂_same]
      exact fun d hd => sortKey_ok.2 ⟨h1 d hd, rfl⟩
    · rw [if_neg]
      rintro ⟨h3, h4⟩
      obtain ⟨d, hd, he⟩ := List.mem_map.1 h4
      exact h2 h3 d hd he

theorem sortCorpora_sorted (lower : Text → Text) (docs : List CorpusDoc) :
    (docs.insertionSort fun a b => textLe (keyOf lower a) (keyOf lower b)).Perm docs ∧
    (docs.insertionSort fun a b => textLe (keyOf lower a) (keyOf lower b)).Pairwise
      fun a b => NotAfter (lower ((englishName a).getD [])) (lower ((englishName b).getD [])) := by
  refine ⟨List.perm_insertionSort _ _, ?_⟩
  have ht : Std.Total fun a b : CorpusDoc => textLe (keyOf lower a) (keyOf lower b) = true := ⟨fun a b => textLe_total _ _⟩
  have htr : IsTrans CorpusDoc fun a b => textLe (keyOf lower a) (keyOf lower b) = true := ⟨fun a b c => textLe_trans _ _ _⟩
  exact (List.pairwise_insertionSort (fun a b : CorpusDoc => textLe (keyOf lower a) (keyOf lower b) = true) docs).imp
    fun {a b} h => by rw [← keyOf_eq lower a, ← keyOf_eq lower b]; exact (textLe_iff _ _).1 h

/-! ### The files of `layoutstats` -/

theorem lastOf_iff {files : List (String × LayoutStats)} {name : String} {s : LayoutStats} :
    (files.foldl (fun d x => Dict.set d x.1 x.2) []).get? name = some s ↔ LastOf files name s := by
  induction files using List.reverseRecOn with
  | nil => simp [LastOf]
  | append_singleton files x ih =>
    rw [List.foldl_append, List.foldl_cons, List.foldl_nil, Dict.get?_set]
    by_cases h : x.1 = name
    · rw [if_pos h]
      constructor
      · rintro hs
        cases hs
        exact ⟨files, [], by rw [← h], by simp⟩
      · rintro ⟨a, b, e, hb⟩
        rcases List.eq_nil_or_concat b with rfl | ⟨b', y, rfl⟩
        · have := List.append_inj_right' e rfl
          simp only [List.cons.injEq, and_true] at this
          rw [this]
        · rw [List.concat_eq_append, ← List.cons_append, ← List.append_assoc] at e
          have := List.append_inj_right' e rfl
          simp only [List.cons.injEq, and_true] at this
          exact absurd h (this ▸ hb y (by simp))
    · rw [if_neg h, ih]
      constructor
      · rintro ⟨a, b, rfl, hb⟩
        exact ⟨a, b ++ [x], by simp, fun y hy => by
          rcases List.mem_append.1 hy with hy | hy
          · exact hb y hy
          · rw [List.mem_singleton.1 hy]; exact h⟩
      · rintro ⟨a, b, e, hb⟩
        rcases List.eq_nil_or_concat b with rfl | ⟨b', y, rfl⟩
        · have := List.append_inj_right' e rfl
          simp only [List.cons.injEq, and_true] at this
          exact absurd (by rw [this]) h
        · rw [List.concat_eq_append, ← List.cons_append, ← List.append_assoc] at e
          have e2 := List.append_inj_left' e rfl
          exact ⟨a, b', e2, fun z hz => hb z (by simp [hz])⟩

theorem allFingers_iff {s : LayoutStats} : (∃ bars, fingerHandStats s.toHandStats = .ok bars) ↔ AllFingers s := by
  simp only [fingerHandStats_ok]
  have hh : ∀ d, (∃ n, n ≠ 0 ∧ s.hands.get? d = some n) ↔ d ∈ s.hands.map Prod.fst ∧ s.hands.count d ≠ 0 := by
    intro d
    rw [show d ∈ s.hands.map Prod.fst ↔ (s.hands.get? d).isSome from (Dict.get?_isSome_iff).symm]
    cases hg : s.hands.get? d <;> simp [Dict.count, hg]
  have hf : ∀ k, s.fingers.get? k ≠ none ↔ k ∈ s.fingers.map Prod.fst := by
    intro k
    rw [show k ∈ s.fingers.map Prod.fst ↔ (s.fingers.get? k).isSome from (Dict.get?_isSome_iff).symm]
    cases s.fingers.get? k <;> simp
  simp only [AllFingers, hh, hf]
  constructor
  · rintro ⟨_, h, _⟩
    exact ⟨(h .left).1, fun d => ⟨⟨(h d).2.1, (h d).2.2.1⟩, (h d).2.2.2⟩⟩
  · rintro ⟨h1, h2⟩
    exact ⟨_, fun d => ⟨h1, (h2 d).1.1, (h2 d).1.2, (h2 d).2⟩, rfl⟩

end Lulua
