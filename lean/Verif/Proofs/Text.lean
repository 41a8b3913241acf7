import Verif.Spec.Text
import Verif.Proofs.Stats2

namespace Lulua
open Spec

/-! ### Characters -/

theorem mapChars_append (a b : Text) (m : Dict Char Text) : mapChars (a ++ b) m = mapChars a m ++ mapChars b m := by
  simp [mapChars]

theorem mapChars_id {t : Text} {m : Dict Char Text} (h : ∀ c ∈ t, m.get? c = none) : mapChars t m = t := by
  induction t with
  | nil => rfl
  | cons c t ih =>
    have hc := h c (by simp)
    have := ih (fun d hd => h d (by simp [hd]))
    unfold mapChars at this ⊢
    rw [List.flatMap_cons, this, hc]
    rfl

theorem mem_mapChars {t : Text} {m : Dict Char Text} {c : Char} :
    c ∈ mapChars t m ↔ ∃ x ∈ t, (m.get? x = none ∧ c = x) ∨ ∃ y, m.get? x = some y ∧ c ∈ y := by
  unfold mapChars
  rw [List.mem_flatMap]
  constructor
  · rintro ⟨x, hx, h⟩
    refine ⟨x, hx, ?_⟩
    cases hm : m.get? x with
    | none => rw [hm] at h; left; simpa using h
    | some y => rw [hm] at h; right; exact ⟨y, rfl, h⟩
  · rintro ⟨x, hx, h⟩
    refine ⟨x, hx, ?_⟩
    rcases h with ⟨hm, rfl⟩ | ⟨y, hm, h⟩
    · rw [hm]; simp
    · rw [hm]; exact h

theorem charMap_clean : ∀ e ∈ charMap, ∀ c ∈ e.2, charMap.get? c = none := by decide +kernel

/-! ### Line endings -/

theorem replaceCRLF_cons_ne {c : Char} (h : c ≠ '\r') (t : Text) : replaceCRLF (c :: t) = c :: replaceCRLF t := by
  cases t with
  | nil => simp [replaceCRLF]
  | cons d t => rw [replaceCRLF]; simp [h]

theorem replaceCRLF_cr_ne {d : Char} (h : d ≠ '\n') (t : Text) :
    replaceCRLF ('\r' :: d :: t) = '\r' :: replaceCRLF (d :: t) := by
  rw [replaceCRLF]; simp [h]

theorem replaceCRLF_crlf (t : Text) : replaceCRLF ('\r' :: '\n' :: t) = '\n' :: replaceCRLF t := by
  rw [replaceCRLF]; simp

theorem replaceCRLF_filter (t : Text) :
    (replaceCRLF t).filter (fun c => decide (c ≠ '\r')) = t.filter (fun c => decide (c ≠ '\r')) := by
  fun_induction replaceCRLF t with
  | case1 => rfl
  | case2 c => rfl
  | case3 c d t h ih =>
    obtain ⟨rfl, rfl⟩ := h
    rw [List.filter_cons, List.filter_cons, List.filter_cons, ih]
    rfl
  | case4 c d t h ih =>
    rw [List.filter_cons, List.filter_cons, ih]

theorem occurrences_crlf_cons (c : Char) (t : Text) :
    crlfCount (c :: t) = crlfCount t + if c = '\r' ∧ t.head? = some '\n' then 1 else 0 := by
  unfold crlfCount occurrences
  rw [show (c :: t).tails = (c :: t) :: t.tails from rfl, List.countP_cons]
  congr 1
  have : (decide (crlf <+: c :: t) = true) ↔ (c = '\r' ∧ t.head? = some '\n') := by
    rw [decide_eq_true_eq]
    unfold crlf
    cases t with
    | nil => simp [List.cons_prefix_cons]
    | cons d t => simp [List.cons_prefix_cons, eq_comm]
  simp only [this]

theorem replaceCRLF_length (t : Text) : (replaceCRLF t).length + crlfCount t = t.length := by
  fun_induction replaceCRLF t with
  | case1 => simp [crlfCount, occurrences, crlf]
  | case2 c => simp [occurrences_crlf_cons]; simp [crlfCount, occurrences, crlf]
  | case3 c d t h ih =>
    obtain ⟨rfl, rfl⟩ := h
    rw [occurrences_crlf_cons, occurrences_crlf_cons]
    simp; omega
  | case4 c d t h ih =>
    rw [occurrences_crlf_cons]
    simp only [List.head?_cons, Option.some.injEq, h, if_false, Nat.add_zero, List.length_cons] at ih ⊢
    omega

theorem replaceCRLF_sublist (t : Text) : (replaceCRLF t).Sublist t := by
  fun_induction replaceCRLF t with
  | case1 => exact .slnil
  | case2 c => exact List.Sublist.refl _
  | case3 c d t h ih => obtain ⟨rfl, rfl⟩ := h; exact (ih.cons_cons _).cons _
  | case4 c d t h ih => exact ih.cons_cons _

theorem infix_cons_iff' {c : Char} {t : Text} :
    crlf <:+: c :: t ↔ (c = '\r' ∧ t.head? = some '\n') ∨ crlf <:+: t := by
  rw [List.infix_cons_iff]
  unfold crlf
  cases t with
  | nil => simp [List.cons_prefix_cons]
  | cons d t => simp [List.cons_prefix_cons, eq_comm]

theorem not_crlf_one (c : Char) : ¬ crlf <:+: [c] := by
  rw [infix_cons_iff']
  simp [crlf]

theorem replaceCRLF_id {t : Text} (h : ¬ crlf <:+: t) : replaceCRLF t = t := by
  fun_induction replaceCRLF t with
  | case1 => rfl
  | case2 c => rfl
  | case3 c d t hc ih =>
    obtain ⟨rfl, rfl⟩ := hc
    exact absurd (infix_cons_iff'.2 (.inl ⟨rfl, rfl⟩)) h
  | case4 c d t hc ih =>
    rw [ih (fun h2 => h (infix_cons_iff'.2 (.inr h2)))]

/-- A piece without CR LF in front of a CR LF. -/
theorem replaceCRLF_piece {s : Text} (h : ¬ crlf <:+: s) (rest : Text) :
    replaceCRLF (s ++ crlf ++ rest) = s ++ '\n' :: replaceCRLF rest := by
  induction s with
  | nil => exact replaceCRLF_crlf rest
  | cons c s ih =>
    have h2 : ¬ crlf <:+: s := fun h2 => h (infix_cons_iff'.2 (.inr h2))
    have ih := ih h2
    have hc : ¬ (c = '\r' ∧ s.head? = some '\n') := fun h3 => h (infix_cons_iff'.2 (.inl h3))
    by_cases hr : c = '\r'
    · subst hr
      cases s with
      | nil =>
        change replaceCRLF ('\r' :: '\r' :: '\n' :: rest) = '\r' :: '\n' :: replaceCRLF rest
        rw [replaceCRLF_cr_ne (by decide), replaceCRLF_crlf]
      | cons d s =>
        have hd : d ≠ '\n' := by rintro rfl; exact hc ⟨rfl, rfl⟩
        simp only [List.cons_append] at ih ⊢
        rw [replaceCRLF_cr_ne hd, ih]
    · simp only [List.cons_append] at ih ⊢
      rw [replaceCRLF_cons_ne hr, ih]

theorem replaceCRLF_join {ss : List Text} (h : ∀ s ∈ ss, ¬ crlf <:+: s) :
    replaceCRLF (joinWith crlf ss) = joinWith ['\n'] ss := by
  induction ss with
  | nil => rfl
  | cons s ss ih =>
    cases ss with
    | nil => exact replaceCRLF_id (h s (by simp))
    | cons s2 ss =>
      rw [joinWith, replaceCRLF_piece (h s (by simp)), ih (fun x hx => h x (by simp [hx])),
        joinWith.eq_3 ['\n'] s (s2 :: ss) (by simp)]
      · simp
      · simp

/-- Every text is made of such pieces. -/
theorem exists_pieces (t : Text) : ∃ ss, ss ≠ [] ∧ (∀ s ∈ ss, ¬ crlf <:+: s) ∧ joinWith crlf ss = t := by
  fun_induction replaceCRLF t with
  | case1 => exact ⟨[[]], by simp, by simp [crlf], rfl⟩
  | case2 c => exact ⟨[[c]], by simp, by simp [not_crlf_one], rfl⟩
  | case3 c d t h ih =>
    obtain ⟨rfl, rfl⟩ := h
    obtain ⟨ss, h1, h2, rfl⟩ := ih
    refine ⟨[] :: ss, by simp, ?_, ?_⟩
    · intro s hs
      rcases List.mem_cons.1 hs with rfl | hs
      · simp [crlf]
      · exact h2 s hs
    · cases ss with
      | nil => exact absurd rfl h1
      | cons s ss => rfl
  | case4 c d t h ih =>
    obtain ⟨ss, h1, h2, h3⟩ := ih
    cases ss with
    | nil => exact absurd rfl h1
    | cons s ss =>
      have e : joinWith crlf ((c :: s) :: ss) = c :: d :: t := by
        rw [← h3]
        cases ss <;> rfl
      refine ⟨(c :: s) :: ss, by simp, ?_, e⟩
      intro x hx
      rcases List.mem_cons.1 hx with rfl | hx
      · rw [infix_cons_iff']
        rintro (⟨rfl, hh⟩ | h4)
        · apply h
          refine ⟨rfl, ?_⟩
          have : (joinWith crlf (s :: ss)).head? = some d := by rw [h3]; rfl
          cases s with
          | nil => simp at hh
          | cons y s =>
            simp only [List.head?_cons, Option.some.injEq] at hh
            subst hh
            cases ss <;> simp [joinWith] at this <;> exact this.symm
        · exact h2 s (by simp) h4
      · exact h2 x (by simp [hx])

theorem replaceCRLF_head (t : Text) (h : (replaceCRLF t).head? = some '\n') :
    t.head? = some '\n' ∨ crlf <+: t := by
  match t with
  | [] => simp [replaceCRLF] at h
  | [c] => left; simpa [replaceCRLF] using h
  | c :: d :: t =>
    by_cases hc : c = '\r' ∧ d = '\n'
    · obtain ⟨rfl, rfl⟩ := hc; right; exact ⟨t, rfl⟩
    · rw [replaceCRLF, if_neg hc] at h; left; simpa using h

theorem replaceCRLF_clean {t : Text} (h : ¬ ['\r', '\r', '\n'] <:+: t) : ¬ crlf <:+: replaceCRLF t := by
  fun_induction replaceCRLF t with
  | case1 => simp [crlf]
  | case2 c => exact not_crlf_one c
  | case3 c d t hc ih =>
    rw [infix_cons_iff']
    rintro (⟨h1, _⟩ | h1)
    · simp at h1
    · exact ih (fun h2 => h (h2.trans ⟨[c, d], [], by simp⟩)) h1
  | case4 c d t hc ih =>
    rw [infix_cons_iff']
    rintro (⟨rfl, h1⟩ | h1)
    · rcases replaceCRLF_head _ h1 with h2 | ⟨u, h2⟩
      · exact hc ⟨rfl, by simpa using h2⟩
      · exact h ⟨[], u, by rw [← h2]; rfl⟩
    · exact ih (fun h2 => h (h2.trans ⟨[c], [], by simp⟩)) h1

/-! ### Batches -/

theorem iterchar_eq {batch : Nat} (h : 0 < batch) (text : Text) : iterchar batch text = text := by
  fun_induction iterchar batch text with
  | case1 text h0 =>
    rw [List.take_eq_nil_iff] at h0
    rcases h0 with h0 | h0
    · omega
    · exact h0.symm
  | case2 text h0 ih => rw [ih, List.take_append_drop]

/-! ### Pipelines -/

section Pipe
variable {α β γ : Type}

/-- Sequencing of iterables. -/
def Gen.append (a b : Gen α) : Gen α :=
  match a.error with
  | some e => ⟨a.items, some e⟩
  | none => ⟨a.items ++ b.items, b.error⟩

theorem Gen.flatMap_cons (f : α → Gen β) (x : α) (xs : List α) (e : Option PyErr) :
    Gen.flatMap f (x :: xs) e = (f x).append (Gen.flatMap f xs e) := by
  unfold Gen.append
  rw [Gen.flatMap]
  cases (f x).error <;> rfl

theorem Gen.append_assoc (a b c : Gen α) : (a.append b).append c = a.append (b.append c) := by
  unfold Gen.append
  cases ha : a.error <;> cases hb : b.error <;> simp

theorem Gen.flatMap_append (f : α → Gen β) (xs ys : List α) (e : Option PyErr) :
    Gen.flatMap f (xs ++ ys) e = (Gen.flatMap f xs none).append (Gen.flatMap f ys e) := by
  induction xs with
  | nil => rfl
  | cons x xs ih => rw [List.cons_append, Gen.flatMap_cons, ih, Gen.flatMap_cons, Gen.append_assoc]

theorem Gen.flatMap_some (f : α → Gen β) (xs : List α) (e : PyErr) :
    Gen.flatMap f xs (some e) = (Gen.flatMap f xs none).append ⟨[], some e⟩ := by
  have := Gen.flatMap_append f xs [] (some e)
  simpa [Gen.flatMap] using this

theorem Gen.append_error {a b : Gen α} {e : PyErr} (h : a.error = some e) : a.append b = a := by
  unfold Gen.append; rw [h]; cases a; simp_all

theorem Gen.flatMap_append_gen (f : α → Gen β) (a b : Gen α) :
    Gen.flatMap f (a.append b).items (a.append b).error =
      (Gen.flatMap f a.items a.error).append (Gen.flatMap f b.items b.error) := by
  obtain ⟨ai, ae⟩ := a
  cases ae with
  | some e =>
    simp only [Gen.append]
    rw [Gen.flatMap_some, ← Gen.append]
    rw [Gen.append_assoc]
    rw [Gen.append_error (a := ⟨[], some e⟩) rfl]
  | none => simp only [Gen.append]; rw [Gen.flatMap_append, Gen.append]

theorem applyFilters_split (fs gs : List (α → Gen α)) (items : Gen α) :
    applyFilters (fs ++ gs) items = applyFilters gs (applyFilters fs items) := by
  induction fs generalizing items with
  | nil => rfl
  | cons f fs ih => rw [List.cons_append, applyFilters, ih, applyFilters]

theorem applyFilters_append (fs : List (α → Gen α)) (a b : Gen α) :
    applyFilters fs (a.append b) = (applyFilters fs a).append (applyFilters fs b) := by
  induction fs generalizing a b with
  | nil => rfl
  | cons f fs ih => rw [applyFilters, Gen.flatMap_append_gen, ih, applyFilters, applyFilters]

theorem applyFilters_pure (fs : List (α → List α)) (items : List α) :
    applyFilters (fs.map fun f x => Gen.ofList (f x)) (Gen.ofList items) =
      Gen.ofList (fs.foldl (fun xs f => xs.flatMap f) items) := by
  induction fs generalizing items with
  | nil => rfl
  | cons f fs ih =>
    have : ∀ xs : List α, Gen.flatMap (fun x => Gen.ofList (f x)) xs none = Gen.ofList (xs.flatMap f) := by
      intro xs
      induction xs with
      | nil => rfl
      | cons x xs ihx => rw [Gen.flatMap, ihx]; rfl
    rw [List.map_cons, applyFilters, List.foldl_cons, ← ih]
    congr 1
    exact this items

end Pipe

/-! ### Workers -/

section Work
variable {ι : Type}

theorem workTexts_ok (su : Setup) (ts : List Text) (s : WorkState) (hts : ∀ t ∈ ts, TextOk su t) :
    ∃ rs, List.Forall₂ (fun t r => textStats su t = .ok r) ts rs ∧
      workTexts su ts s = .ok ⟨rs.foldl AllStats.update s.combined, s.count + ts.length⟩ := by
  induction ts generalizing s with
  | nil => exact ⟨[], .nil, rfl⟩
  | cons t ts ih =>
    obtain ⟨r, hr⟩ := hts t (by simp)
    obtain ⟨rs, h1, h2⟩ := ih ⟨s.combined.update r, s.count + 1⟩ (fun t ht => hts t (by simp [ht]))
    refine ⟨r :: rs, .cons hr h1, ?_⟩
    simp only [workTexts, hr, bind, Except.bind, h2, List.foldl_cons, List.length_cons]
    congr 2; omega

theorem workTexts_error {su : Setup} {ts : List Text} {s : WorkState} {t : Text} (ht : t ∈ ts)
    (hn : ¬ TextOk su t) : ∃ e, workTexts su ts s = .error e := by
  induction ts generalizing s with
  | nil => simp at ht
  | cons t' ts ih =>
    cases hr : textStats su t' with
    | error e => exact ⟨e, by simp [workTexts, hr, bind, Except.bind]⟩
    | ok r =>
      rcases List.mem_cons.1 ht with rfl | ht
      · exact absurd ⟨r, hr⟩ hn
      · obtain ⟨e, he⟩ := ih (s := ⟨s.combined.update r, s.count + 1⟩) ht
        exact ⟨e, by simp [workTexts, hr, bind, Except.bind, he]⟩

/-- All texts of a list of items. -/
def textsOf (extract : ι → Gen Text) (items : List ι) : List Text := items.flatMap fun i => (extract i).items

theorem workItems_ok (su : Setup) (extract : ι → Gen Text) (items : List ι) (s : WorkState)
    (h : ∀ i ∈ items, ItemOk su extract i) :
    ∃ rs, List.Forall₂ (fun t r => textStats su t = .ok r) (textsOf extract items) rs ∧
      workItems su extract items s =
        .ok ⟨rs.foldl AllStats.update s.combined, s.count + (textsOf extract items).length⟩ := by
  induction items generalizing s with
  | nil => exact ⟨[], .nil, rfl⟩
  | cons i items ih =>
    obtain ⟨h1, h2⟩ := h i (by simp)
    obtain ⟨rs1, a1, a2⟩ := workTexts_ok su (extract i).items s h2
    obtain ⟨rs2, b1, b2⟩ := ih ⟨rs1.foldl AllStats.update s.combined, s.count + (extract i).items.length⟩
      (fun j hj => h j (by simp [hj]))
    refine ⟨rs1 ++ rs2, ?_, ?_⟩
    · rw [textsOf, List.flatMap_cons]; exact List.rel_append a1 b1
    · simp only [workItems, workItem, a2, h1, bind, Except.bind, b2, textsOf, List.flatMap_cons,
        List.length_append, List.foldl_append]
      congr 2
      omega

theorem workItems_error {su : Setup} {extract : ι → Gen Text} {items : List ι} {s : WorkState} {i : ι}
    (hi : i ∈ items) (hn : ¬ ItemOk su extract i) : ∃ e, workItems su extract items s = .error e := by
  induction items generalizing s with
  | nil => simp at hi
  | cons j items ih =>
    cases hj : workItem su extract s j with
    | error e => exact ⟨e, by simp [workItems, hj, bind, Except.bind]⟩
    | ok s' =>
      rcases List.mem_cons.1 hi with rfl | hi
      · exfalso
        apply hn
        unfold workItem at hj
        cases hw : workTexts su (extract i).items s with
        | error e => simp [hw, bind, Except.bind] at hj
        | ok s2 =>
          simp only [hw, bind, Except.bind] at hj
          cases he : (extract i).error with
          | some e => simp [he] at hj
          | none =>
            refine ⟨he, fun t ht => ?_⟩
            by_contra hnt
            obtain ⟨e, h3⟩ := workTexts_error (s := s) ht hnt
            rw [hw] at h3; simp at h3
      · obtain ⟨e, he⟩ := ih (s := s') hi
        exact ⟨e, by simp [workItems, hj, bind, Except.bind, he]⟩

theorem textStats_ok {su : Setup} (hfr : Fresh su.fresh) {t : Text} {s : AllStats} (h : textStats su t = .ok s) :
    StatsOk s := by
  unfold textStats at h
  simp only [bind, Except.bind] at h
  cases hp : AllStats.processAll su.hf su.letter su.layout su.fresh
      (typeText su.hf su.layout none (replaceCRLF (mapChars t charMap))).1 with
  | error e => simp [hp] at h
  | ok s' =>
    simp only [hp] at h
    split at h
    · simp only [Except.ok.injEq] at h
      rw [← h]
      exact statsOk_processAll hp (statsOk_fresh hfr)
    · simp at h
    · simp at h

theorem forall2_statsOk {su : Setup} (hfr : Fresh su.fresh) {ts : List Text} {rs : List AllStats}
    (h : List.Forall₂ (fun t r => textStats su t = .ok r) ts rs) : ∀ r ∈ rs, StatsOk r := by
  induction h with
  | nil => simp
  | cons h1 _ ih =>
    intro r hr
    rcases List.mem_cons.1 hr with rfl | hr
    · exact textStats_ok hfr h1
    · exact ih r hr

/-- Counts of the texts of some items. -/
noncomputable def itemsSem (su : Setup) (extract : ι → Gen Text) (items : List ι) (k : StatKey) : List (Option Nat) :=
  (textsOf extract items).map fun t => match textStats su t with
    | .ok r => sem r k
    | .error _ => none

theorem forall2_sem {su : Setup} {ts : List Text} {rs : List AllStats}
    (h : List.Forall₂ (fun t r => textStats su t = .ok r) ts rs) (k : StatKey) :
    rs.map (sem · k) = ts.map fun t => match textStats su t with
      | .ok r => sem r k
      | .error _ => none := by
  induction h with
  | nil => rfl
  | cons h1 _ ih => rw [List.map_cons, List.map_cons, ih, h1]

theorem written_sem {su : Setup} (hfr : Fresh su.fresh) (extract : ι → Gen Text) (parts : List (List ι))
    (h : ∀ p ∈ parts, ∀ i ∈ p, ItemOk su extract i) :
    ∃ rs, written su extract parts = .ok rs ∧ (∀ r ∈ rs, StatsOk r) ∧
      ∀ k, sumOpt (rs.map (sem · k)) = sumOpt (itemsSem su extract parts.flatten k) := by
  induction parts with
  | nil => exact ⟨[], rfl, by simp, fun k => rfl⟩
  | cons p ps ih =>
    obtain ⟨rs, h1, h2, h3⟩ := ih (fun q hq => h q (by simp [hq]))
    obtain ⟨ss, a1, a2⟩ := workItems_ok su extract p ⟨su.fresh, 0⟩ (h p (by simp))
    obtain ⟨c1, c2⟩ := combine_sem hfr (forall2_statsOk hfr a1)
    have hw : writeWorker su extract p =
        .ok (if (textsOf extract p).length > 0 then some (AllStats.combine su.fresh ss) else none) := by
      unfold writeWorker
      rw [a2]
      simp [bind, Except.bind, AllStats.combine]
    have hsem : ∀ k, sumOpt (itemsSem su extract (p :: ps).flatten k) =
        addOpt (sumOpt (ss.map (sem · k))) (sumOpt (rs.map (sem · k))) := by
      intro k
      rw [h3, forall2_sem a1, ← sumOpt_append]
      simp [itemsSem, textsOf, List.flatMap_append]
    by_cases hl : (textsOf extract p).length > 0
    · refine ⟨AllStats.combine su.fresh ss :: rs, ?_, ?_, ?_⟩
      · rw [written, hw, h1, if_pos hl]
      · intro r hr
        rcases List.mem_cons.1 hr with rfl | hr
        · exact c1
        · exact h2 r hr
      · intro k
        rw [hsem, List.map_cons, sumOpt_cons, c2]
    · refine ⟨rs, ?_, h2, ?_⟩
      · rw [written, hw, h1, if_neg hl]
      · intro k
        rw [hsem]
        have : textsOf extract p = [] := List.length_eq_zero_iff.1 (by omega)
        rw [this] at a1
        cases a1
        simp [sumOpt, addOpt_none_left]

end Work

end Lulua
