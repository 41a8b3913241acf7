import Verif.Proofs.Text
import Verif.Props.Stats

/-!
# C25, C45–C48: characters, pipelines and workers
-/

namespace Lulua.Props
open Lulua Spec

/-! ### C25 -/

section
variable {ι : Type}

/-- **C25**: whatever items each of any number of workers takes, in whatever order, and in whatever
order the results are combined: the counts are those of a single worker that takes all items in
order. -/
theorem C25_workers (su : Setup) (hfr : Fresh su.fresh) (extract : ι → Gen Text) (items : List ι)
    (hok : ∀ i ∈ items, ItemOk su extract i) (parts : List (List ι)) (hp : parts.flatten.Perm items) :
    ∃ one many, written su extract [items] = .ok one ∧ written su extract parts = .ok many ∧
      ∀ many', many'.Perm many →
        StatsEq (AllStats.combine su.fresh many') (AllStats.combine su.fresh one) := by
  have hok' : ∀ p ∈ parts, ∀ i ∈ p, ItemOk su extract i := fun p hpp i hi =>
    hok i (hp.mem_iff.1 (List.mem_flatten.2 ⟨p, hpp, hi⟩))
  obtain ⟨one, a1, a2, a3⟩ := written_sem hfr extract [items] (by simpa using hok)
  obtain ⟨many, b1, b2, b3⟩ := written_sem hfr extract parts hok'
  refine ⟨one, many, a1, b1, fun many' hm => ?_⟩
  obtain ⟨c1, c2⟩ := combine_sem hfr a2
  obtain ⟨d1, d2⟩ := combine_sem hfr (fun f hf => b2 f (hm.mem_iff.1 hf))
  rw [statsEq_iff d1 c1]
  intro k
  rw [c2, d2, a3, sumOpt_perm (hm.map _), b3]
  apply sumOpt_perm
  unfold itemsSem textsOf
  exact ((by simpa using hp : parts.flatten.Perm [items].flatten).flatMap_right _).map _

/-- **C25** (what is counted): the result is the combination of the statistics of the single texts,
each typed on its own. -/
theorem C25_texts (su : Setup) (hfr : Fresh su.fresh) (extract : ι → Gen Text) (parts : List (List ι))
    (hok : ∀ p ∈ parts, ∀ i ∈ p, ItemOk su extract i) :
    ∃ many texts, written su extract parts = .ok many ∧
      List.Forall₂ (fun t r => textStats su t = .ok r) (parts.flatten.flatMap fun i => (extract i).items) texts ∧
      StatsEq (AllStats.combine su.fresh many) (AllStats.combine su.fresh texts) := by
  obtain ⟨many, b1, b2, b3⟩ := written_sem hfr extract parts hok
  have hok' : ∀ i ∈ parts.flatten, ItemOk su extract i := fun i hi => by
    obtain ⟨p, hp, hi⟩ := List.mem_flatten.1 hi
    exact hok p hp i hi
  obtain ⟨rs, r1, _⟩ := workItems_ok su extract parts.flatten ⟨su.fresh, 0⟩ hok'
  refine ⟨many, rs, b1, r1, ?_⟩
  obtain ⟨c1, c2⟩ := combine_sem hfr b2
  obtain ⟨d1, d2⟩ := combine_sem hfr (forall2_statsOk hfr r1)
  rw [statsEq_iff c1 d1]
  intro k
  rw [c2, d2, b3, forall2_sem r1]
  rfl

/-- **C25** (one text): the text that is typed is the item's text with its characters mapped and line
endings replaced, and its statistics are those of exactly the events of typing it. -/
theorem C25_one_text (su : Setup) (t : Text) (s : AllStats) :
    textStats su t = .ok s ↔
      (typeText su.hf su.layout none (replaceCRLF (mapChars t charMap))).2 = .finished ∧
      AllStats.processAll su.hf su.letter su.layout su.fresh
        (typeText su.hf su.layout none (replaceCRLF (mapChars t charMap))).1 = .ok s := by
  unfold textStats
  simp only [bind, Except.bind]
  cases AllStats.processAll su.hf su.letter su.layout su.fresh
      (typeText su.hf su.layout none (replaceCRLF (mapChars t charMap))).1 with
  | error e => simp
  | ok s' =>
    cases (typeText su.hf su.layout none (replaceCRLF (mapChars t charMap))).2 <;> simp

/-- **C25** (failures): if an item fails, the result is an exception for every distribution. -/
theorem C25_failure (su : Setup) (extract : ι → Gen Text) (items : List ι) (i : ι) (hi : i ∈ items)
    (hbad : ¬ ItemOk su extract i) (parts : List (List ι)) (hp : parts.flatten.Perm items) :
    ∃ e, written su extract parts = .error e := by
  have hi := hp.mem_iff.2 hi
  clear hp
  induction parts with
  | nil => simp at hi
  | cons p ps ih =>
    rw [List.flatten_cons, List.mem_append] at hi
    by_cases hip : i ∈ p
    · obtain ⟨e, he⟩ := workItems_error (su := su) (extract := extract) (s := ⟨su.fresh, 0⟩) hip hbad
      exact ⟨e, by rw [written, show writeWorker su extract p = .error e from by
        simp [writeWorker, he, bind, Except.bind]]⟩
    · obtain ⟨e, he⟩ := ih (hi.resolve_left hip)
      cases hw : writeWorker su extract p with
      | error e' => exact ⟨e', by rw [written, hw]⟩
      | ok r => exact ⟨e, by rw [written, hw, he]⟩

end

/-- A setup for demonstration. -/
def demoSetup : Setup := ⟨demoHf, demoLetter, demoLayout, demoFresh⟩

/-- Items are lists of texts; an empty list is an item without text. -/
def demoExtract (l : List String) : Gen Text := .ofList (l.map String.toList)

example : Fresh demoSetup.fresh ∧ ∀ i ∈ [["aabA ab"], [], ["xab a\u000d\naA ", "ab "]], ItemOk demoSetup demoExtract i := by
  refine ⟨⟨rfl, rfl, rfl, rfl⟩, ?_⟩
  have h : ∀ i ∈ [["aabA ab"], [], ["xab a\u000d\naA ", "ab "]], (demoExtract i).error = none ∧
      ∀ t ∈ (demoExtract i).items, (match textStats demoSetup t with
        | .ok _ => true
        | .error _ => false) = true := by decide +kernel
  intro i hi
  refine ⟨(h i hi).1, fun t ht => ?_⟩
  have := (h i hi).2 t ht
  cases hs : textStats demoSetup t with
  | error e => rw [hs] at this; simp at this
  | ok s => exact ⟨s, hs⟩

/-- Two workers, one of which takes two of the items, against one worker. -/
example : ((written demoSetup demoExtract [[["xab aaA ", "ab "], []], [], [["aabA ab"]]]).map fun rs =>
      (rs.length, (AllStats.combine demoFresh rs).words.words.count "ab".toList)) = .ok (2, 2) ∧
    ((written demoSetup demoExtract [[["aabA ab"], [], ["xab aaA ", "ab "]]]).map fun rs =>
      (rs.length, (AllStats.combine demoFresh rs).words.words.count "ab".toList)) = .ok (1, 2) := by decide +kernel

/-- A failing item: its archive breaks after one text. -/
example : ¬ ItemOk demoSetup (fun _ : Unit => ⟨["ab ".toList], some .valueError⟩) () := by
  rintro ⟨h, _⟩; simp at h

/-! ### C45 -/

/-- **C45** (local): the result consists of one piece per character, in order: the replacement if the
table lists the character, the character itself otherwise. The table lists no character twice. -/
theorem C45_local (text : Text) :
    (∃ pieces, mapChars text charMap = pieces.flatten ∧
      List.Forall₂ (fun c p => (c, p) ∈ charMap ∨ ((∀ r, (c, r) ∉ charMap) ∧ p = [c])) text pieces) ∧
    (charMap.map Prod.fst).Nodup := by
  refine ⟨⟨text.map fun x => match charMap.get? x with
    | some y => y
    | none => [x], ?_, ?_⟩, by decide +kernel⟩
  · rw [mapChars, List.flatMap_def]; rfl
  · rw [List.forall₂_map_right_iff, List.forall₂_same]
    intro c _
    cases h : charMap.get? c with
    | some y => exact .inl (Dict.mem_of_get? h)
    | none =>
      refine .inr ⟨fun r hr => ?_, rfl⟩
      exact absurd (List.mem_map_of_mem (f := Prod.fst) hr) (Dict.get?_eq_none_iff.1 h)

/-- **C45** (concatenation). -/
theorem C45_append (a b : Text) : mapChars (a ++ b) charMap = mapChars a charMap ++ mapChars b charMap :=
  mapChars_append a b _

/-- **C45** (complete): no listed character remains. -/
theorem C45_complete (text : Text) : ∀ c ∈ mapChars text charMap, ∀ r, (c, r) ∉ charMap := by
  intro c hc r hr
  have hn : charMap.get? c = none := by
    obtain ⟨x, _, h⟩ := mem_mapChars.1 hc
    rcases h with ⟨h, rfl⟩ | ⟨y, h, hy⟩
    · exact h
    · exact charMap_clean _ (Dict.mem_of_get? h) c hy
  exact absurd (List.mem_map_of_mem (f := Prod.fst) hr) (Dict.get?_eq_none_iff.1 hn)

/-- **C45** (idempotent). -/
theorem C45_idempotent (text : Text) : mapChars (mapChars text charMap) charMap = mapChars text charMap := by
  apply mapChars_id
  intro c hc
  rw [Dict.get?_eq_none_iff]
  intro hk
  obtain ⟨⟨c', r⟩, hm, rfl⟩ := List.mem_map.1 hk
  exact C45_complete text c' hc r hm

/-- **C45** (digits): what becomes of the ASCII digits: the Arabic-Indic digit of the same value. -/
theorem C45_digits (n : Nat) (h : n < 10) :
    mapChars [Char.ofNat (48 + n)] charMap = [Char.ofNat (0x660 + n)] := by
  have : ∀ n < 10, mapChars [Char.ofNat (48 + n)] charMap = [Char.ofNat (0x660 + n)] := by decide +kernel
  exact this n h

example : mapChars "a1?ﻷ".toList charMap = "a١؟لأ".toList := by decide +kernel

/-! ### C46 -/

/-- **C46** (what is replaced): if a text is made of pieces without CR LF, put together with CR LF, the
result is the same pieces put together with LF. Every text is. -/
theorem C46_pieces_partial :
    (∀ ss : List Text, (∀ s ∈ ss, ¬ crlf <:+: s) → replaceCRLF (joinWith crlf ss) = joinWith ['\n'] ss) ∧
    (∀ t : Text, ∃ ss, (∀ s ∈ ss, ¬ crlf <:+: s) ∧ joinWith crlf ss = t) := by
  refine ⟨fun ss h => replaceCRLF_join h, fun t => ?_⟩
  obtain ⟨ss, _, h1, h2⟩ := exists_pieces t
  exact ⟨ss, h1, h2⟩

/-- **C46** (nothing else): only CR is removed, once for every CR LF. -/
theorem C46_only_cr_partial (t : Text) :
    (replaceCRLF t).Sublist t ∧
    (replaceCRLF t).filter (fun c => decide (c ≠ '\r')) = t.filter (fun c => decide (c ≠ '\r')) ∧
    (replaceCRLF t).length + crlfCount t = t.length :=
  ⟨replaceCRLF_sublist t, replaceCRLF_filter t, replaceCRLF_length t⟩

/-- **C46** (no CR LF remains), for texts without CR CR LF. -/
theorem C46_clean_partial (t : Text) (h : ¬ ['\r', '\r', '\n'] <:+: t) : ¬ crlf <:+: replaceCRLF t :=
  replaceCRLF_clean h

/-- **C46** (false in general): a CR LF can remain. -/
theorem C46_refuted : ∃ t, crlf <:+: replaceCRLF t := ⟨['a', '\r', '\r', '\n'], by decide +kernel⟩

/-- **C46** (exactly when): a CR LF remains iff the text contains CR CR LF. -/
theorem C46_remains_iff (t : Text) : crlf <:+: replaceCRLF t ↔ ['\r', '\r', '\n'] <:+: t := by
  refine ⟨fun h => by_contra fun h2 => replaceCRLF_clean h2 h, ?_⟩
  rintro ⟨a, b, rfl⟩
  induction a using replaceCRLF.induct with
  | case1 =>
    refine ⟨[], replaceCRLF b, ?_⟩
    change crlf ++ _ = replaceCRLF ('\r' :: '\r' :: '\n' :: b)
    rw [replaceCRLF_cr_ne (by decide), replaceCRLF_crlf]; rfl
  | case2 c =>
    refine ⟨[c], replaceCRLF b, ?_⟩
    change [c] ++ crlf ++ _ = replaceCRLF (c :: '\r' :: '\r' :: '\n' :: b)
    by_cases hc : c = '\r'
    · subst hc
      rw [replaceCRLF_cr_ne (by decide), replaceCRLF_cr_ne (by decide), replaceCRLF_crlf]; rfl
    · rw [replaceCRLF_cons_ne hc, replaceCRLF_cr_ne (by decide), replaceCRLF_crlf]; rfl
  | case3 c d t h ih =>
    obtain ⟨rfl, rfl⟩ := h
    obtain ⟨x, y, ih⟩ := ih
    refine ⟨'\n' :: x, y, ?_⟩
    simp only [List.cons_append]
    rw [replaceCRLF_crlf]
    simp only [List.append_assoc] at ih ⊢
    rw [ih]
  | case4 c d t h ih =>
    obtain ⟨x, y, ih⟩ := ih
    refine ⟨c :: x, y, ?_⟩
    simp only [List.cons_append]
    rw [replaceCRLF, if_neg h]
    simp only [List.append_assoc, List.cons_append] at ih ⊢
    rw [ih]

example : ¬ ['\r', '\r', '\n'] <:+: "a\u000d\n\u000db\u000d\n".toList ∧
    replaceCRLF "a\u000d\n\u000db\u000d\n".toList = "a\n\u000db\n".toList := by decide +kernel

/-! ### C47 -/

/-- **C47**: the characters of the file in order, for every batch size. -/
theorem C47_iterchar (batch : Nat) (h : 0 < batch) (content : Text) : iterchar batch content = content :=
  iterchar_eq h content

example : iterchar (1024 * 1024) ['a', 'b'] = ['a', 'b'] := C47_iterchar _ (by decide) _

/-! ### C48 -/

section
variable {α : Type}

/-- **C48** (order): with filters that do not fail, the first filter is applied to every item, the
results are put together in order, and so on. -/
theorem C48_order (fs : List (α → List α)) (items : List α) :
    applyFilters (fs.map fun f x => Gen.ofList (f x)) (Gen.ofList items) =
      Gen.ofList (fs.foldl (fun xs f => (xs.map f).flatten) items) := by
  rw [applyFilters_pure]
  simp [List.flatMap_def]

/-- **C48** (splitting the pipeline), with filters that may fail. -/
theorem C48_split_filters (fs gs : List (α → Gen α)) (items : Gen α) :
    applyFilters (fs ++ gs) items = applyFilters gs (applyFilters fs items) :=
  applyFilters_split fs gs items

/-- **C48** (splitting the items), with filters that may fail: what comes after the first failure is
not reached. -/
theorem C48_split_items (fs : List (α → Gen α)) (xs ys : List α) :
    let a := applyFilters fs (Gen.ofList xs)
    let b := applyFilters fs (Gen.ofList ys)
    applyFilters fs (Gen.ofList (xs ++ ys)) =
      if a.error = none then ⟨a.items ++ b.items, b.error⟩ else a := by
  intro a b
  have := applyFilters_append fs (Gen.ofList xs) (Gen.ofList ys)
  have e : (Gen.ofList xs).append (Gen.ofList ys) = Gen.ofList (xs ++ ys) := rfl
  rw [e] at this
  rw [this]
  change Gen.append a b = _
  unfold Gen.append
  obtain ⟨ai, ae⟩ := a
  cases ae <;> rfl

/-- **C48** (nothing to do). -/
theorem C48_empty (fs : List (α → Gen α)) (items : Gen α) :
    applyFilters [] items = items ∧ applyFilters fs (Gen.ofList []) = Gen.ofList [] := by
  refine ⟨rfl, ?_⟩
  induction fs with
  | nil => rfl
  | cons f fs ih => rw [applyFilters]; exact ih

end

example : applyFilters [fun x : Nat => Gen.ofList [x, x + 1], fun x => if x = 3 then ⟨[7], some .valueError⟩ else .ofList [x]]
    (.ofList [1, 2, 3]) = ⟨[1, 2, 2, 7], some .valueError⟩ := by decide +kernel

end Lulua.Props
