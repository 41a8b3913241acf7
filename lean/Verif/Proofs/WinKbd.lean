import Verif.Proofs.Xmodmap
import Verif.Spec.WinKbd

/-!
# Lemmas about the Windows driver
-/

namespace Lulua
open Spec

/-! ### Sorting -/

theorem tupleLe_total : ∀ a b, tupleLe a b = true ∨ tupleLe b a = true
  | [], _ => .inl rfl
  | _ :: _, [] => .inr rfl
  | a :: as, b :: bs => by
    have := tupleLe_total as bs
    simp only [tupleLe, Bool.or_eq_true, decide_eq_true_eq, Bool.and_eq_true, beq_iff_eq]
    rcases Nat.lt_trichotomy a b with h | h | h
    · exact .inl (.inl h)
    · exact this.imp (fun t => .inr ⟨h, t⟩) (fun t => .inr ⟨h.symm, t⟩)
    · exact .inr (.inl h)

theorem tupleLe_trans : ∀ a b c, tupleLe a b = true → tupleLe b c = true → tupleLe a c = true
  | [], _, _, _, _ => rfl
  | _ :: _, [], _, h, _ => by cases h
  | _ :: _, _ :: _, [], _, h => by cases h
  | a :: as, b :: bs, c :: cs, h1, h2 => by
    have := tupleLe_trans as bs cs
    simp only [tupleLe, Bool.or_eq_true, decide_eq_true_eq, Bool.and_eq_true, beq_iff_eq] at h1 h2 ⊢
    rcases h1 with h1 | ⟨rfl, h1⟩ <;> rcases h2 with h2 | ⟨rfl, h2⟩
    · exact .inl (by omega)
    · exact .inl h1
    · exact .inl h2
    · exact .inr ⟨rfl, this h1 h2⟩

theorem sortedByKey_perm {ν : Type} (l : List (List Nat × ν)) : (sortedByKey l).Perm l := List.perm_insertionSort _ l

theorem sortedByKey_sorted {ν : Type} (l : List (List Nat × ν)) :
    (sortedByKey l).Pairwise fun a b => tupleLe a.1 b.1 = true := by
  have : Std.Total (fun a b : List Nat × ν => tupleLe a.1 b.1 = true) := ⟨fun a b => tupleLe_total a.1 b.1⟩
  have : IsTrans (List Nat × ν) (fun a b => tupleLe a.1 b.1 = true) := ⟨fun a b c => tupleLe_trans a.1 b.1 c.1⟩
  exact List.pairwise_insertionSort _ l

/-- Rows of a table made from the keys of one shape. -/
theorem sorted_rows {ν : Type} {m : Dict (List Nat) ν} (wf : Dict.WF m) (p : List Nat × ν → Bool) (shape : Nat → List Nat)
    (pick : List Nat → Nat) (hp : ∀ x, p x = true ↔ ∃ c, x.1 = shape c) (hpick : ∀ c, pick (shape c) = c)
    (hle : ∀ a b, tupleLe (shape a) (shape b) = true → a ≤ b) :
    ∃ rows : List (Nat × ν), ((sortedByKey (m.filter p)).map fun x => some (pick x.1, x.2)) = rows.map some ∧
      rows.Pairwise (fun a b => a.1 < b.1) ∧ ∀ c v, (c, v) ∈ rows ↔ m.get? (shape c) = some v := by
  refine ⟨(sortedByKey (m.filter p)).map fun x => (pick x.1, x.2), by simp, ?_, ?_⟩
  · rw [List.pairwise_map]
    have hnd : (sortedByKey (m.filter p)).Pairwise fun a b => a.1 ≠ b.1 := by
      have : ((sortedByKey (m.filter p)).map Prod.fst).Nodup := by
        rw [((sortedByKey_perm (m.filter p)).map Prod.fst).nodup_iff]
        exact List.Nodup.sublist (List.filter_sublist.map _) wf
      rw [List.Nodup, List.pairwise_map] at this
      exact this
    refine ((sortedByKey_sorted (m.filter p)).and hnd).imp_of_mem ?_
    rintro a b ha hb ⟨h1, h2⟩
    rw [(sortedByKey_perm _).mem_iff, List.mem_filter] at ha hb
    obtain ⟨c, hc⟩ := (hp a).1 ha.2
    obtain ⟨c', hc'⟩ := (hp b).1 hb.2
    simp only [hc, hc', hpick] at h1 h2 ⊢
    exact lt_of_le_of_ne (hle _ _ h1) (fun h => h2 (by rw [h]))
  · intro c v
    rw [Dict.get?_eq_some_iff wf, List.mem_map]
    constructor
    · rintro ⟨x, hx, he⟩
      rw [(sortedByKey_perm _).mem_iff, List.mem_filter] at hx
      obtain ⟨c', hc'⟩ := (hp x).1 hx.2
      simp only [hc', hpick, Prod.mk.injEq] at he
      obtain ⟨rfl, rfl⟩ := he
      rw [← hc']
      exact hx.1
    · intro h
      refine ⟨(shape c, v), ?_, by simp [hpick]⟩
      rw [(sortedByKey_perm _).mem_iff, List.mem_filter]
      exact ⟨h, (hp _).2 ⟨c, rfl⟩⟩

theorem length_two_iff (l : List Nat) (e : Nat) : (l.length == 2 && l[0]? == some e) = true ↔ ∃ c, l = [e, c] := by
  match l with
  | [] => simp
  | [_] => simp
  | [a, b] => simp
  | _ :: _ :: _ :: _ => simp

theorem length_one_iff (l : List Nat) : (l.length == 1) = true ↔ ∃ c, l = [c] := by
  match l with
  | [] => simp
  | [_] => simp
  | _ :: _ :: _ => simp

/-! ### Grouping -/

theorem filter_orderedInsert_len {α : Type} (f : α → Nat) (n : Nat) (a : α) (l : List α) (h : l.Pairwise fun a b => f a ≤ f b) :
    (l.orderedInsert (fun a b => f a ≤ f b) a).filter (fun x => f x = n) = (a :: l).filter (fun x => f x = n) := by
  induction l with
  | nil => rfl
  | cons b l ih =>
    rw [List.orderedInsert_cons]
    split
    · rfl
    · next hab =>
      rw [List.pairwise_cons] at h
      rw [List.filter_cons, ih h.2]
      simp only [List.filter_cons, decide_eq_true_eq]
      by_cases hb : f b = n
      · have : f a ≠ n := by omega
        simp [hb, this]
      · simp [hb]

theorem insertionSort_sorted {α : Type} (f : α → Nat) (l : List α) :
    (l.insertionSort fun a b => f a ≤ f b).Pairwise fun a b => f a ≤ f b := by
  have : Std.Total (fun a b : α => f a ≤ f b) := ⟨fun a b => Nat.le_total _ _⟩
  have : IsTrans α (fun a b => f a ≤ f b) := ⟨fun a b c => Nat.le_trans⟩
  exact List.pairwise_insertionSort _ l

theorem filter_insertionSort_len {α : Type} (f : α → Nat) (n : Nat) (l : List α) :
    (l.insertionSort fun a b => f a ≤ f b).filter (fun x => f x = n) = l.filter (fun x => f x = n) := by
  induction l with
  | nil => rfl
  | cons a l ih =>
    rw [List.insertionSort_cons, filter_orderedInsert_len f n a _ (insertionSort_sorted f l), List.filter_cons, ih, List.filter_cons]

/-- Groups of a sorted list: one for each key, increasing, holding all with that key. -/
theorem groupby_sorted {α : Type} (f : α → Nat) : ∀ (l : List α), l.Pairwise (fun a b => f a ≤ f b) →
    ((groupby f l).map Prod.fst).Pairwise (· < ·) ∧ (∀ n, n ∈ (groupby f l).map Prod.fst ↔ ∃ a ∈ l, f a = n) ∧
    ∀ g ∈ groupby f l, g.2 = l.filter (fun x => f x = g.1) := by
  intro l
  induction l with
  | nil => intro _; exact ⟨List.Pairwise.nil, by simp [groupby], by simp [groupby]⟩
  | cons a l ih =>
    intro h
    rw [List.pairwise_cons] at h
    obtain ⟨h1, h2, h3⟩ := ih h.2
    simp only [groupby]
    cases hg : groupby f l with
    | nil =>
      rw [hg] at h2
      have hl : l = [] := by
        cases l with
        | nil => rfl
        | cons b l => exact absurd ((h2 (f b)).2 ⟨b, by simp, rfl⟩) (by simp)
      subst hl
      simp [eq_comm]
    | cons p gs =>
      obtain ⟨k, g⟩ := p
      rw [hg] at h1 h2 h3
      have hk := (h2 k).1 (by simp)
      obtain ⟨x, hx, hxk⟩ := hk
      have hak : f a ≤ k := hxk ▸ h.1 x hx
      simp only
      split
      · next he =>
        refine ⟨by simpa using h1, ?_, ?_⟩
        · intro n
          have := h2 n
          simp only [List.map_cons, List.mem_cons] at this ⊢
          rw [this]
          constructor
          · rintro ⟨y, hy, rfl⟩; exact ⟨y, .inr hy, rfl⟩
          · rintro ⟨y, rfl | hy, rfl⟩
            · exact ⟨x, hx, by omega⟩
            · exact ⟨y, hy, rfl⟩
        · intro q hq
          rcases List.mem_cons.1 hq with rfl | hq
          · have := h3 (k, g) (by simp)
            simp only at this ⊢
            rw [List.filter_cons, if_pos (by simpa using he), this]
          · have hlt : k < q.1 := by
              rw [List.map_cons, List.pairwise_cons] at h1
              exact h1.1 q.1 (List.mem_map.2 ⟨q, hq, rfl⟩)
            rw [h3 q (by simp [hq]), List.filter_cons, if_neg (by simp; omega)]
      · next he =>
        have hlt : f a < k := by omega
        have hall : ∀ y ∈ l, k ≤ f y := by
          intro y hy
          have := (h2 (f y)).2 ⟨y, hy, rfl⟩
          rw [List.map_cons, List.mem_cons] at this
          rw [List.map_cons, List.pairwise_cons] at h1
          rcases this with h | h
          · exact le_of_eq h.symm
          · exact le_of_lt (h1.1 _ h)
        refine ⟨?_, ?_, ?_⟩
        · rw [List.map_cons, List.pairwise_cons]
          refine ⟨?_, h1⟩
          intro n hn
          obtain ⟨y, hy, rfl⟩ := (h2 n).1 hn
          have := hall y hy
          show f a < f y
          omega
        · intro n
          rw [List.map_cons, List.mem_cons, h2 n]
          constructor
          · rintro (rfl | ⟨y, hy, rfl⟩)
            · exact ⟨a, by simp, rfl⟩
            · exact ⟨y, by simp [hy], rfl⟩
          · rintro ⟨y, hy, rfl⟩
            rcases List.mem_cons.1 hy with rfl | hy
            · exact .inl rfl
            · exact .inr ⟨y, hy, rfl⟩
        · intro q hq
          rcases List.mem_cons.1 hq with rfl | hq
          · simp only
            rw [List.filter_cons, if_pos (by simp)]
            have : l.filter (fun x => decide (f x = f a)) = [] := by
              rw [List.filter_eq_nil_iff]
              intro y hy
              have := hall y hy
              simp
              omega
            rw [this]
          · have hq1 : k ≤ q.1 := by
              obtain ⟨y, hy, he⟩ := (h2 q.1).1 (List.mem_map.2 ⟨q, hq, rfl⟩)
              rw [← he]; exact hall y hy
            rw [h3 q hq, List.filter_cons, if_neg (by simp; omega)]

/-! ### Characters -/

theorem wcharRepr_ok {v : LVal} {n : Nat} : wcharRepr v = .ok n ↔ WcharSays v n := by
  unfold WcharSays
  match v with
  | .other 0 => simp [wcharRepr, wcharNone, eq_comm]
  | .other (k + 1) => simp [wcharRepr]
  | .str [] => simp [wcharRepr]
  | .str [c] => simp [wcharRepr, eq_comm]
  | .str (_ :: _ :: _) => simp [wcharRepr]

theorem generate_ok {n : Nat} {g : List CharEntry} {p : String} {t : WTable} :
    generate n g p = .ok t ↔ ∃ rows, t = ⟨"aVkToWch" ++ p ++ toString n, n, rows ++ [none]⟩ ∧ List.Forall₂ RowSays g rows := by
  simp only [generate, bind_ok_iff, Except.ok.injEq, mapM_ok_iff]
  constructor
  · rintro ⟨rows, h, rfl⟩
    refine ⟨rows, rfl, h.imp ?_⟩
    rintro e r ⟨cs, h1, rfl⟩
    exact ⟨cs, rfl, h1.imp fun v n h => wcharRepr_ok.1 h⟩
  · rintro ⟨rows, rfl, h⟩
    refine ⟨rows, h.imp ?_, rfl⟩
    rintro e r ⟨cs, rfl, h1⟩
    exact ⟨cs, h1.imp fun v n h => wcharRepr_ok.2 h, rfl⟩

theorem generate_numpad : generate 1 numpad "Num" = .ok numpadTable := by decide +kernel

/-! ### Modifiers -/

def bitsOk (i n : Nat) : Bool :=
  decide (n < 9) && modifierBits.all (fun p => i.testBit p.2 == (layerKeys.getD n []).contains p.1)

theorem bitsOk_iff (i n : Nat) : BitsOfLayer i n ↔ bitsOk i n = true := by
  unfold BitsOfLayer bitsOk
  simp only [Bool.and_eq_true, decide_eq_true_eq, List.all_eq_true, beq_iff_eq]
  have hb : ∀ (a : Bool) (x : Nat) (l : List Nat), (a = true ↔ x ∈ l) ↔ a = l.contains x := by
    intro a x l
    rw [← List.contains_iff_mem]
    cases a <;> cases l.contains x <;> simp
  constructor
  · rintro ⟨keys, h1, h2⟩
    have hn : n < layerKeys.length := (List.getElem?_eq_some_iff.1 h1).1
    refine ⟨hn, ?_⟩
    intro p hp
    rw [List.getD_eq_getElem?_getD, h1]
    exact (hb _ _ _).1 (h2 p hp)
  · rintro ⟨h1, h2⟩
    have h1' : n < layerKeys.length := h1
    refine ⟨layerKeys[n], List.getElem?_eq_getElem h1', ?_⟩
    intro p hp
    have := h2 p hp
    rw [List.getD_eq_getElem?_getD, List.getElem?_eq_getElem h1'] at this
    exact (hb _ _ _).2 this

/-! ### The whole driver -/

theorem firstKey_ok {vks : List VkVal} {v : VkVal} : firstKey vks = .ok v ↔ vks.find? isKey = some v := by
  induction vks with
  | nil => simp [firstKey]
  | cons x vks ih =>
    cases x with
    | key n => simp [firstKey, isKey]
    | flag n => simpa [firstKey, isKey] using ih

theorem wf_driverScancodes {m : Dict (List Nat) (List VkVal)} (wf : Dict.WF m) : Dict.WF (driverScancodes m) :=
  Dict.wf_set (Dict.wf_set (Dict.wf_set (Dict.wf_set wf _ _) _ _) _ _) _ _

theorem rowOf_of_mem {ν : Type} {rows : List (Nat × ν)} (hs : rows.Pairwise fun a b => a.1 < b.1) {c : Nat} {v : ν}
    (h : (c, v) ∈ rows) : rowOf (rows.map some) c = some v := by
  unfold rowOf
  have : (rows.map some).filterMap id = rows := by simp
  rw [this]
  cases hf : rows.find? (fun r => r.1 = c) with
  | none =>
    rw [List.find?_eq_none] at hf
    exact absurd (decide_eq_true (rfl : c = c)) (hf _ h)
  | some r =>
    have h1 : r.1 = c := by simpa using List.find?_some hf
    have h2 := List.mem_of_find?_eq_some hf
    have hnd : rows.Pairwise fun a b => a.1 ≠ b.1 := hs.imp fun h => Nat.ne_of_lt h
    have : r = (c, v) := by
      have : (rows.map Prod.fst).Nodup := by rw [List.Nodup, List.pairwise_map]; exact hnd
      exact List.inj_on_of_nodup_map this h2 h h1
    rw [this]
    rfl

end Lulua
