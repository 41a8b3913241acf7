import Verif.Spec.Combination
import Verif.Props.Keyboard

/-! # C141: combinations as keys, across processes -/

namespace Lulua.Props

open Lulua.Spec Lulua.Combination Lulua.Spec.Combination

theorem sameSet_iff (a b : List Button) : sameSet a b = true ↔ a.toFinset = b.toFinset := by
  simp only [sameSet, Bool.and_eq_true, List.all_eq_true, List.contains_iff_mem, Finset.ext_iff, List.mem_toFinset]
  exact ⟨fun h x => ⟨h.1 x, h.2 x⟩, fun h => ⟨fun x => (h x).1, fun x => (h x).2⟩⟩

/-- Combinations are equal exactly if both sets are, whatever the order in which they are iterated and whatever their stored
hashes. -/
theorem C141_equal (c d : Obj) : c.eq d = true ↔ Obj.sets c = Obj.sets d := by
  simp only [Obj.eq, Bool.and_eq_true, sameSet_iff, Obj.sets, Prod.mk.injEq]
  exact and_comm

theorem has_hash {P : Type} {H : P → PairHash} {p : P} {c : Obj} (h : Has H p c) :
    c.hash = H p c.modifier c.buttons := by
  cases h <;> rfl

theorem has_nodup {P : Type} {H : P → PairHash} {p : P} {c : Obj} (h : Has H p c) :
    c.modifier.Nodup ∧ c.buttons.Nodup := by
  induction h with
  | made p m b hm hb => exact ⟨hm, hb⟩
  | loaded p q order c _ ho ih => exact ⟨(ho _).nodup_iff.2 ih.1, (ho _).nodup_iff.2 ih.2⟩

/-- Equal combinations of a process have equal hashes, however often and through whatever processes they were pickled. -/
theorem C141_hash {P : Type} (H : P → PairHash) (hH : ∀ p, Respects (H p)) (p : P) (c d : Obj)
    (hc : Has H p c) (hd : Has H p d) (h : c.eq d = true) : c.hash = d.hash := by
  rw [has_hash hc, has_hash hd]
  have := (C141_equal c d).1 h
  simp only [Obj.sets, Prod.mk.injEq] at this
  exact hH p _ _ _ _ this.1 this.2

/-- A combination loaded by a process is equal to what was pickled. -/
theorem C141_loaded (H : PairHash) (order : List Button → List Button) (ho : IsOrder order) (c : Obj) :
    (reload H order c).eq c = true := by
  rw [C141_equal]
  simp only [Obj.sets, reload, Obj.setstate, Obj.getstate, Obj.init, Prod.mk.injEq]
  exact ⟨List.toFinset_eq_of_perm _ _ (ho _), List.toFinset_eq_of_perm _ _ (ho _)⟩

/-- Entries of a dictionary of a process: the keys are its combinations, with their hashes. -/
private def Good {α : Type} {P : Type} (H : P → PairHash) (p : P) (d : Table α) : Prop :=
  ∀ e ∈ d, e.1 = e.2.1.hash ∧ Has H p e.2.1

private theorem hit_iff {α P : Type} {H : P → PairHash} (hH : ∀ p, Respects (H p)) {p : P} {k : Obj} (hk : Has H p k)
    {e : Int × Obj × α} (he : e.1 = e.2.1.hash ∧ Has H p e.2.1) : hit k e = true ↔ Obj.sets e.2.1 = Obj.sets k := by
  simp only [hit, Bool.and_eq_true, beq_iff_eq]
  constructor
  · exact fun h => (C141_equal _ _).1 h.2
  · intro h
    have h' := (C141_equal _ _).2 h
    exact ⟨he.1.trans (C141_hash H hH p _ _ he.2 hk h'), h'⟩

private theorem good_set {α P : Type} {H : P → PairHash} {p : P} {k : Obj} (hk : Has H p k) (v : α) :
    ∀ {d : Table α}, Good H p d → Good H p (Table.set d k v)
  | [], _ => by
    intro e he
    simp only [Table.set, List.mem_singleton] at he
    subst he
    exact ⟨rfl, hk⟩
  | x :: d, h => by
    have hx := h x (List.mem_cons_self ..)
    have hd : Good H p d := fun e he => h e (List.mem_cons_of_mem _ he)
    unfold Table.set
    split
    · intro e he
      rcases List.mem_cons.1 he with rfl | he
      · exact hx
      · exact hd e he
    · intro e he
      rcases List.mem_cons.1 he with rfl | he
      · exact hx
      · exact good_set hk v hd e he

private theorem get_set {α P : Type} {H : P → PairHash} (hH : ∀ p, Respects (H p)) {p : P} {k q : Obj} (hk : Has H p k)
    (hq : Has H p q) (v : α) : ∀ {d : Table α}, Good H p d →
    Table.get (Table.set d k v) q = if Obj.sets k = Obj.sets q then some v else Table.get d q
  | [], _ => by
    have := hit_iff hH hq (e := (k.hash, k, v)) ⟨rfl, hk⟩
    by_cases hs : Obj.sets k = Obj.sets q
    · simp [Table.set, Table.get, this.2 hs, hs]
    · have hf : hit q (k.hash, k, v) = false := by
        rw [Bool.eq_false_iff]; exact fun h => hs (this.1 h)
      simp [Table.set, Table.get, hf, hs]
  | x :: d, h => by
    have hx := h x (List.mem_cons_self ..)
    have hd : Good H p d := fun e he => h e (List.mem_cons_of_mem _ he)
    have hqx := hit_iff hH hq hx
    have hkx := hit_iff hH hk hx
    have ih := get_set hH hk hq v hd
    unfold Table.set
    split
    · rename_i hh
      have e1 := hkx.1 hh
      have hqx' := hit_iff hH hq (e := (x.1, x.2.1, v)) hx
      by_cases hs : Obj.sets k = Obj.sets q
      · simp [Table.get, hqx'.2 (e1.trans hs), hs]
      · have hf : hit q (x.1, x.2.1, v) = false := by
          rw [Bool.eq_false_iff]; exact fun h => hs (e1.symm.trans (hqx'.1 h))
        have hf' : hit q x = false := by
          rw [Bool.eq_false_iff]; exact fun h => hs (e1.symm.trans (hqx.1 h))
        simp [Table.get, hf, hf', hs]
    · rename_i hh
      by_cases hx' : hit q x = true
      · have hs : Obj.sets k ≠ Obj.sets q := fun hs => hh (hkx.2 ((hqx.1 hx').trans hs.symm))
        simp [Table.get, hx', hs]
      · have hf : hit q x = false := by simpa using hx'
        have a1 : Table.get (x :: Table.set d k v) q = Table.get (Table.set d k v) q := by simp [Table.get, hf]
        have a2 : Table.get (x :: d) q = Table.get d q := by simp [Table.get, hf]
        rw [a1, a2, ih]

/-- A dictionary with combinations as keys gives for a combination the value last assigned to its two sets, also if the keys
or the combination looked for were loaded from pickles of other processes. -/
theorem C141_lookup {α P : Type} (H : P → PairHash) (hH : ∀ p, Respects (H p)) (p : P) (as : List (Obj × α))
    (has : ∀ a ∈ as, Has H p a.1) (q : Obj) (hq : Has H p q) :
    (Table.run as).get q = lastFor (Obj.sets q) as := by
  have key : ∀ (as : List (Obj × α)) (d : Table α), (∀ a ∈ as, Has H p a.1) → Good H p d →
      Table.get (as.foldl (fun d a => Table.set d a.1 a.2) d) q = (lastFor (Obj.sets q) as).or (Table.get d q) := by
    intro as
    induction as with
    | nil => intro d _ _; simp [lastFor]
    | cons a as ih =>
      intro d h hd
      have ha := h a (List.mem_cons_self ..)
      rw [List.foldl_cons, ih _ (fun b hb => h b (List.mem_cons_of_mem _ hb)) (good_set ha a.2 hd),
        get_set hH ha hq a.2 hd, lastFor]
      cases lastFor (Obj.sets q) as <;> by_cases hs : Obj.sets a.1 = Obj.sets q <;> simp [hs]
  have := key as [] has (fun e he => absurd he List.not_mem_nil)
  rw [Table.run, this]
  simp [Table.get]

/-- No two keys of such a dictionary are equal, so its entries are an association list as the other files have it. -/
theorem C141_keys {α P : Type} (H : P → PairHash) (hH : ∀ p, Respects (H p)) (p : P) (as : List (Obj × α))
    (has : ∀ a ∈ as, Has H p a.1) : ((Table.run as).map fun e => Obj.sets e.2.1).Nodup := by
  have mem : ∀ (k : Obj) (v : α) (d : Table α) (s), s ∈ (Table.set d k v).map (fun e => Obj.sets e.2.1) →
      s = Obj.sets k ∨ s ∈ d.map (fun e => Obj.sets e.2.1) := by
    intro k v d
    induction d with
    | nil => intro s hs; left; simpa [Table.set] using hs
    | cons x d ih =>
      intro s hs
      unfold Table.set at hs
      split at hs
      · right; simpa using hs
      · rcases List.mem_cons.1 (by simpa only [List.map_cons] using hs) with h | h
        · right; simp [h]
        · rcases ih s h with h | h
          · exact .inl h
          · right; exact List.mem_cons_of_mem _ h
  have step : ∀ (k : Obj) (v : α), Has H p k → ∀ d : Table α, Good H p d →
      (d.map fun e => Obj.sets e.2.1).Nodup → ((Table.set d k v).map fun e => Obj.sets e.2.1).Nodup := by
    intro k v hk d
    induction d with
    | nil => intro _ _; simp [Table.set]
    | cons x d ih =>
      intro h hn
      have hx := h x (List.mem_cons_self ..)
      have hd : Good H p d := fun e he => h e (List.mem_cons_of_mem _ he)
      rw [List.map_cons, List.nodup_cons] at hn
      unfold Table.set
      split
      · simpa only [List.map_cons, List.nodup_cons] using hn
      · rename_i hh
        rw [List.map_cons, List.nodup_cons]
        refine ⟨fun hm => ?_, ih hd hn.2⟩
        rcases mem k v d _ hm with h | h
        · exact hh ((hit_iff hH hk hx).2 h)
        · exact hn.1 h
  have key : ∀ (as : List (Obj × α)) (d : Table α), (∀ a ∈ as, Has H p a.1) → Good H p d →
      (d.map fun e => Obj.sets e.2.1).Nodup →
      ((as.foldl (fun d a => Table.set d a.1 a.2) d).map fun e => Obj.sets e.2.1).Nodup := by
    intro as
    induction as with
    | nil => intro d _ _ h; exact h
    | cons a as ih =>
      intro d h hd hn
      have ha := h a (List.mem_cons_self ..)
      exact ih _ (fun b hb => h b (List.mem_cons_of_mem _ hb)) (good_set ha a.2 hd) (step a.1 a.2 ha d hd hn)
  exact key as [] has (fun e he => absurd he List.not_mem_nil) List.nodup_nil

/-- The keys are the combinations that were assigned to, in the order of the first assignment to an equal one, which is the
object that stays. -/
theorem C141_first_key {α P : Type} (H : P → PairHash) (hH : ∀ p, Respects (H p)) (p : P) (as : List (Obj × α))
    (has : ∀ a ∈ as, Has H p a.1) : (Table.run as).map (fun e => e.2.1) = firsts [] (as.map Prod.fst) := by
  have step : ∀ (k : Obj) (v : α), Has H p k → ∀ d : Table α, Good H p d →
      (Table.set d k v).map (fun e => e.2.1) =
        if ∃ x ∈ d.map (fun e => e.2.1), Obj.sets x = Obj.sets k then d.map (fun e => e.2.1)
        else d.map (fun e => e.2.1) ++ [k] := by
    intro k v hk d
    induction d with
    | nil => intro _; simp [Table.set]
    | cons x d ih =>
      intro h
      have hx := h x (List.mem_cons_self ..)
      have hd : Good H p d := fun e he => h e (List.mem_cons_of_mem _ he)
      have hi := hit_iff hH hk hx
      unfold Table.set
      by_cases hh : hit k x = true
      · rw [if_pos hh, if_pos ⟨x.2.1, by simp, hi.1 hh⟩]
        rfl
      · rw [if_neg hh, List.map_cons, ih hd, List.map_cons]
        have hne : Obj.sets x.2.1 ≠ Obj.sets k := fun e => hh (hi.2 e)
        by_cases hex : ∃ y ∈ d.map (fun e => e.2.1), Obj.sets y = Obj.sets k
        · rw [if_pos hex, if_pos (by obtain ⟨y, hy, hs⟩ := hex; exact ⟨y, List.mem_cons_of_mem _ hy, hs⟩)]
        · rw [if_neg hex, if_neg]
          · rfl
          · rintro ⟨y, hy, hs⟩
            rcases List.mem_cons.1 hy with rfl | hy
            · exact hne hs
            · exact hex ⟨y, hy, hs⟩
  have key : ∀ (as : List (Obj × α)) (d : Table α), (∀ a ∈ as, Has H p a.1) → Good H p d →
      (as.foldl (fun d a => Table.set d a.1 a.2) d).map (fun e => e.2.1) =
        firsts (d.map fun e => e.2.1) (as.map Prod.fst) := by
    intro as
    induction as with
    | nil => intro d _ _; rfl
    | cons a as ih =>
      intro d h hd
      have ha := h a (List.mem_cons_self ..)
      rw [List.foldl_cons, ih _ (fun b hb => h b (List.mem_cons_of_mem _ hb)) (good_set ha a.2 hd), step _ _ ha _ hd,
        List.map_cons, firsts]
  exact key as [] has (fun e he => absurd he List.not_mem_nil)

/-- Two pair hashes: Python promises nothing about different processes. -/
def hashPlus (n : Int) : PairHash := fun m b => m.toFinset.card + b.toFinset.card + n

theorem respects_hashPlus (n : Int) : Respects (hashPlus n) := by
  intro m m' b b' hm hb
  simp [hashPlus, hm, hb]

/-- The state has to be set through `__init__`: were the stored hash pickled too, a combination loaded by another process
would be equal to one of its own and yet not be found in a dictionary. -/
theorem C141_stored_hash :
    let key := Obj.init (hashPlus 1) [] [3]
    let loaded := reloadSlots id (Obj.init (hashPlus 0) [] [3])
    key.eq loaded = true ∧ (Table.run [(key, 7)]).get loaded = none ∧
      (Table.run [(key, 7)]).get (reload (hashPlus 1) id (Obj.init (hashPlus 0) [] [3])) = some 7 := by
  decide +kernel

/-- The length of a combination is that of the list it is iterated as. -/
theorem C141_len_iter (c : Obj) : c.len = c.iter.length := by simp [Obj.len, Obj.iter]

/-- Iterating gives the members of both sets. -/
theorem C141_iter (c : Obj) (b : Button) : b ∈ c.iter ↔ b ∈ (Obj.sets c).1 ∪ (Obj.sets c).2 := by
  simp [Obj.iter, Obj.sets]

/-- A user takes `len` for the number of buttons to be pressed. It is, exactly if no button is both a modifier and a button of
the combination. -/
theorem C141_len_partial {P : Type} (H : P → PairHash) (p : P) (c : Obj) (hc : Has H p c) :
    c.len = ((Obj.sets c).1 ∪ (Obj.sets c).2).card ↔ Disjoint (Obj.sets c).1 (Obj.sets c).2 := by
  obtain ⟨hm, hb⟩ := has_nodup hc
  have e : c.len = (Obj.sets c).1.card + (Obj.sets c).2.card := by
    simp [Obj.len, Obj.sets, List.toFinset_card_of_nodup hm, List.toFinset_card_of_nodup hb]
  rw [e, eq_comm, Finset.card_union_eq_card_add_card]

/-- A shift key that has a text on the layer it selects is counted twice. -/
theorem C141_len_false : ∃ c : Obj, Has (fun _ : Unit => hashPlus 0) () c ∧
    c.len ≠ ((Obj.sets c).1 ∪ (Obj.sets c).2).card :=
  ⟨_, .made () [1] [1] (by simp) (by simp), by decide +kernel⟩

/-- The names of the buttons of a combination in a process with the given history of creating buttons. -/
def namesOf (history : List String) (c : Obj) : List (Py String) := c.iter.map fun b => (tableAfter history).nameOf b

/-- A loaded combination has the names it was pickled with if the loading process first made the same buttons in the same
order; otherwise it may have others (`C11_pickled_buttons`). -/
theorem C141_names (h₁ h₂ : List String) (hp : distinct h₁ <+: distinct h₂) (H : PairHash)
    (order : List Button → List Button) (ho : IsOrder order) (c : Obj)
    (hc : ∀ b ∈ c.iter, ∃ n, (tableAfter h₁).nameOf b = .ok n) :
    (namesOf h₂ (reload H order c)).Perm (namesOf h₁ c) := by
  have e : namesOf h₂ c = namesOf h₁ c := by
    unfold namesOf
    refine List.map_congr_left fun b hb => ?_
    obtain ⟨n, hn⟩ := hc b hb
    rw [hn, (C11_pickled_buttons h₁ h₂).2 hp b n hn]
  rw [← e]
  exact (((ho c.modifier).append (ho c.buttons)).map _)

/-- Process 0 pickles, process 1 loads it and looks it up. -/
example : Has (fun n : Nat => hashPlus n) 1 (reload (hashPlus 1) List.reverse (Obj.init (hashPlus 0) [2] [3, 4])) :=
  .loaded 1 0 List.reverse _ (.made 0 [2] [3, 4] (by simp) (by simp)) fun l => List.reverse_perm l

end Lulua.Props
