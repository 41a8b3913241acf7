import Verif.Spec.Typing
import Verif.Py.DictLemmas
import Mathlib.Tactic.Common

/-!
# The constructor loop of `KeyboardLayout`
-/

namespace Lulua
open Spec

/-- Entries of one layer carrying `t`. -/
def entryHit (t : Text) (e : Button × LVal) : Bool := decide (e.2 = LVal.str t)

def layerProducers (ms : List FSet) (es : List (Button × LVal)) (t : Text) : List Comb :=
  es.flatMap fun e =>
    if e.2 = LVal.str t then ms.map fun m => { modifier := m, buttons := [e.1] } else []

theorem get?_setDefault (t : Dict Text (List Comb)) (v w : Text) :
    (BuildState.setDefault t v).get? w =
      if v = w then some ((t.get? w).getD []) else t.get? w := by
  unfold BuildState.setDefault Dict.contains
  by_cases h : v = w
  · subst h
    cases hv : t.get? v with
    | none => simp
    | some x => simp [hv]
  · simp only [if_neg h]
    split
    · rfl
    · rw [Dict.get?_set_ne _ _ h]

theorem get?_foldl_appendComb (ms : List FSet) (b : Button) (t : Dict Text (List Comb)) (v w : Text)
    (h : v = w → (t.get? w).isSome) :
    (ms.foldl (fun t m => BuildState.appendComb t v { modifier := m, buttons := frozenset [b] }) t).get? w =
      if v = w then some ((t.get? w).getD [] ++ ms.map fun m => { modifier := m, buttons := [b] })
      else t.get? w := by
  induction ms generalizing t with
  | nil =>
    by_cases e : v = w
    · have := h e
      obtain ⟨x, hx⟩ := Option.isSome_iff_exists.1 this
      simp [e, hx]
    · simp [e]
  | cons m ms ih =>
    rw [List.foldl_cons, ih]
    · by_cases e : v = w
      · subst e
        simp [BuildState.appendComb]
      · simp [e, BuildState.appendComb, Dict.get?_set_ne]
    · rintro rfl
      simp [BuildState.appendComb]

theorem get?_addEntry (l : Layer) (s : BuildState) (e : Button × LVal) (t : Text) :
    (BuildState.addEntry l s e).trie.get? t =
      if e.2 = LVal.str t then
        some ((s.trie.get? t).getD [] ++ l.modifier.map fun m => { modifier := m, buttons := [e.1] })
      else s.trie.get? t := by
  obtain ⟨b, v⟩ := e
  cases v with
  | other k => simp [BuildState.addEntry]
  | str v =>
    simp only [BuildState.addEntry, LVal.str.injEq]
    rw [get?_foldl_appendComb]
    · rw [get?_setDefault]
      by_cases h : v = t <;> simp [h]
    · rintro rfl
      simp [get?_setDefault]

theorem get?_foldl_addEntry (l : Layer) (es : List (Button × LVal)) (s : BuildState) (t : Text) :
    (es.foldl (BuildState.addEntry l) s).trie.get? t =
      if es.any (entryHit t) then
        some ((s.trie.get? t).getD [] ++ layerProducers l.modifier es t)
      else s.trie.get? t := by
  induction es generalizing s with
  | nil => simp
  | cons e es ih =>
    rw [List.foldl_cons, ih, get?_addEntry]
    by_cases h : e.2 = LVal.str t
    · have h' : entryHit t e = true := by simp [entryHit, h]
      simp only [List.any_cons, h', Bool.true_or, if_true, h, layerProducers, List.flatMap_cons,
        Option.getD_some, List.append_assoc]
      split
      · rfl
      · rename_i hn
        have : es.flatMap (fun e => if e.2 = LVal.str t then
            l.modifier.map fun m => ({ modifier := m, buttons := [e.1] } : Comb) else []) = [] := by
          rw [List.flatMap_eq_nil_iff]
          intro x hx
          rw [if_neg]
          intro hx2
          apply hn
          rw [List.any_eq_true]
          exact ⟨x, hx, by simp [entryHit, hx2]⟩
        rw [this]; simp
    · have h' : entryHit t e = false := by simp [entryHit, h]
      rw [List.any_cons, h', Bool.false_or, if_neg h]
      simp only [layerProducers, List.flatMap_cons, if_neg h, List.nil_append]

theorem trie_addModifiers (i : Nat) (l : Layer) (s : BuildState) :
    (s.addModifiers i l).trie = s.trie := rfl

def layersHit (t : Text) (ls : List Layer) : Bool := ls.any fun l => l.layout.any (entryHit t)

theorem layersHit_iff {t : Text} {ls : List Layer} : layersHit t ls = true ↔ HasText ls t := by
  unfold layersHit HasText
  simp only [List.any_eq_true, entryHit, decide_eq_true_eq]
  constructor
  · rintro ⟨l, hl, ⟨b, v⟩, he, rfl⟩
    exact ⟨l, hl, b, he⟩
  · rintro ⟨l, hl, b, he⟩
    exact ⟨l, hl, _, he, rfl⟩

theorem get?_addLayers (i : Nat) (ls : List Layer) (s : BuildState) (t : Text) :
    (BuildState.addLayers i s ls).trie.get? t =
      if layersHit t ls then some ((s.trie.get? t).getD [] ++ producers ls t)
      else s.trie.get? t := by
  induction ls generalizing s i with
  | nil => simp [BuildState.addLayers, layersHit]
  | cons l ls ih =>
    rw [BuildState.addLayers, ih, BuildState.addLayer, get?_foldl_addEntry, trie_addModifiers]
    have hp : producers (l :: ls) t = layerProducers l.modifier l.layout t ++ producers ls t := rfl
    by_cases h : l.layout.any (entryHit t) = true
    · have h1 : layersHit t (l :: ls) = true := by simp [layersHit, h]
      simp only [h1, h, if_true, hp, Option.getD_some, List.append_assoc]
      split
      · rfl
      · rename_i hn
        have : producers ls t = [] := by
          unfold producers
          rw [List.flatMap_eq_nil_iff]
          intro x hx
          rw [List.flatMap_eq_nil_iff]
          intro e he
          rw [if_neg]
          intro h3
          apply hn
          rw [layersHit_iff]
          exact ⟨x, hx, e.1, by rw [← h3]; exact he⟩
        rw [this]; simp
    · have h1 : layersHit t (l :: ls) = layersHit t ls := by simp [layersHit, h]
      have h2 : layerProducers l.modifier l.layout t = [] := by
        unfold layerProducers
        rw [List.flatMap_eq_nil_iff]
        intro e he
        rw [if_neg]
        intro h3
        apply h
        rw [List.any_eq_true]
        exact ⟨e, he, by simp [entryHit, h3]⟩
      rw [h1, hp, h2]
      simp [h]

/-- The trie holds exactly the texts of the layers, each with all its combinations. -/
theorem trie_get? (name : String) (layers : List Layer) (kb : PhysicalKeyboard) (t : Text) :
    (KeyboardLayout.mk' name layers kb).trie.get? t =
      if layersHit t layers then some (producers layers t) else none := by
  show (BuildState.addLayers 0 ⟨[], 0, []⟩ layers).trie.get? t = _
  rw [get?_addLayers]
  simp

theorem bufferLen_addEntry (l : Layer) (s : BuildState) (e : Button × LVal) :
    (BuildState.addEntry l s e).bufferLen =
      match e.2 with
      | .str v => max v.length s.bufferLen
      | .other _ => s.bufferLen := by
  unfold BuildState.addEntry
  cases e.2 <;> rfl

theorem bufferLen_foldl_addEntry (l : Layer) (es : List (Button × LVal)) (s : BuildState) (n : Nat) :
    (es.foldl (BuildState.addEntry l) s).bufferLen ≤ n ↔
      s.bufferLen ≤ n ∧ ∀ b v, (b, LVal.str v) ∈ es → v.length ≤ n := by
  induction es generalizing s with
  | nil => simp
  | cons e es ih =>
    rw [List.foldl_cons, ih, bufferLen_addEntry]
    obtain ⟨b, v⟩ := e
    cases v with
    | other k => simp
    | str v =>
      simp only [List.mem_cons, Prod.mk.injEq, LVal.str.injEq]
      constructor
      · rintro ⟨h1, h2⟩
        refine ⟨by omega, ?_⟩
        rintro b' v' (⟨rfl, rfl⟩ | h)
        · omega
        · exact h2 b' v' h
      · rintro ⟨h1, h2⟩
        refine ⟨by have := h2 b v (Or.inl ⟨rfl, rfl⟩); omega, fun b' v' h => h2 b' v' (Or.inr h)⟩

theorem bufferLen_addLayers (i : Nat) (ls : List Layer) (s : BuildState) (n : Nat) :
    (BuildState.addLayers i s ls).bufferLen ≤ n ↔
      s.bufferLen ≤ n ∧ ∀ t, HasText ls t → t.length ≤ n := by
  induction ls generalizing s i with
  | nil => simp [BuildState.addLayers, HasText]
  | cons l ls ih =>
    rw [BuildState.addLayers, ih, BuildState.addLayer, bufferLen_foldl_addEntry]
    show (s.bufferLen ≤ n ∧ _) ∧ _ ↔ _
    constructor
    · rintro ⟨⟨h1, h2⟩, h3⟩
      refine ⟨h1, ?_⟩
      rintro t ⟨l', hl', b, hb⟩
      rcases List.mem_cons.1 hl' with rfl | hl'
      · exact h2 b t hb
      · exact h3 t ⟨l', hl', b, hb⟩
    · rintro ⟨h1, h2⟩
      refine ⟨⟨h1, fun b v h => h2 v ⟨l, by simp, b, h⟩⟩, ?_⟩
      rintro t ⟨l', hl', b, hb⟩
      exact h2 t ⟨l', by simp [hl'], b, hb⟩

/-- `bufferLen` is an upper bound of all text lengths, and the least one. -/
theorem bufferLen_le_iff (name : String) (layers : List Layer) (kb : PhysicalKeyboard) (n : Nat) :
    (KeyboardLayout.mk' name layers kb).bufferLen ≤ n ↔ ∀ t, HasText layers t → t.length ≤ n := by
  show (BuildState.addLayers 0 ⟨[], 0, []⟩ layers).bufferLen ≤ n ↔ _
  rw [bufferLen_addLayers]
  simp

theorem length_le_bufferLen {name : String} {layers : List Layer} {kb : PhysicalKeyboard} {t : Text}
    (h : HasText layers t) : t.length ≤ (KeyboardLayout.mk' name layers kb).bufferLen :=
  (bufferLen_le_iff name layers kb _).1 le_rfl t h

/-! ### Longest prefix -/

theorem longestPrefix_some {tr : Dict Text (List Comb)} {buf : Text} {n : Nat} {m : Text}
    {v : List Comb} (h : KeyboardLayout.longestPrefix tr buf n = some (m, v)) :
    m <+: buf ∧ tr.get? m = some v ∧ ∀ k ≤ n, (tr.get? (buf.take k)).isSome → (buf.take k).length ≤ m.length := by
  induction n with
  | zero =>
    simp only [KeyboardLayout.longestPrefix, Option.map_eq_some_iff, Prod.mk.injEq] at h
    obtain ⟨a, ha, rfl, rfl⟩ := h
    refine ⟨List.nil_prefix, ha, ?_⟩
    intro k hk _
    simp [Nat.le_zero.1 hk]
  | succ n ih =>
    rw [KeyboardLayout.longestPrefix] at h
    cases hg : tr.get? (buf.take (n + 1)) with
    | some w =>
      simp only [hg, Option.some.injEq, Prod.mk.injEq] at h
      obtain ⟨rfl, rfl⟩ := h
      refine ⟨List.take_prefix _ _, hg, ?_⟩
      intro k hk _
      simp only [List.length_take]; omega
    | none =>
      simp only [hg] at h
      obtain ⟨h1, h2, h3⟩ := ih h
      refine ⟨h1, h2, ?_⟩
      intro k hk hs
      rcases Nat.lt_or_eq_of_le hk with hk | rfl
      · exact h3 k (by omega) hs
      · simp [hg] at hs

theorem longestPrefix_none {tr : Dict Text (List Comb)} {buf : Text} {n : Nat}
    (h : KeyboardLayout.longestPrefix tr buf n = none) : ∀ k ≤ n, tr.get? (buf.take k) = none := by
  induction n with
  | zero =>
    simp only [KeyboardLayout.longestPrefix, Option.map_eq_none_iff] at h
    intro k hk
    simp [Nat.le_zero.1 hk, h]
  | succ n ih =>
    rw [KeyboardLayout.longestPrefix] at h
    cases hg : tr.get? (buf.take (n + 1)) with
    | some w => simp [hg] at h
    | none =>
      simp only [hg] at h
      intro k hk
      rcases Nat.lt_or_eq_of_le hk with hk | rfl
      · exact ih h k (by omega)
      · exact hg

theorem call_ok {name : String} {layers : List Layer} {kb : PhysicalKeyboard} {buf m : Text}
    {cs : List Comb} (h : (KeyboardLayout.mk' name layers kb).call buf = .ok (m, cs)) :
    LongestMatch layers buf m ∧ cs = producers layers m := by
  unfold KeyboardLayout.call at h
  split at h
  · rename_i r hr
    simp only [Except.ok.injEq] at h
    subst h
    obtain ⟨h1, h2, h3⟩ := longestPrefix_some hr
    rw [trie_get?] at h2
    by_cases hh : layersHit m layers = true
    · simp only [hh, if_true, Option.some.injEq] at h2
      refine ⟨⟨layersHit_iff.1 hh, h1, ?_⟩, h2.symm⟩
      intro m' hm' hp
      have e := List.prefix_iff_eq_take.1 hp
      have := h3 m'.length hp.length_le (by rw [← e, trie_get?, layersHit_iff.2 hm']; simp)
      rwa [← e] at this
    · simp [hh] at h2
  · simp at h

theorem call_error {name : String} {layers : List Layer} {kb : PhysicalKeyboard} {buf : Text}
    {e : PyErr} (h : (KeyboardLayout.mk' name layers kb).call buf = .error e) :
    e = .keyError ∧ NoMatch layers buf := by
  unfold KeyboardLayout.call at h
  split at h
  · simp at h
  · rename_i hr
    refine ⟨by simpa [eq_comm] using h, ?_⟩
    intro t ht hp
    have := longestPrefix_none hr t.length hp.length_le
    rw [← List.prefix_iff_eq_take.1 hp, trie_get?, layersHit_iff.2 ht] at this
    simp at this

theorem Spec.LongestMatch.unique {layers : List Layer} {buf m m' : Text}
    (h : LongestMatch layers buf m) (h' : LongestMatch layers buf m') : m = m' := by
  have e : m.length = m'.length := le_antisymm (h'.2.2 _ h.1 h.2.1) (h.2.2 _ h'.1 h'.2.1)
  rw [List.prefix_iff_eq_take.1 h.2.1, List.prefix_iff_eq_take.1 h'.2.1, e]

theorem Spec.LongestMatch.not_noMatch {layers : List Layer} {buf m : Text}
    (h : LongestMatch layers buf m) : ¬ NoMatch layers buf := fun hn => hn m h.1 h.2.1

/-- Result of a lookup from its specification. -/
theorem call_eq_ok {name : String} {layers : List Layer} {kb : PhysicalKeyboard} {buf m : Text}
    (h : LongestMatch layers buf m) :
    (KeyboardLayout.mk' name layers kb).call buf = .ok (m, producers layers m) := by
  cases hc : (KeyboardLayout.mk' name layers kb).call buf with
  | error e => exact absurd (call_error hc).2 h.not_noMatch
  | ok r =>
    obtain ⟨m', cs⟩ := r
    obtain ⟨h1, h2⟩ := call_ok hc
    rw [h2, h.unique h1]

theorem call_eq_error {name : String} {layers : List Layer} {kb : PhysicalKeyboard} {buf : Text}
    (h : NoMatch layers buf) :
    (KeyboardLayout.mk' name layers kb).call buf = .error .keyError := by
  cases hc : (KeyboardLayout.mk' name layers kb).call buf with
  | error e => rw [(call_error hc).1]
  | ok r => exact absurd h (call_ok (m := r.1) (cs := r.2) hc).1.not_noMatch

/-- Looking at the first `n` characters is enough if no text is longer. -/
theorem longestMatch_take {layers : List Layer} {w m : Text} {n : Nat}
    (hn : ∀ t, HasText layers t → t.length ≤ n) :
    LongestMatch layers (w.take n) m ↔ LongestMatch layers w m := by
  have key : ∀ t, HasText layers t → (t <+: w.take n ↔ t <+: w) := by
    intro t ht
    constructor
    · exact fun h => h.trans (List.take_prefix _ _)
    · intro h
      rw [List.prefix_take_iff]
      exact ⟨h, hn t ht⟩
  unfold LongestMatch
  constructor
  · rintro ⟨h1, h2, h3⟩
    exact ⟨h1, (key m h1).1 h2, fun m' hm hp => h3 m' hm ((key m' hm).2 hp)⟩
  · rintro ⟨h1, h2, h3⟩
    exact ⟨h1, (key m h1).2 h2, fun m' hm hp => h3 m' hm ((key m' hm).1 hp)⟩

theorem noMatch_take {layers : List Layer} {w : Text} {n : Nat}
    (hn : ∀ t, HasText layers t → t.length ≤ n) :
    NoMatch layers (w.take n) ↔ NoMatch layers w := by
  unfold NoMatch
  constructor
  · intro h t ht hp
    exact h t ht (by rw [List.prefix_take_iff]; exact ⟨hp, hn t ht⟩)
  · intro h t ht hp
    exact h t ht (hp.trans (List.take_prefix _ _))

theorem match_or_not (name : String) (layers : List Layer) (kb : PhysicalKeyboard) (w : Text) :
    (∃ m, LongestMatch layers w m) ∨ NoMatch layers w := by
  cases hc : (KeyboardLayout.mk' name layers kb).call w with
  | ok r => exact Or.inl ⟨r.1, (call_ok (m := r.1) (cs := r.2) hc).1⟩
  | error e => exact Or.inr (call_error hc).2

theorem mem_producers {layers : List Layer} {t : Text} {c : Comb} :
    c ∈ producers layers t ↔ ∃ m b, c = { modifier := m, buttons := [b] } ∧ Produces layers m b t := by
  unfold producers Produces
  simp only [List.mem_flatMap]
  constructor
  · rintro ⟨l, hl, e, he, hc⟩
    by_cases h : e.2 = LVal.str t
    · simp only [h, if_true, List.mem_map] at hc
      obtain ⟨m, hm, rfl⟩ := hc
      exact ⟨m, e.1, rfl, l, hl, hm, by rw [← h]; exact he⟩
    · simp [h] at hc
  · rintro ⟨m, b, rfl, l, hl, hm, hb⟩
    refine ⟨l, hl, _, hb, ?_⟩
    simp only [if_true, List.mem_map]
    exact ⟨m, hm, rfl⟩

/-! ### Modifiers -/

theorem get?_addModifiers (i : Nat) (l : Layer) (s : BuildState) (m : FSet) :
    (s.addModifiers i l).modToLayer.get? m = if m ∈ l.modifier then some (i, l) else s.modToLayer.get? m := by
  unfold BuildState.addModifiers
  generalize s.modToLayer = d
  show (l.modifier.foldl (fun d m => d.set m (i, l)) d).get? m = _
  induction l.modifier generalizing d with
  | nil => simp
  | cons a ms ih =>
    rw [List.foldl_cons, ih, Dict.get?_set]
    by_cases h : m ∈ ms
    · simp [h]
    · by_cases h2 : a = m
      · simp [h2]
      · simp [h, h2, Ne.symm h2]

theorem modToLayer_addEntry (l : Layer) (s : BuildState) (e : Button × LVal) :
    (BuildState.addEntry l s e).modToLayer = s.modToLayer := by
  unfold BuildState.addEntry
  cases e.2 <;> rfl

theorem modToLayer_foldl_addEntry (l : Layer) (es : List (Button × LVal)) (s : BuildState) :
    (es.foldl (BuildState.addEntry l) s).modToLayer = s.modToLayer := by
  induction es generalizing s with
  | nil => rfl
  | cons e es ih => rw [List.foldl_cons, ih, modToLayer_addEntry]

theorem modToLayer_addLayer (i : Nat) (l : Layer) (s : BuildState) (m : FSet) :
    (BuildState.addLayer i s l).modToLayer.get? m =
      if m ∈ l.modifier then some (i, l) else s.modToLayer.get? m := by
  rw [BuildState.addLayer, modToLayer_foldl_addEntry, get?_addModifiers]

/-- Which layer a modifier set leads to: the last layer that lists it. -/
theorem modToLayer_addLayers (i : Nat) (ls : List Layer) (s : BuildState) (m : FSet) (j : Nat)
    (hj : j < ls.length) (hm : m ∈ (ls[j]).modifier)
    (hlast : ∀ k (hk : k < ls.length), j < k → m ∉ (ls[k]).modifier) :
    (BuildState.addLayers i s ls).modToLayer.get? m = some (i + j, ls[j]) := by
  induction ls generalizing i s j with
  | nil => simp at hj
  | cons l ls ih =>
    rw [BuildState.addLayers]
    cases j with
    | zero =>
      have hno : ∀ l' ∈ ls, m ∉ l'.modifier := by
        intro l' hl'
        obtain ⟨k, hk, rfl⟩ := List.mem_iff_getElem.1 hl'
        have := hlast (k + 1) (by simp; omega) (by omega)
        simpa using this
      have hskip : ∀ (ls : List Layer) (i : Nat) (s : BuildState), (∀ l' ∈ ls, m ∉ l'.modifier) →
          (BuildState.addLayers i s ls).modToLayer.get? m = s.modToLayer.get? m := by
        intro ls
        induction ls with
        | nil => intro i s _; rfl
        | cons a ls ih2 =>
          intro i s hh
          rw [BuildState.addLayers, ih2 _ _ (fun l' h => hh l' (by simp [h])), modToLayer_addLayer,
            if_neg (hh a (by simp))]
      rw [hskip ls _ _ hno, modToLayer_addLayer, if_pos (by simpa using hm)]
      simp
    | succ j =>
      have := ih (i + 1) (s.addLayer i l) j (by simpa using hj) (by simpa using hm)
        (fun k hk hjk => by
          have := hlast (k + 1) (by simpa using hk) (by omega)
          simpa using this)
      rw [this]
      simp only [List.getElem_cons_succ, Option.some.injEq, Prod.mk.injEq, and_true]
      omega

theorem modToLayer_addLayers_none (i : Nat) (ls : List Layer) (s : BuildState) (m : FSet)
    (hs : s.modToLayer.get? m = none)
    (h : ∀ l ∈ ls, m ∉ l.modifier) : (BuildState.addLayers i s ls).modToLayer.get? m = none := by
  induction ls generalizing i s with
  | nil => exact hs
  | cons l ls ih =>
    rw [BuildState.addLayers]
    apply ih _ _ _ (fun l' h' => h l' (by simp [h']))
    rw [modToLayer_addLayer, if_neg (h l (by simp)), hs]

end Lulua
