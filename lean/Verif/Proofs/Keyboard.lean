import Verif.Spec.Keyboard
import Verif.Py.DictLemmas
import Mathlib.Data.List.Forall2
import Mathlib.Tactic.Common

namespace Lulua
open Spec

/-! ### Interning -/

/-- The tables represent the list `ns` of distinct names, numbered from 0. -/
structure Represents (t : InternTable) (ns : List String) : Prop where
  nodup : ns.Nodup
  byId : ∀ i, t.idToName.get? i = ns[i]?
  byName : ∀ n i, t.nameToId.get? n = some i ↔ ns[i]? = some n
  next : t.nextId = ns.length

theorem represents_initial : Represents InternTable.initial [] :=
  ⟨by simp, by simp [InternTable.initial], by simp [InternTable.initial], rfl⟩

def addName (ns : List String) (n : String) : List String := if n ∈ ns then ns else ns ++ [n]

theorem Represents.byName_none {t : InternTable} {ns : List String} (h : Represents t ns) {n : String} :
    t.nameToId.get? n = none ↔ n ∉ ns := by
  constructor
  · intro h1 h2
    obtain ⟨i, hi, e⟩ := List.mem_iff_getElem.1 h2
    have := (h.byName n i).2 (by rw [← e]; exact List.getElem?_eq_getElem hi)
    rw [h1] at this; simp at this
  · intro h1
    cases h2 : t.nameToId.get? n with
    | none => rfl
    | some i => exact absurd (List.mem_of_getElem? ((h.byName n i).1 h2)) h1

theorem represents_intern {t : InternTable} {ns : List String} (h : Represents t ns) (n : String) :
    Represents (t.intern n).1 (addName ns n) ∧ (addName ns n)[(t.intern n).2]? = some n := by
  unfold InternTable.intern
  cases hn : t.nameToId.get? n with
  | some i =>
    have hi := (h.byName n i).1 hn
    have : n ∈ ns := List.mem_of_getElem? hi
    simp only [addName, this, if_true]
    exact ⟨h, hi⟩
  | none =>
    have hnot := h.byName_none.1 hn
    simp only [addName, hnot, if_false]
    refine ⟨⟨?_, ?_, ?_, ?_⟩, ?_⟩
    · rw [List.nodup_append]
      exact ⟨h.nodup, by simp, by rintro a ha b hb rfl; simp at hb; exact hnot (hb ▸ ha)⟩
    · intro i
      rw [Dict.get?_set, h.next, h.byId]
      by_cases e : ns.length = i
      · subst e; simp
      · simp only [e, if_false]
        rcases Nat.lt_or_ge i ns.length with hlt | hge
        · rw [List.getElem?_append_left hlt]
        · rw [List.getElem?_eq_none hge, List.getElem?_eq_none (by simp; omega)]
    · intro m i
      rw [Dict.get?_set]
      by_cases e : n = m
      · subst e
        simp only [if_true, Option.some.injEq, h.next]
        constructor
        · rintro rfl; simp
        · intro hi
          rcases Nat.lt_or_ge i ns.length with hlt | hge
          · rw [List.getElem?_append_left hlt] at hi
            exact absurd (List.mem_of_getElem? hi) hnot
          · by_contra hne
            rw [List.getElem?_eq_none (by simp; omega)] at hi
            simp at hi
      · simp only [e, if_false, h.byName]
        rcases Nat.lt_trichotomy i ns.length with hlt | heq | hgt
        · rw [List.getElem?_append_left hlt]
        · subst heq; simp [e]
        · rw [List.getElem?_eq_none (by omega), List.getElem?_eq_none (by simp; omega)]
    · simp [h.next]
    · simp [h.next]

theorem represents_internAll {t : InternTable} {ns : List String} (h : Represents t ns)
    (names : List String) : Represents (t.internAll names) (names.foldl addName ns) := by
  induction names generalizing t ns with
  | nil => exact h
  | cons n names ih => exact ih (represents_intern h n).1

theorem represents_tableAfter (names : List String) : Represents (tableAfter names) (distinct names) :=
  represents_internAll represents_initial names

theorem Represents.nameOf {t : InternTable} {ns : List String} (h : Represents t ns) (b : Button) :
    t.nameOf b = match ns[b]? with | some n => .ok n | none => .error .keyError := by
  unfold InternTable.nameOf Dict.getItem
  rw [h.byId]
  cases ns[b]? <;> rfl

theorem Represents.nameOf_ok {t : InternTable} {ns : List String} (h : Represents t ns) {b : Button}
    {n : String} : t.nameOf b = .ok n ↔ ns[b]? = some n := by
  rw [h.nameOf]; cases ns[b]? <;> simp

/-- Registered names are different for different numbers. -/
theorem Represents.inj {t : InternTable} {ns : List String} (h : Represents t ns) {b c : Button}
    {n : String} (hb : t.nameOf b = .ok n) (hc : t.nameOf c = .ok n) : b = c := by
  rw [h.nameOf_ok] at hb hc
  obtain ⟨h1, e1⟩ := List.getElem?_eq_some_iff.1 hb
  obtain ⟨h2, e2⟩ := List.getElem?_eq_some_iff.1 hc
  exact (List.Nodup.getElem_inj_iff h.nodup).1 (e1.trans e2.symm)

theorem addName_prefix (ns : List String) (n : String) : ns <+: addName ns n := by
  unfold addName; split
  · exact List.prefix_refl _
  · exact List.prefix_append _ _

theorem foldl_addName_prefix (ns names : List String) : ns <+: names.foldl addName ns := by
  induction names generalizing ns with
  | nil => exact List.prefix_refl _
  | cons n names ih => exact (addName_prefix ns n).trans (ih _)

theorem prefix_getElem? {α : Type} {l l' : List α} (h : l <+: l') {i : Nat} {a : α}
    (hi : l[i]? = some a) : l'[i]? = some a := by
  obtain ⟨s, rfl⟩ := h
  rw [List.getElem?_append_left (List.getElem?_eq_some_iff.1 hi).1, hi]

theorem represents_createAll {t : InternTable} {ns : List String} (h : Represents t ns)
    (names : List String) :
    Represents (createAll t names).1 (names.foldl addName ns) ∧
      (createAll t names).2.length = names.length ∧
      ∀ k (hk : k < names.length) (hk' : k < (createAll t names).2.length),
        (names.foldl addName ns)[(createAll t names).2[k]]? = some names[k] := by
  induction names generalizing t ns with
  | nil => exact ⟨h, rfl, fun k hk => by simp at hk⟩
  | cons n names ih =>
    obtain ⟨h1, h2⟩ := represents_intern h n
    obtain ⟨i1, i2, i3⟩ := ih h1
    refine ⟨i1, by simp only [createAll, List.length_cons, i2], ?_⟩
    intro k hk hk'
    cases k with
    | zero => exact prefix_getElem? (foldl_addName_prefix (addName ns n) names) h2
    | succ k => exact i3 k (by simpa using hk) (by rw [i2]; simpa using hk)

/-- A name stays with its number. -/
theorem nameOf_intern {t : InternTable} {ns : List String} (h : Represents t ns) {b : Button}
    {n : String} (hb : t.nameOf b = .ok n) (m : String) : (t.intern m).1.nameOf b = .ok n := by
  rw [h.nameOf_ok] at hb
  rw [(represents_intern h m).1.nameOf_ok]
  exact prefix_getElem? (addName_prefix _ _) hb

theorem intern_known {t : InternTable} {ns : List String} (h : Represents t ns) {b : Button}
    {n : String} (hb : t.nameOf b = .ok n) : t.intern n = (t, b) := by
  rw [h.nameOf_ok, ← h.byName] at hb
  unfold InternTable.intern
  rw [hb]

/-! ### Finding buttons -/

theorem findLoop_ok {t : InternTable} {name : String} {ks : List Btn} {b : Btn}
    (h : PhysicalKeyboard.findLoop t name ks = .ok b) :
    ∃ pre post, ks = pre ++ b :: post ∧ t.nameOf b.i = .ok name ∧
      ∀ x ∈ pre, t.nameOf x.i ≠ .ok name := by
  induction ks with
  | nil => simp [PhysicalKeyboard.findLoop] at h
  | cons k ks ih =>
    rw [PhysicalKeyboard.findLoop] at h
    cases hk : t.nameOf k.i with
    | error e => simp [hk, bind, Except.bind] at h
    | ok n =>
      simp only [hk, bind, Except.bind] at h
      split at h
      · rename_i hn
        simp only [Except.ok.injEq] at h
        subst h
        exact ⟨[], ks, rfl, by rw [hk, hn], by simp⟩
      · rename_i hn
        obtain ⟨pre, post, rfl, h1, h2⟩ := ih h
        refine ⟨k :: pre, post, rfl, h1, ?_⟩
        intro x hx
        rcases List.mem_cons.1 hx with rfl | hx
        · rw [hk]; simpa using hn
        · exact h2 x hx

theorem findLoop_error {t : InternTable} {name : String} {ks : List Btn} {e : PyErr}
    (hn : Named t ks) (h : PhysicalKeyboard.findLoop t name ks = .error e) :
    e = .keyError ∧ ∀ x ∈ ks, t.nameOf x.i ≠ .ok name := by
  induction ks with
  | nil =>
    simp only [PhysicalKeyboard.findLoop, Except.error.injEq] at h
    exact ⟨h.symm, by simp⟩
  | cons k ks ih =>
    rw [PhysicalKeyboard.findLoop] at h
    obtain ⟨n, hk⟩ := hn k (by simp)
    simp only [hk, bind, Except.bind] at h
    split at h
    · simp at h
    · rename_i hne
      obtain ⟨h1, h2⟩ := ih (fun b hb => hn b (by simp [hb])) h
      refine ⟨h1, ?_⟩
      intro x hx
      rcases List.mem_cons.1 hx with rfl | hx
      · rw [hk]; simpa using hne
      · exact h2 x hx

theorem len_eq_keys (k : PhysicalKeyboard) : k.len = k.keys.length := by
  unfold PhysicalKeyboard.len PhysicalKeyboard.keys
  rw [List.length_flatMap]
  congr 1
  apply List.map_congr_left
  intro a _
  simp

theorem get?_foldl_setRow (bs : List Btn) (n : Nat) (acc : Dict Button Nat) (b : Button) :
    (bs.foldl (fun acc x => acc.set x.i n) acc).get? b =
      if ∃ x ∈ bs, x.i = b then some n else acc.get? b := by
  induction bs generalizing acc with
  | nil => simp
  | cons x bs ih =>
    rw [List.foldl_cons, ih, Dict.get?_set]
    by_cases h : ∃ y ∈ bs, y.i = b
    · have : ∃ y ∈ x :: bs, y.i = b := by obtain ⟨y, hy, e⟩ := h; exact ⟨y, by simp [hy], e⟩
      rw [if_pos h, if_pos this]
    · rw [if_neg h]
      by_cases e : x.i = b
      · rw [if_pos e, if_pos ⟨x, by simp, e⟩]
      · rw [if_neg e, if_neg]
        rintro ⟨y, hy, e'⟩
        rcases List.mem_cons.1 hy with rfl | hy
        · exact e e'
        · exact h ⟨y, hy, e'⟩

theorem inRow_iff {l r : List Btn} {b : Button} : InRow (l, r) b ↔ ∃ x ∈ l ++ r, x.i = b := by
  unfold InRow
  simp only [List.mem_append]

/-- The row recorded for a button is the last one that has it. -/
theorem rowTable_get? (n : Nat) (rows : List (Row Btn)) (acc : Dict Button Nat) (b : Button) :
    (∃ i, ∃ h : i < rows.length, InRow rows[i] b ∧ (∀ j (hj : j < rows.length), i < j → ¬ InRow rows[j] b) ∧
        (PhysicalKeyboard.rowTable n rows acc).get? b = some (n + i)) ∨
    ((∀ i (h : i < rows.length), ¬ InRow rows[i] b) ∧
        (PhysicalKeyboard.rowTable n rows acc).get? b = acc.get? b) := by
  induction rows generalizing n acc with
  | nil => right; exact ⟨fun i h => by simp at h, rfl⟩
  | cons r rows ih =>
    obtain ⟨l, r⟩ := r
    rw [PhysicalKeyboard.rowTable]
    rcases ih (n + 1) ((l ++ r).foldl (fun acc b => acc.set b.i n) acc) with ⟨i, hi, h1, h2, h3⟩ | ⟨h1, h2⟩
    · left
      refine ⟨i + 1, by simpa using hi, by simpa using h1, ?_, by rw [h3]; congr 1; omega⟩
      intro j hj hij
      cases j with
      | zero => omega
      | succ j => simpa using h2 j (by simpa using hj) (by omega)
    · rw [h2, get?_foldl_setRow]
      by_cases hr : InRow (l, r) b
      · left
        refine ⟨0, by simp, by simpa using hr, ?_, by rw [if_pos (inRow_iff.1 hr)]; rfl⟩
        intro j hj h0j
        cases j with
        | zero => omega
        | succ j => simpa using h1 j (by simpa using hj)
      · right
        refine ⟨?_, by rw [if_neg (fun h => hr (inRow_iff.2 h))]⟩
        intro i hi
        cases i with
        | zero => simpa using hr
        | succ i => simpa using h1 i (by simpa using hi)

/-! ### Serialization -/

theorem Dict.set_set {κ ν : Type} [DecidableEq κ] (d : Dict κ ν) (k : κ) (v w : ν) :
    (d.set k v).set k w = d.set k w := by
  induction d with
  | nil => simp [Dict.set]
  | cons p d ih =>
    obtain ⟨a, b⟩ := p
    by_cases h : a = k
    · simp [Dict.set, h]
    · simp [Dict.set, h, ih]

theorem Dict.set_get {κ ν : Type} [DecidableEq κ] {d : Dict κ ν} {k : κ} {v : ν}
    (h : d.get? k = some v) : d.set k v = d := by
  induction d with
  | nil => simp at h
  | cons p d ih =>
    obtain ⟨a, b⟩ := p
    rw [Dict.get?_cons] at h
    by_cases e : a = k
    · simp only [e, if_true, Option.some.injEq] at h
      simp [Dict.set, e, h]
    · simp only [e, if_false] at h
      simp [Dict.set, e, ih h]

/-- `list` then `tuple` restores a scancode dict with tuple. -/
theorem conv_list_tuple {sc : Scancode}
    (hw : ∀ d v, sc = some d → d.get? "windows" = some v → ∃ l, v = .tuple l) :
    ∃ sc', Scancode.convWindows ScVal.toList sc = .ok sc' ∧
      Scancode.convWindows ScVal.toTuple sc' = .ok sc := by
  cases sc with
  | none => exact ⟨none, rfl, rfl⟩
  | some d =>
    cases h : d.get? "windows" with
    | none => exact ⟨some d, by simp [Scancode.convWindows, h], by simp [Scancode.convWindows, h]⟩
    | some v =>
      obtain ⟨l, rfl⟩ := hw d v rfl h
      refine ⟨some (d.set "windows" (.list l)), ?_, ?_⟩
      · simp [Scancode.convWindows, h, ScVal.toList, bind, Except.bind]
      · simp [Scancode.convWindows, ScVal.toTuple, bind, Except.bind, Dict.set_set,
          Dict.set_get h]

theorem conv_tuple_list {sc : Scancode}
    (hw : ∀ d v, sc = some d → d.get? "windows" = some v → ∃ l, v = .list l) :
    ∃ sc', Scancode.convWindows ScVal.toTuple sc = .ok sc' ∧
      Scancode.convWindows ScVal.toList sc' = .ok sc ∧
      ∀ d v, sc' = some d → d.get? "windows" = some v → ∃ l, v = .tuple l := by
  cases sc with
  | none => exact ⟨none, rfl, rfl, by simp⟩
  | some d =>
    cases h : d.get? "windows" with
    | none =>
      refine ⟨some d, by simp [Scancode.convWindows, h], by simp [Scancode.convWindows, h], ?_⟩
      intro d' v e hv
      simp only [Option.some.injEq] at e
      subst e
      simp [h] at hv
    | some v =>
      obtain ⟨l, rfl⟩ := hw d v rfl h
      refine ⟨some (d.set "windows" (.tuple l)), ?_, ?_, ?_⟩
      · simp [Scancode.convWindows, h, ScVal.toTuple, bind, Except.bind]
      · simp [Scancode.convWindows, ScVal.toList, bind, Except.bind, Dict.set_set, Dict.set_get h]
      · intro d' v e hv
        simp only [Option.some.injEq] at e
        subst e
        simp only [Dict.get?_set_self, Option.some.injEq] at hv
        exact ⟨l, hv.symm⟩

theorem kindMap_serializedName (k : Kind) : kindMap k.serializedName = .ok k := by
  cases k <;> simp [kindMap, Kind.serializedName]

theorem btn_roundtrip {t : InternTable} {ns : List String} (hr : Represents t ns) {b : Btn}
    (hc : Constructed t b) :
    ∃ d b', b.serialize t = .ok (d, b') ∧ ∃ d', Btn.deserialize t d = .ok (t, b, d') := by
  obtain ⟨n, hn⟩ := hc.named
  obtain ⟨sc, h1, h2⟩ := conv_list_tuple hc.windows
  refine ⟨_, _, by simp only [Btn.serialize, hn, h1, bind, Except.bind]; rfl, ?_⟩
  have hi := intern_known hr hn
  obtain ⟨bi, kind, width, isMarked, scancode, span⟩ := b
  have hspan := hc.span
  simp only at hi h1 h2 hspan
  cases kind
  · have hs : span = none := by cases span <;> simp_all
    subst hs
    simp only [Btn.deserialize, construct, kindMap, bind, Except.bind, if_true, Option.getD_none,
      Option.getD_some, hi, h2]
    cases isMarked <;> exact ⟨_, rfl⟩
  · have hs : span = none := by cases span <;> simp_all
    subst hs
    simp only [Btn.deserialize, Kind.serializedName, construct, kindMap, bind, Except.bind, if_true,
      Option.getD_some, hi, h2, reduceCtorEq, if_false, String.reduceEq]
    cases isMarked <;> exact ⟨_, rfl⟩
  · obtain ⟨s, rfl⟩ : ∃ s, span = some s := Option.isSome_iff_exists.1 (hspan.2 rfl)
    simp only [Btn.deserialize, Kind.serializedName, construct, kindMap, bind, Except.bind, if_true,
      Option.getD_some, hi, h2, reduceCtorEq, if_false, String.reduceEq]
    cases isMarked <;> exact ⟨_, rfl⟩

theorem list_roundtrip {t : InternTable} {ns : List String} (hr : Represents t ns) {bs : List Btn}
    (hc : ∀ b ∈ bs, Constructed t b) :
    ∃ ds bs', serializeList t bs = .ok (ds, bs') ∧ ∃ ds', deserializeList t ds = .ok (t, bs, ds') := by
  induction bs with
  | nil => exact ⟨[], [], rfl, [], rfl⟩
  | cons b bs ih =>
    obtain ⟨d, b', h1, d', h2⟩ := btn_roundtrip hr (hc b (by simp))
    obtain ⟨ds, bs', h3, ds', h4⟩ := ih (fun x hx => hc x (by simp [hx]))
    exact ⟨d :: ds, b' :: bs', by simp only [serializeList, h1, h3, bind, Except.bind], d' :: ds',
      by simp only [deserializeList, h2, h4, bind, Except.bind]⟩

theorem rows_roundtrip {t : InternTable} {ns : List String} (hr : Represents t ns)
    {rows : List (Row Btn)} (hc : ∀ r ∈ rows, ∀ b ∈ r.1 ++ r.2, Constructed t b) :
    ∃ ds bs', serializeRows t rows = .ok (ds, bs') ∧
      ∃ ds', deserializeRows t ds = .ok (t, rows, ds') := by
  induction rows with
  | nil => exact ⟨[], [], rfl, [], rfl⟩
  | cons r rows ih =>
    obtain ⟨l, r⟩ := r
    have hlr := hc (l, r) (by simp)
    obtain ⟨dl, bl, h1, dl', h2⟩ := list_roundtrip hr (bs := l) (fun b hb => hlr b (by simp [hb]))
    obtain ⟨dr, br, h3, dr', h4⟩ := list_roundtrip hr (bs := r) (fun b hb => hlr b (by simp [hb]))
    obtain ⟨ds, bs', h5, ds', h6⟩ := ih (fun x hx => hc x (by simp [hx]))
    exact ⟨(dl, dr) :: ds, (bl, br) :: bs', by simp only [serializeRows, h1, h3, h5, bind, Except.bind],
      (dl', dr') :: ds', by simp only [deserializeRows, h2, h4, h6, bind, Except.bind]⟩

/-- Everything a later table knows, if it extends the current one. -/
def Extends (t t' : InternTable) : Prop := ∀ b n, t.nameOf b = .ok n → t'.nameOf b = .ok n

theorem data_roundtrip {t : InternTable} {ns : List String} (hr : Represents t ns) {d : ButtonData}
    (hc : Canonical d) :
    ∃ t' ns' b d', Btn.deserialize t d = .ok (t', b, d') ∧ Represents t' ns' ∧ Extends t t' ∧
      ∀ t'', Extends t' t'' → ∃ b', b.serialize t'' = .ok (d, b') := by
  obtain ⟨name, kind, width, isMarked, scancode, span⟩ := d
  obtain ⟨h1, h2, h3, h4, h5, h6, h7⟩ := hc
  simp only at h1 h2 h3 h4 h5 h6 h7
  obtain ⟨n, rfl⟩ := Option.isSome_iff_exists.1 h1
  obtain ⟨w, rfl⟩ := Option.isSome_iff_exists.1 h2
  obtain ⟨sc, rfl⟩ := Option.isSome_iff_exists.1 h6
  obtain ⟨sc', e1, e2, e3⟩ := conv_tuple_list (sc := sc)
    (fun d v hd hv => h7 d v (by rw [hd]) hv)
  obtain ⟨r1, r2⟩ := represents_intern hr n
  have hext : Extends t (t.intern n).1 := fun b m hb => nameOf_intern hr hb n
  have hname : ∀ t'', Extends (t.intern n).1 t'' → t''.nameOf (t.intern n).2 = .ok n :=
    fun t'' he => he _ _ (r1.nameOf_ok.2 r2)
  have hmark : (if (isMarked.getD false) = true then some true else none) = isMarked := by
    cases isMarked with
    | none => rfl
    | some m => cases m <;> simp_all
  rcases h4 with rfl | rfl | rfl
  · have hs : span = none := by cases span <;> simp_all
    subst hs
    refine ⟨_, _, _, _, by
      simp only [Btn.deserialize, construct, kindMap, bind, Except.bind, if_true, Option.getD_none,
        Option.getD_some, e1]; rfl, r1, hext, ?_⟩
    intro t'' he
    refine ⟨_, by
      simp only [Btn.serialize, hname t'' he, e2, bind, Except.bind, hmark, if_true]; rfl⟩
  · have hs : span = none := by cases span <;> simp_all
    subst hs
    refine ⟨_, _, _, _, by
      simp only [Btn.deserialize, construct, kindMap, bind, Except.bind, if_true,
        Option.getD_some, e1, if_false, String.reduceEq]; rfl, r1, hext, ?_⟩
    intro t'' he
    refine ⟨_, by
      simp only [Btn.serialize, hname t'' he, e2, bind, Except.bind, hmark, Kind.serializedName,
        reduceCtorEq, if_false]; rfl⟩
  · obtain ⟨s, rfl⟩ : ∃ s, span = some s := Option.isSome_iff_exists.1 (h5.2 rfl)
    refine ⟨_, _, _, _, by
      simp only [Btn.deserialize, construct, kindMap, bind, Except.bind, if_true,
        Option.getD_some, e1, if_false, String.reduceEq]; rfl, r1, hext, ?_⟩
    intro t'' he
    refine ⟨_, by
      simp only [Btn.serialize, hname t'' he, e2, bind, Except.bind, hmark, Kind.serializedName,
        reduceCtorEq, if_false]; rfl⟩

theorem Extends.trans {t t' t'' : InternTable} (h : Extends t t') (h' : Extends t' t'') :
    Extends t t'' := fun b n hb => h' b n (h b n hb)

theorem dataList_roundtrip {t : InternTable} {ns : List String} (hr : Represents t ns)
    {ds : List ButtonData} (hc : ∀ d ∈ ds, Canonical d) :
    ∃ t' ns' bs ds', deserializeList t ds = .ok (t', bs, ds') ∧ Represents t' ns' ∧ Extends t t' ∧
      ∀ t'', Extends t' t'' → ∃ bs', serializeList t'' bs = .ok (ds, bs') := by
  induction ds generalizing t ns with
  | nil => exact ⟨t, ns, [], [], rfl, hr, fun b n h => h, fun t'' _ => ⟨[], rfl⟩⟩
  | cons d ds ih =>
    obtain ⟨t1, ns1, b, d', h1, h2, h3, h4⟩ := data_roundtrip hr (hc d (by simp))
    obtain ⟨t2, ns2, bs, ds', g1, g2, g3, g4⟩ := ih h2 (fun x hx => hc x (by simp [hx]))
    refine ⟨t2, ns2, b :: bs, d' :: ds', by simp only [deserializeList, h1, g1, bind, Except.bind],
      g2, h3.trans g3, ?_⟩
    intro t'' he
    obtain ⟨b', hb'⟩ := h4 t'' (g3.trans he)
    obtain ⟨bs', hbs'⟩ := g4 t'' he
    exact ⟨b' :: bs', by simp only [serializeList, hb', hbs', bind, Except.bind]⟩

theorem dataRows_roundtrip {t : InternTable} {ns : List String} (hr : Represents t ns)
    {rows : List (Row ButtonData)} (hc : ∀ r ∈ rows, ∀ d ∈ r.1 ++ r.2, Canonical d) :
    ∃ t' ns' bs ds', deserializeRows t rows = .ok (t', bs, ds') ∧ Represents t' ns' ∧ Extends t t' ∧
      ∀ t'', Extends t' t'' → ∃ bs', serializeRows t'' bs = .ok (rows, bs') := by
  induction rows generalizing t ns with
  | nil => exact ⟨t, ns, [], [], rfl, hr, fun b n h => h, fun t'' _ => ⟨[], rfl⟩⟩
  | cons r rows ih =>
    obtain ⟨l, r⟩ := r
    have hlr := hc (l, r) (by simp)
    obtain ⟨t1, ns1, bl, dl, h1, h2, h3, h4⟩ :=
      dataList_roundtrip hr (ds := l) (fun d hd => hlr d (by simp [hd]))
    obtain ⟨t2, ns2, br, dr, g1, g2, g3, g4⟩ :=
      dataList_roundtrip h2 (ds := r) (fun d hd => hlr d (by simp [hd]))
    obtain ⟨t3, ns3, bs, ds', k1, k2, k3, k4⟩ := ih g2 (fun x hx => hc x (by simp [hx]))
    refine ⟨t3, ns3, (bl, br) :: bs, (dl, dr) :: ds',
      by simp only [deserializeRows, h1, g1, k1, bind, Except.bind], k2, (h3.trans g3).trans k3, ?_⟩
    intro t'' he
    obtain ⟨bl', e1⟩ := h4 t'' (g3.trans (k3.trans he))
    obtain ⟨br', e2⟩ := g4 t'' (k3.trans he)
    obtain ⟨bs', e3⟩ := k4 t'' he
    exact ⟨(bl', br') :: bs', by simp only [serializeRows, e1, e2, e3, bind, Except.bind]⟩

/-! ### What deserialization guarantees -/

theorem conv_tuple_shape {sc sc' : Scancode} (h : Scancode.convWindows ScVal.toTuple sc = .ok sc') :
    ∀ d v, sc' = some d → d.get? "windows" = some v → ∃ l, v = .tuple l := by
  intro d v hd hv
  subst hd
  cases sc with
  | none => simp [Scancode.convWindows] at h
  | some d0 =>
    cases h0 : d0.get? "windows" with
    | none =>
      simp only [Scancode.convWindows, h0, Except.ok.injEq, Option.some.injEq] at h
      subst h; simp [h0] at hv
    | some v0 =>
      cases v0 with
      | num n => simp [Scancode.convWindows, h0, ScVal.toTuple, bind, Except.bind] at h
      | str s =>
        simp only [Scancode.convWindows, h0, ScVal.toTuple, bind, Except.bind, Except.ok.injEq,
          Option.some.injEq] at h
        subst h
        rw [Dict.get?_set_self] at hv
        exact ⟨chars s, by simpa using hv.symm⟩
      | list l =>
        simp only [Scancode.convWindows, h0, ScVal.toTuple, bind, Except.bind, Except.ok.injEq,
          Option.some.injEq] at h
        subst h
        rw [Dict.get?_set_self] at hv
        exact ⟨l, by simpa using hv.symm⟩
      | tuple l =>
        simp only [Scancode.convWindows, h0, ScVal.toTuple, bind, Except.bind, Except.ok.injEq,
          Option.some.injEq] at h
        subst h
        rw [Dict.get?_set_self] at hv
        exact ⟨l, by simpa using hv.symm⟩

theorem construct_ok {t t' : InternTable} {ns : List String} (hr : Represents t ns) {kind : Kind}
    {d : ButtonData} {b : Btn} (h : construct t kind d = .ok (t', b)) :
    ∃ n sc, d.name = some n ∧ t' = (t.intern n).1 ∧ Constructed t' b ∧ b.kind = kind ∧
      b.i = (t.intern n).2 ∧ b.width = d.width.getD 1 ∧ b.isMarked = d.isMarked.getD false ∧
      b.span = d.span ∧ b.scancode = sc ∧
      Scancode.convWindows ScVal.toTuple (d.scancode.getD none) = .ok sc := by
  unfold construct at h
  cases hn : d.name with
  | none => simp [hn] at h
  | some n =>
    have key : ∀ span : Option Nat, (span.isSome ↔ kind = .multi) → span = d.span →
        (Scancode.convWindows ScVal.toTuple (d.scancode.getD none)).bind (fun sc =>
          Except.ok ((t.intern n).1, Btn.mk (t.intern n).2 kind (d.width.getD 1) (d.isMarked.getD false)
            sc span)) = Except.ok (t', b) →
        ∃ n' sc, some n = some n' ∧ t' = (t.intern n').1 ∧
      Constructed t' b ∧ b.kind = kind ∧ b.i = (t.intern n').2 ∧ b.width = d.width.getD 1 ∧
      b.isMarked = d.isMarked.getD false ∧ b.span = d.span ∧ b.scancode = sc ∧
      Scancode.convWindows ScVal.toTuple (d.scancode.getD none) = .ok sc := by
      intro span hs hsd h
      obtain ⟨h1, h2⟩ := represents_intern hr n
      cases hsc : Scancode.convWindows ScVal.toTuple (d.scancode.getD none) with
      | error e => simp [hsc, bind, Except.bind] at h
      | ok sc =>
        simp only [hsc, bind, Except.bind, Except.ok.injEq, Prod.mk.injEq] at h
        obtain ⟨e1, e2⟩ := h
        subst e2; subst e1
        exact ⟨n, sc, rfl, rfl, ⟨⟨n, h1.nameOf_ok.2 h2⟩, conv_tuple_shape hsc, hs⟩, rfl, rfl, rfl, rfl,
          hsd, rfl, rfl⟩
    simp only [hn] at h
    cases kind <;> cases hspan : d.span <;> simp only [hspan, reduceCtorEq] at h
    all_goals rw [← hspan]; exact key _ (by simp) hspan.symm h

theorem deserialize_ok {t t' : InternTable} {ns : List String} (hr : Represents t ns)
    {d d' : ButtonData} {b : Btn} (h : Btn.deserialize t d = .ok (t', b, d')) :
    Constructed t' b ∧ (∃ ns', Represents t' ns') ∧ Extends t t' := by
  unfold Btn.deserialize at h
  cases hk : kindMap (d.kind.getD "standard") with
  | error e => simp [hk, bind, Except.bind] at h
  | ok kind =>
    cases hc : construct t kind { d with kind := none } with
    | error e => simp [hk, hc, bind, Except.bind] at h
    | ok r =>
      obtain ⟨t1, b1⟩ := r
      simp only [hk, hc, bind, Except.bind, Except.ok.injEq, Prod.mk.injEq] at h
      obtain ⟨rfl, rfl, _⟩ := h
      obtain ⟨n, sc, _, e, hc', _⟩ := construct_ok hr hc
      refine ⟨hc', ⟨_, by rw [e]; exact (represents_intern hr n).1⟩, ?_⟩
      intro b m hb
      rw [e]; exact nameOf_intern hr hb n

theorem Spec.Constructed.mono {t t' : InternTable} (h : Extends t t') {b : Btn} (hc : Constructed t b) :
    Constructed t' b := by
  obtain ⟨⟨n, hn⟩, h2, h3⟩ := hc
  exact ⟨⟨n, h _ _ hn⟩, h2, h3⟩

theorem deserializeList_ok {t t' : InternTable} {ns : List String} (hr : Represents t ns)
    {ds ds' : List ButtonData} {bs : List Btn} (h : deserializeList t ds = .ok (t', bs, ds')) :
    (∀ b ∈ bs, Constructed t' b) ∧ (∃ ns', Represents t' ns') ∧ Extends t t' := by
  induction ds generalizing t ns bs ds' with
  | nil =>
    simp only [deserializeList, Except.ok.injEq, Prod.mk.injEq] at h
    obtain ⟨rfl, rfl, _⟩ := h
    exact ⟨by simp, ⟨ns, hr⟩, fun _ _ h => h⟩
  | cons d ds ih =>
    rw [deserializeList] at h
    cases h1 : Btn.deserialize t d with
    | error e => simp [h1, bind, Except.bind] at h
    | ok r =>
      obtain ⟨t1, b1, d1⟩ := r
      simp only [h1, bind, Except.bind] at h
      obtain ⟨c1, ⟨ns1, r1⟩, x1⟩ := deserialize_ok hr h1
      cases h2 : deserializeList t1 ds with
      | error e => simp [h2] at h
      | ok r =>
        obtain ⟨t2, b2, d2⟩ := r
        simp only [h2, Except.ok.injEq, Prod.mk.injEq] at h
        obtain ⟨rfl, rfl, rfl⟩ := h
        obtain ⟨c2, r2, x2⟩ := ih r1 h2
        refine ⟨?_, r2, x1.trans x2⟩
        intro b hb
        rcases List.mem_cons.1 hb with rfl | hb
        · exact c1.mono x2
        · exact c2 b hb

theorem deserializeRows_ok {t t' : InternTable} {ns : List String} (hr : Represents t ns)
    {ds ds' : List (Row ButtonData)} {bs : List (Row Btn)}
    (h : deserializeRows t ds = .ok (t', bs, ds')) :
    (∀ r ∈ bs, ∀ b ∈ r.1 ++ r.2, Constructed t' b) ∧ (∃ ns', Represents t' ns') ∧ Extends t t' := by
  induction ds generalizing t ns bs ds' with
  | nil =>
    simp only [deserializeRows, Except.ok.injEq, Prod.mk.injEq] at h
    obtain ⟨rfl, rfl, _⟩ := h
    exact ⟨by simp, ⟨ns, hr⟩, fun _ _ h => h⟩
  | cons d ds ih =>
    obtain ⟨l, r⟩ := d
    rw [deserializeRows] at h
    cases h1 : deserializeList t l with
    | error e => simp [h1, bind, Except.bind] at h
    | ok r1 =>
      obtain ⟨t1, b1, d1⟩ := r1
      simp only [h1, bind, Except.bind] at h
      obtain ⟨c1, ⟨ns1, r1⟩, x1⟩ := deserializeList_ok hr h1
      cases h2 : deserializeList t1 r with
      | error e => simp [h2] at h
      | ok r2 =>
        obtain ⟨t2, b2, d2⟩ := r2
        simp only [h2] at h
        obtain ⟨c2, ⟨ns2, r2⟩, x2⟩ := deserializeList_ok r1 h2
        cases h3 : deserializeRows t2 ds with
        | error e => simp [h3] at h
        | ok r3 =>
          obtain ⟨t3, b3, d3⟩ := r3
          simp only [h3, Except.ok.injEq, Prod.mk.injEq] at h
          obtain ⟨rfl, rfl, rfl⟩ := h
          obtain ⟨c3, r3, x3⟩ := ih r2 h3
          refine ⟨?_, r3, (x1.trans x2).trans x3⟩
          intro row hrow
          rcases List.mem_cons.1 hrow with rfl | hrow
          · intro b hb
            rcases List.mem_append.1 hb with hb | hb
            · exact (c1 b hb).mono (x2.trans x3)
            · exact (c2 b hb).mono x3
          · exact c3 row hrow

theorem nameSet_of_nodup {l : List String} (h : l.Nodup) : nameSet l = l := by
  induction l with
  | nil => rfl
  | cons x xs ih =>
    rw [List.nodup_cons] at h
    rw [nameSet, if_neg h.1, ih h.2]

/-! ### Generic layouts -/

theorem mem_nameSet {l : List String} {n : String} : n ∈ nameSet l ↔ n ∈ l := by
  induction l with
  | nil => simp [nameSet]
  | cons x xs ih =>
    rw [nameSet]
    split
    · rename_i h
      rw [ih, List.mem_cons]
      constructor
      · exact Or.inr
      · rintro (rfl | h') <;> assumption
    · rw [List.mem_cons, List.mem_cons, ih]

theorem find_called {t : InternTable} {kb : PhysicalKeyboard} {n : String} {x : Btn}
    (h : kb.find t n = .ok x) : Called t kb n x.i := by
  obtain ⟨pre, post, h1, h2, _⟩ := findLoop_ok h
  exact ⟨⟨x, by rw [h1]; simp, rfl⟩, h2⟩

theorem called_find {t : InternTable} {ns : List String} (hr : Represents t ns)
    {kb : PhysicalKeyboard} (hn : Named t kb.keys) {n : String} {b : Button} (h : Called t kb n b) :
    ∃ x, kb.find t n = .ok x ∧ x.i = b := by
  obtain ⟨⟨x, hx, rfl⟩, hname⟩ := h
  cases hf : kb.find t n with
  | error e => exact absurd hname ((findLoop_error hn hf).2 x hx)
  | ok y => exact ⟨y, rfl, hr.inj (find_called hf).2 hname⟩

theorem findAll_ok {t : InternTable} {ns : List String} (hr : Represents t ns)
    {kb : PhysicalKeyboard} (hn : Named t kb.keys) {m : List String} {bs : List Button}
    (h : GenericLayout.findAll t kb m = .ok bs) (b : Button) :
    b ∈ bs ↔ ∃ n ∈ m, Called t kb n b := by
  induction m generalizing bs with
  | nil =>
    simp only [GenericLayout.findAll, Except.ok.injEq] at h
    simp [← h]
  | cons x m ih =>
    rw [GenericLayout.findAll] at h
    cases hx : kb.find t x with
    | error e => simp [hx, bind, Except.bind] at h
    | ok y =>
      cases hm : GenericLayout.findAll t kb m with
      | error e => simp [hx, hm, bind, Except.bind] at h
      | ok bs' =>
        simp only [hx, hm, bind, Except.bind, Except.ok.injEq] at h
        subst h
        rw [List.mem_cons, ih hm]
        constructor
        · rintro (rfl | ⟨n, hn', hc⟩)
          · exact ⟨x, by simp, find_called hx⟩
          · exact ⟨n, by simp [hn'], hc⟩
        · rintro ⟨n, hn', hc⟩
          rcases List.mem_cons.1 hn' with rfl | hn'
          · left; exact hr.inj hc.2 (find_called hx).2 |>.symm ▸ rfl
          · right; exact ⟨n, hn', hc⟩

theorem findAll_iff {t : InternTable} {kb : PhysicalKeyboard} (hn : Named t kb.keys) (m : List String) :
    (∃ bs, GenericLayout.findAll t kb m = .ok bs) ∧ (∀ n ∈ m, HasButton t kb n) ∨
    GenericLayout.findAll t kb m = .error .keyError ∧ ∃ n ∈ m, ¬ HasButton t kb n := by
  induction m with
  | nil => left; exact ⟨⟨[], rfl⟩, by simp⟩
  | cons x m ih =>
    rw [GenericLayout.findAll]
    cases hx : kb.find t x with
    | error e =>
      right
      obtain ⟨h1, h2⟩ := findLoop_error hn hx
      refine ⟨by simp [bind, Except.bind, h1], x, by simp, ?_⟩
      rintro ⟨b, hb, hb'⟩
      exact h2 b hb hb'
    | ok y =>
      have hhas : HasButton t kb x := by
        obtain ⟨⟨b, hb, e⟩, h2⟩ := find_called hx
        exact ⟨b, hb, by rw [e]; exact h2⟩
      rcases ih with ⟨⟨bs, h1⟩, h2⟩ | ⟨h1, n, h2, h3⟩
      · left
        refine ⟨⟨y.i :: bs, by simp [h1, bind, Except.bind]⟩, ?_⟩
        intro n hn'
        rcases List.mem_cons.1 hn' with rfl | hn'
        · exact hhas
        · exact h2 n hn'
      · right
        exact ⟨by simp [h1, bind, Except.bind], n, by simp [h2], h3⟩

theorem specModifiers_iff {t : InternTable} {kb : PhysicalKeyboard} (hn : Named t kb.keys)
    (ms : List (List String)) :
    (∃ fs, GenericLayout.specModifiers t kb ms = .ok fs) ∧ (∀ n ∈ ms.flatten, HasButton t kb n) ∨
    GenericLayout.specModifiers t kb ms = .error .keyError ∧ ∃ n ∈ ms.flatten, ¬ HasButton t kb n := by
  induction ms with
  | nil => left; exact ⟨⟨[], rfl⟩, by simp⟩
  | cons m ms ih =>
    rw [GenericLayout.specModifiers]
    rcases findAll_iff hn m with ⟨⟨bs, h1⟩, h2⟩ | ⟨h1, n, h2, h3⟩
    · rcases ih with ⟨⟨fs, h3⟩, h4⟩ | ⟨h3, n, h4, h5⟩
      · left
        refine ⟨⟨_, by simp only [h1, h3, bind, Except.bind]; rfl⟩, ?_⟩
        intro n hn'
        rw [List.flatten_cons] at hn'
        rcases List.mem_append.1 hn' with h | h
        · exact h2 n h
        · exact h4 n h
      · right
        exact ⟨by simp [h1, h3, bind, Except.bind], n,
          by rw [List.flatten_cons]; exact List.mem_append_right _ h4, h5⟩
    · right
      exact ⟨by simp [h1, bind, Except.bind], n,
        by rw [List.flatten_cons]; exact List.mem_append_left _ h2, h3⟩

theorem specModifiers_ok {t : InternTable} {ns : List String} (hr : Represents t ns)
    {kb : PhysicalKeyboard} (hn : Named t kb.keys) {ms : List (List String)} {fs : List FSet}
    (h : GenericLayout.specModifiers t kb ms = .ok fs) :
    List.Forall₂ (fun (m : List String) (s : FSet) =>
      FSet.WF s ∧ ∀ b, b ∈ s ↔ ∃ n ∈ m, Called t kb n b) ms fs := by
  induction ms generalizing fs with
  | nil =>
    simp only [GenericLayout.specModifiers, Except.ok.injEq] at h
    subst h; exact .nil
  | cons m ms ih =>
    rw [GenericLayout.specModifiers] at h
    cases h1 : GenericLayout.findAll t kb m with
    | error e => simp [h1, bind, Except.bind] at h
    | ok bs =>
      cases h2 : GenericLayout.specModifiers t kb ms with
      | error e => simp [h1, h2, bind, Except.bind] at h
      | ok fs' =>
        simp only [h1, h2, bind, Except.bind, Except.ok.injEq] at h
        subst h
        refine .cons ⟨wf_frozenset _, fun b => ?_⟩ (ih h2)
        rw [mem_frozenset]
        exact findAll_ok hr hn h1 b

theorem specEntries_iff {t : InternTable} {kb : PhysicalKeyboard} (hn : Named t kb.keys)
    (es : List (String × LVal)) :
    (∃ fs, GenericLayout.specEntries t kb es = .ok fs) ∧ (∀ n ∈ es.map Prod.fst, HasButton t kb n) ∨
    GenericLayout.specEntries t kb es = .error .keyError ∧ ∃ n ∈ es.map Prod.fst, ¬ HasButton t kb n := by
  induction es with
  | nil => left; exact ⟨⟨[], rfl⟩, by simp⟩
  | cons e es ih =>
    obtain ⟨x, v⟩ := e
    rw [GenericLayout.specEntries]
    cases hx : kb.find t x with
    | error e =>
      right
      obtain ⟨h1, h2⟩ := findLoop_error hn hx
      refine ⟨by simp [bind, Except.bind, h1], x, by simp, ?_⟩
      rintro ⟨b, hb, hb'⟩
      exact h2 b hb hb'
    | ok y =>
      have hhas : HasButton t kb x := by
        obtain ⟨⟨b, hb, e⟩, h2⟩ := find_called hx
        exact ⟨b, hb, by rw [e]; exact h2⟩
      rcases ih with ⟨⟨bs, h1⟩, h2⟩ | ⟨h1, n, h2, h3⟩
      · left
        refine ⟨⟨(y.i, v) :: bs, by simp [h1, bind, Except.bind]⟩, ?_⟩
        intro n hn'
        rw [List.map_cons] at hn'
        rcases List.mem_cons.1 hn' with rfl | hn'
        · exact hhas
        · exact h2 n hn'
      · right
        exact ⟨by simp [h1, bind, Except.bind], n, by rw [List.map_cons]; simp only [List.mem_cons]; exact Or.inr h2, h3⟩

theorem specEntries_mem {t : InternTable} {kb : PhysicalKeyboard}
    {es : List (String × LVal)} {fs : List (Button × LVal)}
    (h : GenericLayout.specEntries t kb es = .ok fs) :
    List.Forall₂ (fun e f => Called t kb e.1 f.1 ∧ e.2 = f.2) es fs := by
  induction es generalizing fs with
  | nil =>
    simp only [GenericLayout.specEntries, Except.ok.injEq] at h
    subst h; exact .nil
  | cons e es ih =>
    obtain ⟨x, v⟩ := e
    rw [GenericLayout.specEntries] at h
    cases hx : kb.find t x with
    | error e => simp [hx, bind, Except.bind] at h
    | ok y =>
      cases h2 : GenericLayout.specEntries t kb es with
      | error e => simp [hx, h2, bind, Except.bind] at h
      | ok fs' =>
        simp only [hx, h2, bind, Except.bind, Except.ok.injEq] at h
        subst h
        exact .cons ⟨find_called hx, rfl⟩ (ih h2)

theorem forall2_mem_right {α β : Type} {R : α → β → Prop} {l : List α} {l' : List β}
    (h : List.Forall₂ R l l') {b : β} (hb : b ∈ l') : ∃ a ∈ l, R a b := by
  induction h with
  | nil => simp at hb
  | cons h1 _ ih =>
    rcases List.mem_cons.1 hb with rfl | hb
    · exact ⟨_, by simp, h1⟩
    · obtain ⟨a, ha, hr⟩ := ih hb
      exact ⟨a, by simp [ha], hr⟩

theorem forall2_mem_left {α β : Type} {R : α → β → Prop} {l : List α} {l' : List β}
    (h : List.Forall₂ R l l') {a : α} (ha : a ∈ l) : ∃ b ∈ l', R a b := by
  induction h with
  | nil => simp at ha
  | cons h1 _ ih =>
    rcases List.mem_cons.1 ha with rfl | ha
    · exact ⟨_, by simp, h1⟩
    · obtain ⟨b, hb, hr⟩ := ih ha
      exact ⟨b, by simp [hb], hr⟩

theorem specEntries_wf {t : InternTable} {kb : PhysicalKeyboard}
    {es : List (String × LVal)} {fs : List (Button × LVal)}
    (h : List.Forall₂ (fun e f => Called t kb e.1 f.1 ∧ e.2 = f.2) es fs) (wf : Dict.WF es) :
    Dict.WF fs := by
  induction h with
  | nil => exact Dict.wf_nil
  | @cons e f es fs h1 h2 ih =>
    rw [Dict.wf_cons] at wf ⊢
    refine ⟨?_, ih wf.2⟩
    intro hm
    obtain ⟨f', hf', e1⟩ := List.mem_map.1 hm
    obtain ⟨e', he', h3⟩ := forall2_mem_right h2 hf'
    apply wf.1
    have : e.1 = e'.1 := by
      have a1 := h1.1.2
      have a2 := h3.1.2
      rw [e1, a1] at a2
      simpa using a2
    rw [this]
    exact List.mem_map.2 ⟨e', he', rfl⟩

theorem specLayer_iff {t : InternTable} {kb : PhysicalKeyboard} (hn : Named t kb.keys) (l : GLayer) :
    (∃ l', GenericLayout.specLayer t kb l = .ok l') ∧ (∀ n ∈ layerNames l, HasButton t kb n) ∨
    GenericLayout.specLayer t kb l = .error .keyError ∧ ∃ n ∈ layerNames l, ¬ HasButton t kb n := by
  unfold GenericLayout.specLayer layerNames
  rcases specModifiers_iff hn l.modifier with ⟨⟨fs, h1⟩, h2⟩ | ⟨h1, n, h2, h3⟩
  · rcases specEntries_iff hn l.layout with ⟨⟨es, h3⟩, h4⟩ | ⟨h3, n, h4, h5⟩
    · left
      refine ⟨⟨_, by simp only [h1, h3, bind, Except.bind]; rfl⟩, ?_⟩
      intro n hn'
      rcases List.mem_append.1 hn' with h | h
      · exact h4 n h
      · exact h2 n h
    · right
      exact ⟨by simp [h1, h3, bind, Except.bind], n, List.mem_append_left _ h4, h5⟩
  · right
    exact ⟨by simp [h1, bind, Except.bind], n, List.mem_append_right _ h2, h3⟩

theorem specLayers_iff {t : InternTable} {kb : PhysicalKeyboard} (hn : Named t kb.keys) (ls : List GLayer) :
    (∃ ls', GenericLayout.specLayers t kb ls = .ok ls') ∧ (∀ l ∈ ls, ∀ n ∈ layerNames l, HasButton t kb n) ∨
    GenericLayout.specLayers t kb ls = .error .keyError ∧ ∃ l ∈ ls, ∃ n ∈ layerNames l, ¬ HasButton t kb n := by
  induction ls with
  | nil => left; exact ⟨⟨[], rfl⟩, by simp⟩
  | cons l ls ih =>
    rw [GenericLayout.specLayers]
    rcases specLayer_iff hn l with ⟨⟨l', h1⟩, h2⟩ | ⟨h1, n, h2, h3⟩
    · rcases ih with ⟨⟨ls', h3⟩, h4⟩ | ⟨h3, l2, h4, n, h5⟩
      · left
        refine ⟨⟨_, by simp only [h1, h3, bind, Except.bind]; rfl⟩, ?_⟩
        intro x hx
        rcases List.mem_cons.1 hx with rfl | hx
        · exact h2
        · exact h4 x hx
      · right
        exact ⟨by simp [h1, h3, bind, Except.bind], l2, by simp [h4], n, h5⟩
    · right
      exact ⟨by simp [h1, bind, Except.bind], l, by simp, n, h2, h3⟩

theorem specLayer_translates {t : InternTable} {ns : List String} (hr : Represents t ns)
    {kb : PhysicalKeyboard} (hn : Named t kb.keys) {g : GLayer} {l : Layer} (wf : Dict.WF g.layout)
    (h : GenericLayout.specLayer t kb g = .ok l) : Translates t kb g l := by
  unfold GenericLayout.specLayer at h
  cases h1 : GenericLayout.specModifiers t kb g.modifier with
  | error e => simp [h1, bind, Except.bind] at h
  | ok ms =>
    cases h2 : GenericLayout.specEntries t kb g.layout with
    | error e => simp [h1, h2, bind, Except.bind] at h
    | ok es =>
      simp only [h1, h2, bind, Except.bind, Except.ok.injEq] at h
      subst h
      have hfa := specEntries_mem h2
      have wfe := specEntries_wf hfa wf
      refine ⟨?_, ?_, specModifiers_ok hr hn h1⟩
      · intro n b hc
        simp only [Dict.ofPairs_of_wf wfe]
        apply Option.ext
        intro v
        rw [Dict.get?_eq_some_iff wfe, Dict.get?_eq_some_iff wf]
        constructor
        · intro hm
          obtain ⟨e, he, hc', hv⟩ := forall2_mem_right hfa hm
          have : e.1 = n := by
            have a := hc'.2; rw [hc.2] at a; simpa using a.symm
          rw [← this, ← show e.2 = v from hv]
          exact he
        · intro hm
          obtain ⟨f, hf, hc', hv⟩ := forall2_mem_left hfa hm
          have : f.1 = b := hr.inj hc'.2 hc.2
          rw [← this, show v = f.2 from hv]
          exact hf
      · intro b v hb
        simp only [Dict.ofPairs_of_wf wfe] at hb
        obtain ⟨e, _, hc', _⟩ := forall2_mem_right hfa (Dict.mem_of_get? hb)
        exact ⟨e.1, hc'⟩

theorem specLayers_translates {t : InternTable} {ns : List String} (hr : Represents t ns)
    {kb : PhysicalKeyboard} (hn : Named t kb.keys) {gs : List GLayer} {ls : List Layer}
    (wf : ∀ g ∈ gs, Dict.WF g.layout)
    (h : GenericLayout.specLayers t kb gs = .ok ls) : List.Forall₂ (Translates t kb) gs ls := by
  induction gs generalizing ls with
  | nil =>
    simp only [GenericLayout.specLayers, Except.ok.injEq] at h
    subst h; exact .nil
  | cons g gs ih =>
    rw [GenericLayout.specLayers] at h
    cases h1 : GenericLayout.specLayer t kb g with
    | error e => simp [h1, bind, Except.bind] at h
    | ok l =>
      cases h2 : GenericLayout.specLayers t kb gs with
      | error e => simp [h1, h2, bind, Except.bind] at h
      | ok ls' =>
        simp only [h1, h2, bind, Except.bind, Except.ok.injEq] at h
        subst h
        exact .cons (specLayer_translates hr hn (wf g (by simp)) h1) (ih (fun x hx => wf x (by simp [hx])) h2)

end Lulua
