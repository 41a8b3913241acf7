import Verif.Proofs.Util

/-!
# C55–C57, C75: helpers
-/

namespace Lulua.Props
open Lulua Spec

/-! ### C55 -/

/-- **C55**: call number `j` of `next` on `limit (l, n)` does what call number `j` on `l` does, if that is among the
first `n` and all before gave an item. -/
theorem C55_prefix {σ α : Type} (it : Iter σ α) (n : Int) (s : σ) (j : Nat) (hj : (j : Int) < n)
    (hi : ∀ i < j, IsItem (result it s i)) :
    result (limit it) (limitStart n s) j = result it s j := limit_result (by omega) hi

/-- **C55**: after `n` items, or once there is none, it is at its end. -/
theorem C55_end {σ α : Type} (it : Iter σ α) (n : Int) (s : σ) (j : Nat)
    (hj : n ≤ j ∨ ∃ i < j, ¬ IsItem (result it s i)) : result (limit it) (limitStart n s) j = .stop := by
  rcases hj with hj | hj
  · exact limit_over (by omega)
  · classical
    rcases Nat.lt_or_ge j n.toNat with h | h
    · have h1 := Nat.find_spec hj
      have h2 : ∀ k < Nat.find hj, IsItem (result it s k) := by
        intro k hk
        have := Nat.find_min hj hk
        push Not at this
        exact this (by omega)
      exact limit_ended (i := Nat.find hj) h1.1 (by unfold limitStart; rw [limit_result (by omega) h2]; exact h1.2)
    · exact limit_over h

/-- **C55**: `next` is called on `l` at most `n` times, and not before an item is asked for. -/
theorem C55_not_more {σ α : Type} (it : Iter σ α) (n : Int) (s : σ) (j : Nat) :
    (after (limit (counted it)) (limitStart n (s, 0)) j).2.2 ≤ n.toNat ∧
      (after (limit (counted it)) (limitStart n (s, 0)) j).2.2 ≤ j := by
  have := limit_counted (it := it) (x := limitStart n (s, 0)) j
  simp only [limitStart] at this ⊢
  simp only [Option.getD_some] at this
  omega

/-- **C55**: of the items of `l` those not yielded are still there. -/
theorem C55_rest {σ α : Type} (it : Iter σ α) (n : Int) (s : σ) (j : Nat) (hj : (j : Int) ≤ n)
    (hi : ∀ i < j, IsItem (result it s i)) : (after (limit it) (limitStart n s) j).2 = after it s j := by
  unfold limitStart
  rw [limit_after j (by omega) hi]

/-- Of the natural numbers, which never end. -/
example : (List.range 5).map (result (limit fun n : Nat => (.item n, n + 1)) (limitStart 3 10)) =
    [.item 10, .item 11, .item 12, .stop, .stop] := by decide
example : (List.range 4).map (result (limit listIter) (limitStart 3 ['a', 'b'])) = [.item 'a', .item 'b', .stop, .stop] := by
  decide
example : result (limit listIter) (limitStart (-1) ['a', 'b']) 0 = .stop := by decide

/-! ### C56 -/

/-- **C56**: no text is no text. -/
theorem C56_none (u : UniData) : displayText u none = .ok none := rfl

/-- **C56**: a text of combining characters only (and the empty one) gets a dotted circle. -/
theorem C56_combining (u : UniData) (t : Text) (h : ∀ c ∈ t, u.combining c ≠ 0) :
    displayText u (some t) = .ok (some ('\u25cc' :: t)) := by
  simp only [displayText]
  rw [if_pos]
  simpa using h

/-- **C56**: the name of a format character is abbreviated to the initials of its words, leaving out TO between words. -/
theorem C56_format (u : UniData) (c : Char) (n : Text) (ws : List Text) (h : u.combining c = 0) (hf : u.format c = true)
    (hn : u.name c = some n) (hw : NameOf ws n) (hp : PlainWords u ws) :
    displayText u (some [c]) = .ok (some ('[' :: (significant ws).filterMap List.head? ++ [']'])) := by
  unfold displayText
  simp [h, hf, hn, initials_name hw hp, bind, Except.bind]

/-- The characters with a replacement of their own. -/
def C56_table : List (Char × Text) :=
  [('\t', ['⭾']), ('\n', ['↳']), (' ', ['\u2423']), ('\x08', ['⌦']), ('\u202f', "[NNBSP]".toList)]

/-- **C56**: five invisible characters are replaced, if they are what the Unicode database says they are. -/
theorem C56_replaced (u : UniData) (c : Char) (t : Text) (hc : (c, t) ∈ C56_table) (h : u.combining c = 0)
    (hf : u.format c = false) : displayText u (some [c]) = .ok (some t) := by
  unfold displayText
  simp only [List.all_cons, h, bne_self_eq_false, List.all_nil, Bool.and_true, Bool.false_eq_true, if_false, hf]
  simp only [C56_table, List.mem_cons, Prod.mk.injEq, List.not_mem_nil, or_false] at hc
  rcases hc with ⟨rfl, rfl⟩ | ⟨rfl, rfl⟩ | ⟨rfl, rfl⟩ | ⟨rfl, rfl⟩ | ⟨rfl, rfl⟩ <;> rfl

/-- **C56**: everything else is returned as it is. -/
theorem C56_unchanged (u : UniData) (t : Text) (h : ∃ c ∈ t, u.combining c = 0)
    (ht : t.length ≠ 1 ∨ ∃ c, t = [c] ∧ (u.format c = false ∨ u.name c = none) ∧ c ∉ C56_table.map Prod.fst) :
    displayText u (some t) = .ok (some t) := by
  simp only [displayText]
  rw [if_neg (by simpa using h)]
  have hi : (∀ c ∈ C56_table.map Prod.fst, t ≠ [c]) → (Dict.get? invMap t).getD t = t := by
    intro hne
    simp only [C56_table, List.map_cons, List.map_nil, List.mem_cons, List.not_mem_nil, or_false, forall_eq_or_imp,
      forall_eq] at hne
    obtain ⟨h1, h2, h3, h4, h5⟩ := hne
    simp only [invMap, Dict.get?]
    rw [if_neg (Ne.symm h1), if_neg (Ne.symm h2), if_neg (Ne.symm h3), if_neg (Ne.symm h4), if_neg (Ne.symm h5)]
    rfl
  rcases ht with ht | ⟨c, rfl, hc, hn⟩
  · have hi' := hi (by rintro c - rfl; simp at ht)
    split
    · simp at ht
    · simp only [hi']
  · have hi' := hi (by rintro c' hc' he; simp only [List.cons.injEq, and_true] at he; subst he; exact hn hc')
    simp only [hi']
    rcases hc with hc | hc
    · simp [hc]
    · simp [hc]

/-- **C56**: the result for a text is never empty. -/
theorem C56_nonempty (u : UniData) (t : Text) (r : Option Text) (h : displayText u (some t) = .ok r) :
    ∃ c cs, r = some (c :: cs) := by
  by_cases hc : ∀ c ∈ t, u.combining c ≠ 0
  · rw [C56_combining u t hc] at h
    simp only [Except.ok.injEq] at h
    exact ⟨_, _, h.symm⟩
  · simp only [displayText] at h
    rw [if_neg (by simpa using hc)] at h
    have hrest : ∀ r, Except.ok (some ((Dict.get? invMap t).getD t)) = (Except.ok r : Py (Option Text)) →
        ∃ c cs, r = some (c :: cs) := by
      intro r hr
      simp only [Except.ok.injEq] at hr
      subst hr
      cases hg : Dict.get? invMap t with
      | none =>
        cases t with
        | nil => simp at hc
        | cons c cs => exact ⟨c, cs, rfl⟩
      | some v =>
        have : v ≠ [] := by
          simp only [invMap, Dict.get?] at hg
          split_ifs at hg <;> simp only [Option.some.injEq] at hg <;> subst hg <;> simp
        cases v with
        | nil => exact absurd rfl this
        | cons c cs => exact ⟨c, cs, rfl⟩
    split at h
    · split at h
      · split at h
        · rw [bind_ok_iff] at h
          obtain ⟨s, _, h⟩ := h
          simp only [Except.ok.injEq] at h
          exact ⟨_, _, h.symm⟩
        · exact hrest r h
      · exact hrest r h
    · exact hrest r h

/-- **C56** (limits): the claim that the result has no control or invisible characters is wrong: the only control
characters it replaces are tab, newline and backspace, and texts of several characters are not looked at. -/
theorem C56_invisible_refuted (u : UniData) (hu : u.combining '\x07' = 0 ∧ u.format '\x07' = false ∧ u.combining ' ' = 0) :
    displayText u (some ['\x07']) = .ok (some ['\x07']) ∧ displayText u (some [' ', ' ']) = .ok (some [' ', ' ']) :=
  ⟨C56_unchanged u _ ⟨'\x07', by simp, hu.1⟩ (.inr ⟨'\x07', rfl, .inl hu.2.1, by decide⟩),
    C56_unchanged u _ ⟨' ', by simp, hu.2.2⟩ (.inl (by decide))⟩

/-- A small Unicode database. -/
def demoUni : UniData where
  combining c := if c = '\u064b' ∨ c = '\u0650' then 27 else 0
  format c := c = '\u200f' ∨ c = '\u200c'
  name c := if c = '\u200f' then some "RIGHT-TO-LEFT MARK".toList
    else if c = '\u200c' then some "ZERO WIDTH NON-JOINER".toList else none
  word c := c.isAlphanum

example : displayText demoUni (some ['\u200f']) = .ok (some "[RLM]".toList) ∧
    displayText demoUni (some ['\u200c']) = .ok (some "[ZWNJ]".toList) ∧
    displayText demoUni (some ['\u064b', '\u0650']) = .ok (some ['\u25cc', '\u064b', '\u0650']) ∧
    displayText demoUni (some []) = .ok (some ['\u25cc']) ∧
    displayText demoUni (some ['\u202f']) = .ok (some "[NNBSP]".toList) ∧
    displayText demoUni (some ['a', '\u064b']) = .ok (some ['a', '\u064b']) := by
  refine ⟨?_, ?_, ?_, ?_, ?_, ?_⟩ <;> decide +kernel

example : NameOf ["RIGHT".toList, "TO".toList, "LEFT".toList, "MARK".toList] "RIGHT-TO-LEFT MARK".toList ∧
    PlainWords demoUni ["RIGHT".toList, "TO".toList, "LEFT".toList, "MARK".toList] := by
  refine ⟨?_, ⟨by decide +kernel, by decide +kernel, by decide +kernel⟩⟩
  exact NameOf.more '-' (.inr rfl) (NameOf.more '-' (.inr rfl) (NameOf.more ' ' (.inl rfl) (NameOf.last _)))

/-! ### C75 -/

/-- The symbols used are what the Unicode database says: neither combining nor format characters. -/
structure VisibleSymbols (u : UniData) : Prop where
  circle : u.combining '\u25cc' = 0
  circleFormat : u.format '\u25cc' = false ∨ u.name '\u25cc' = none
  bracket : u.combining '[' = 0
  symbol : ∀ c ∈ ['⭾', '↳', '\u2423', '⌦'], u.combining c = 0 ∧ u.format c = false

/-- **C75**: applying `displayText` to its own result changes nothing. -/
theorem C75_idempotent (u : UniData) (hu : VisibleSymbols u) (t r : Option Text) (h : displayText u t = .ok r) :
    displayText u r = .ok r := by
  cases t with
  | none => simp only [displayText, Except.ok.injEq] at h; subst h; rfl
  | some t =>
    by_cases hc : ∀ c ∈ t, u.combining c ≠ 0
    · rw [C56_combining u t hc] at h
      simp only [Except.ok.injEq] at h
      subst h
      cases t with
      | nil =>
        refine C56_unchanged u _ ⟨'\u25cc', by simp, hu.circle⟩ (.inr ⟨_, rfl, ?_, by decide⟩)
        exact hu.circleFormat
      | cons a t => exact C56_unchanged u _ ⟨'\u25cc', by simp, hu.circle⟩ (.inl (by simp))
    · have hc' : ∃ c ∈ t, u.combining c = 0 := by simpa using hc
      have hbr : ∀ s : Text, displayText u (some ('[' :: s ++ [']'])) = .ok (some ('[' :: s ++ [']'])) := fun s =>
        C56_unchanged u _ ⟨'[', by simp, hu.bracket⟩ (.inl (by simp))
      by_cases ht : t.length ≠ 1 ∨ ∃ c, t = [c] ∧ (u.format c = false ∨ u.name c = none) ∧ c ∉ C56_table.map Prod.fst
      · have h1 := C56_unchanged u t hc' ht
        rw [h1] at h
        simp only [Except.ok.injEq] at h
        subst h
        exact h1
      · push Not at ht
        obtain ⟨hl, ht⟩ := ht
        match t, hl with
        | [c], _ =>
          have h0 : u.combining c = 0 := by simpa using hc'
          have hsym : ∀ s, (c, s) ∈ C56_table → displayText u (some s) = .ok (some s) := by
            intro s hs
            simp only [C56_table, List.mem_cons, Prod.mk.injEq, List.not_mem_nil, or_false] at hs
            rcases hs with ⟨_, rfl⟩ | ⟨_, rfl⟩ | ⟨_, rfl⟩ | ⟨_, rfl⟩ | ⟨_, rfl⟩
            · exact C56_unchanged u _ ⟨_, by simp, (hu.symbol '⭾' (by simp)).1⟩
                (.inr ⟨_, rfl, .inl (hu.symbol '⭾' (by simp)).2, by decide⟩)
            · exact C56_unchanged u _ ⟨_, by simp, (hu.symbol '↳' (by simp)).1⟩
                (.inr ⟨_, rfl, .inl (hu.symbol '↳' (by simp)).2, by decide⟩)
            · exact C56_unchanged u _ ⟨_, by simp, (hu.symbol '\u2423' (by simp)).1⟩
                (.inr ⟨_, rfl, .inl (hu.symbol '\u2423' (by simp)).2, by decide⟩)
            · exact C56_unchanged u _ ⟨_, by simp, (hu.symbol '⌦' (by simp)).1⟩
                (.inr ⟨_, rfl, .inl (hu.symbol '⌦' (by simp)).2, by decide⟩)
            · exact C56_unchanged u _ ⟨'[', by simp, hu.bracket⟩ (.inl (by decide))
          have hrest : (Except.ok (some ((Dict.get? invMap [c]).getD [c])) : Py (Option Text)) = .ok r →
              (u.format c = false ∨ u.name c = none) → displayText u r = .ok r := by
            intro hr hf
            have hm : c ∈ C56_table.map Prod.fst := ht c rfl hf
            simp only [Except.ok.injEq] at hr
            subst hr
            obtain ⟨⟨c', s⟩, hs, rfl⟩ := List.mem_map.1 hm
            have : (Dict.get? invMap [c']).getD [c'] = s := by
              simp only [C56_table, List.mem_cons, Prod.mk.injEq, List.not_mem_nil, or_false] at hs
              rcases hs with ⟨rfl, rfl⟩ | ⟨rfl, rfl⟩ | ⟨rfl, rfl⟩ | ⟨rfl, rfl⟩ | ⟨rfl, rfl⟩ <;> rfl
            rw [this]
            exact hsym s hs
          simp only [displayText] at h
          rw [if_neg (by simpa using h0)] at h
          split at h
          · split at h
            · rw [bind_ok_iff] at h
              obtain ⟨s, _, h⟩ := h
              simp only [Except.ok.injEq] at h
              subst h
              exact hbr s
            · next hn => exact hrest h (.inr hn)
          · next hn => exact hrest h (.inl (by simpa using hn))

example : VisibleSymbols demoUni := ⟨by decide, .inl (by decide), by decide, by decide⟩

/-! ### C57 -/

/-- **C57**: the sources are the file of that name, the resource with `.yaml` appended and the resource, in this order;
with `onlyRes` only the resources. The first that neither is missing nor is not text decides. -/
theorem C57_order {σ ψ α : Type} (w : YamlWorld σ ψ α) (dir k : String) (onlyRes : Bool) (r : Py α) :
    w.getitem dir k onlyRes = r ↔ Finds w.load w.deserialize
      ((if onlyRes then [] else [w.openFile k]) ++
        [w.openResource (pathJoin dir (k ++ ".yaml")), w.openResource (pathJoin dir k)]) r := by
  unfold YamlWorld.getitem
  rw [tryAll_iff]
  cases onlyRes <;> rfl

/-- **C57** (KeyError): if no source can be opened or read and none fails in another way, `KeyError` is raised; it is
raised only then, unless a parser raises it. -/
theorem C57_keyError {σ ψ α : Type} (w : YamlWorld σ ψ α) (dir k : String)
    (hd : ∀ y, w.deserialize y ≠ .error .keyError) (hl : ∀ fd, w.load fd ≠ .error .keyError)
    (hf : w.openFile k ≠ .error .keyError) (hr : ∀ p, w.openResource p ≠ .error .keyError) :
    w.getitem dir k false = .error .keyError ↔
      ∀ o ∈ [w.openFile k, w.openResource (pathJoin dir (k ++ ".yaml")), w.openResource (pathJoin dir k)],
        ∃ r, Outcome w.load w.deserialize o r ∧ Skipped r := by
  rw [C57_order]
  simp only [Bool.false_eq_true, if_false, List.cons_append, List.nil_append]
  have hk : ∀ o, o ≠ .error .keyError → ¬ Outcome w.load w.deserialize o (.error .keyError) := by
    intro o ho h
    generalize hx : (Except.error PyErr.keyError : Py α) = x at h
    cases h with
    | unopened e => simp only [Except.error.injEq] at hx; subst hx; exact ho rfl
    | unparsable h => simp only [Except.error.injEq] at hx; subst hx; exact hl _ h
    | read h => exact hd _ hx.symm
  have key : ∀ os : List (Py σ), (∀ o ∈ os, o ≠ .error .keyError) → (Finds w.load w.deserialize os (.error .keyError) ↔
      ∀ o ∈ os, ∃ r, Outcome w.load w.deserialize o r ∧ Skipped r) := by
    intro os hos
    induction os with
    | nil => exact ⟨fun _ => by simp, fun _ => .nothing⟩
    | cons o os ih =>
      have ih := ih (fun x hx => hos x (by simp [hx]))
      constructor
      · intro h
        cases h with
        | this ho hs => exact absurd ho (hk o (hos o (by simp)))
        | next ho hs hf =>
          intro x hx
          rcases List.mem_cons.1 hx with rfl | hx
          · exact ⟨_, ho, hs⟩
          · exact ih.1 hf x hx
      · intro h
        obtain ⟨r, h1, h2⟩ := h o (by simp)
        exact .next h1 h2 (ih.2 fun x hx => h x (by simp [hx]))
  apply key
  simp only [List.mem_cons, List.not_mem_nil, or_false]
  rintro o (rfl | rfl | rfl)
  · exact hf
  · exact hr _
  · exact hr _

/-- **C57** (iteration): the packaged names that end in `.yaml` and do not start with a dot are loaded, in the order of
the directory, from the package only. -/
theorem C57_iterate {σ ψ α : Type} (w : YamlWorld σ ψ α) (dir : String) (vs : List α) :
    w.iterate dir = .ok vs ↔ ∃ names, w.listdir dir = .ok names ∧
      List.Forall₂ (fun n v => Finds w.load w.deserialize
          [w.openResource (pathJoin dir (n ++ ".yaml")), w.openResource (pathJoin dir n)] (.ok v))
        (names.filter fun n => !n.startsWith "." && n.endsWith ".yaml") vs := by
  unfold YamlWorld.iterate
  rw [bind_ok_iff]
  refine exists_congr fun names => and_congr_right fun _ => ?_
  rw [mapM_ok_iff]
  have : ∀ n v, w.getitem dir n true = .ok v ↔ Finds w.load w.deserialize
      [w.openResource (pathJoin dir (n ++ ".yaml")), w.openResource (pathJoin dir n)] (.ok v) := fun n v =>
    C57_order w dir n true (.ok v)
  simp only [this]
  rfl

/-- A world with a file and two resources; contents are numbers, 0 is not text. -/
def demoWorld : YamlWorld Nat Nat Nat where
  openFile k := if k = "mine" then .ok 1 else if k = "binary" then .ok 0 else .error .fileNotFound
  openResource p := if p = "data/binary.yaml" then .ok 2 else if p = "data/mine.yaml" then .ok 3 else .error .fileNotFound
  listdir _ := .ok [".hidden.yaml", "binary.yaml", "notes.txt", "mine.yaml"]
  load n := if n = 0 then .error .readerError else .ok n
  deserialize n := .ok (n * 10)

example : demoWorld.getitem "data" "mine" false = .ok 10 ∧ demoWorld.getitem "data" "binary" false = .ok 20 ∧
    demoWorld.getitem "data" "other" false = .error .keyError ∧ demoWorld.iterate "data" = .ok [20, 30] := by
  refine ⟨?_, ?_, ?_, ?_⟩ <;> decide +kernel

end Lulua.Props
