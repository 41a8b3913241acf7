import Verif.Spec.Util
import Verif.Proofs.Carpalx

/-!
# Lemmas about the helpers of `util.py`
-/

namespace Lulua
open Spec

/-! ### Iterators -/

section limit
variable {σ α : Type} {it : Iter σ α}

/-- As long as `it` yields items and `n` is not reached, `limit` does what `it` does. -/
theorem limit_after {n : Nat} {s : σ} : ∀ j ≤ n, (∀ i < j, IsItem (result it s i)) →
    after (limit it) (some n, s) j = (some (n - j), after it s j)
  | 0, _, _ => rfl
  | j + 1, hj, hi => by
    have ih := limit_after (n := n) (s := s) j (by omega) (fun i h => hi i (by omega))
    have h := hi j (by omega)
    rw [after, ih, after]
    obtain ⟨m, hm⟩ : ∃ m, n - j = m + 1 := ⟨n - j - 1, by omega⟩
    unfold result at h
    rw [hm]
    revert h
    rcases hit : it (after it s j) with ⟨r, s'⟩
    intro h
    cases r with
    | item a => simp only [limit, hit]; congr 2; omega
    | stop => exact h.elim
    | raised e => exact h.elim

theorem limit_done {s : σ} : ∀ j, after (limit it) (none, s) j = (none, s)
  | 0 => rfl
  | j + 1 => by rw [after, limit_done j]; rfl

theorem after_add {τ β : Type} {jt : Iter τ β} {s : τ} (i : Nat) : ∀ j, after jt s (i + j) = after jt (after jt s i) j
  | 0 => rfl
  | j + 1 => by rw [← Nat.add_assoc, after, after, after_add i j]

theorem limit_result {n : Nat} {s : σ} {j : Nat} (hj : j < n) (hi : ∀ i < j, IsItem (result it s i)) :
    result (limit it) (some n, s) j = result it s j := by
  unfold result
  rw [limit_after j (by omega) hi]
  obtain ⟨m, hm⟩ : ∃ m, n - j = m + 1 := ⟨n - j - 1, by omega⟩
  rw [hm]
  rcases hit : it (after it s j) with ⟨r, s'⟩
  cases r <;> simp only [limit, hit]

/-- Once ended it stays so. -/
theorem limit_ended {x : Option Nat × σ} {i j : Nat} (hij : i < j) (h : ¬ IsItem (result (limit it) x i)) :
    result (limit it) x j = .stop := by
  have h1 : (after (limit it) x (i + 1)).1 = none := by
    rw [after]
    unfold result at h
    revert h
    rcases after (limit it) x i with ⟨_ | _ | n, s⟩
    · intro _; rfl
    · intro _; rfl
    · rcases hit : it s with ⟨r, s'⟩
      cases r <;> simp [limit, hit, IsItem]
  unfold result
  obtain ⟨k, rfl⟩ : ∃ k, j = i + 1 + k := ⟨j - (i + 1), by omega⟩
  rw [after_add (i + 1) k]
  rcases hx : after (limit it) x (i + 1) with ⟨a, s⟩
  rw [hx] at h1
  simp only at h1
  subst h1
  rw [limit_done]
  rfl

theorem limit_over {n : Nat} {s : σ} {j : Nat} (hj : n ≤ j) : result (limit it) (some n, s) j = .stop := by
  by_cases hi : ∀ i < n, IsItem (result it s i)
  · have h0 : result (limit it) (some n, s) n = .stop := by
      unfold result
      rw [limit_after n (le_refl n) hi, Nat.sub_self]
      rfl
    rcases Nat.lt_or_ge n j with h | h
    · exact limit_ended h (by rw [h0]; exact fun h => h)
    · obtain rfl : j = n := by omega
      exact h0
  · push Not at hi
    classical
    let i := Nat.find hi
    have h1 : i < n ∧ ¬ IsItem (result it s i) := Nat.find_spec hi
    have h2 : ∀ k < i, IsItem (result it s k) := by
      intro k hk
      have := Nat.find_min hi hk
      push Not at this
      exact this (by omega)
    exact limit_ended (i := i) (by omega) (by rw [limit_result h1.1 h2]; exact h1.2)

/-- Calls counted plus rounds left never exceed what they were. -/
theorem limit_counted {x : Option Nat × σ × Nat} : ∀ j,
    let y := after (limit (counted it)) x j
    y.2.2 + y.1.getD 0 ≤ x.2.2 + x.1.getD 0 ∧ y.2.2 ≤ x.2.2 + j
  | 0 => ⟨le_refl _, le_refl _⟩
  | j + 1 => by
    obtain ⟨h1, h2⟩ := limit_counted (x := x) j
    simp only at h1 h2 ⊢
    rw [after]
    revert h1 h2
    rcases after (limit (counted it)) x j with ⟨_ | _ | n, s, c⟩
    · intro h1 h2; simp [limit] at *; omega
    · intro h1 h2; simp [limit] at *; omega
    · intro h1 h2
      rcases hit : it s with ⟨r, s'⟩
      cases r <;> simp [limit, counted, hit] at * <;> omega

end limit

/-! ### Loading -/

section yaml
variable {σ ψ α : Type} {w : YamlWorld σ ψ α}

theorem outcome_iff {o : Py σ} {r : Py α} :
    Outcome w.load w.deserialize o r ↔ (do let fd ← o; let y ← w.load fd; w.deserialize y) = r := by
  constructor
  · intro h
    cases h with
    | unopened e => rfl
    | unparsable h => simp [bind, Except.bind, h]
    | read h => simp [bind, Except.bind, h]
  · intro h
    cases o with
    | error e => simp only [bind, Except.bind] at h; subst h; exact .unopened e
    | ok fd =>
      cases hl : w.load fd with
      | error e => simp only [bind, Except.bind, hl] at h; subst h; exact .unparsable hl
      | ok y => simp only [bind, Except.bind, hl] at h; subst h; exact .read hl

theorem tryAll_iff {k : String} {r : Py α} : ∀ {fs : List (String → Py σ)},
    w.tryAll k fs = r ↔ Finds w.load w.deserialize (fs.map fun f => f k) r
  | [] => by
    constructor
    · rintro rfl; exact .nothing
    · intro h; cases h; rfl
  | f :: fs => by
    rw [YamlWorld.tryAll, List.map_cons]
    have ih := tryAll_iff (k := k) (r := r) (fs := fs)
    constructor
    · intro h
      split at h
      · next v hv => subst h; exact .this (outcome_iff.2 hv) (by rintro (h | h) <;> cases h)
      · next hv => exact .next (outcome_iff.2 hv) (.inl rfl) (ih.1 h)
      · next hv => exact .next (outcome_iff.2 hv) (.inr rfl) (ih.1 h)
      · next e h1 h2 hv =>
        subst h
        refine .this (outcome_iff.2 hv) ?_
        rintro (h | h)
        · exact h1 (by simpa using h)
        · exact h2 (by simpa using h)
    · intro h
      cases h with
      | this ho hs =>
        rw [outcome_iff] at ho
        rw [ho]
        cases r with
        | ok v => rfl
        | error e =>
          split
          · next h => cases h
          · next h => simp only [Except.error.injEq] at h; subst h; exact absurd (.inl rfl) hs
          · next h => simp only [Except.error.injEq] at h; subst h; exact absurd (.inr rfl) hs
          · next h => exact h.symm
      | next ho hs hf =>
        rw [outcome_iff] at ho
        rw [ho]
        rcases hs with rfl | rfl
        · exact ih.2 hf
        · exact ih.2 hf

end yaml

/-! ### Names -/

theorem dropTo_word {u : UniData} {c : Char} (hc : u.word c = true) (l : Text) : dropTo u (c :: l) = c :: dropTo u l := by
  match l with
  | [] => simp [dropTo]
  | [_] => simp [dropTo]
  | [_, _] => simp [dropTo]
  | _ :: _ :: _ :: _ => rw [dropTo]; simp [hc]

theorem dropTo_words {u : UniData} {w : Text} (hw : ∀ c ∈ w, u.word c = true) (l : Text) :
    dropTo u (w ++ l) = w ++ dropTo u l := by
  induction w with
  | nil => rfl
  | cons c w ih =>
    rw [List.cons_append, dropTo_word (hw c (by simp)), ih (fun x hx => hw x (by simp [hx]))]
    rfl

theorem dropTo_short {u : UniData} {l : Text} (h : l.length < 4) : dropTo u l = l := by
  match l with
  | [] => simp [dropTo]
  | [_] => simp [dropTo]
  | [_, _] => simp [dropTo]
  | [_, _, _] => simp [dropTo]
  | _ :: _ :: _ :: _ :: _ => simp only [List.length_cons] at h; omega

theorem dropTo_to {u : UniData} (hb : u.word ' ' = false) {t : Text} (ht : IsTo t) (l : Text) :
    dropTo u (' ' :: t ++ ' ' :: l) = ' ' :: dropTo u l := by
  obtain ⟨h1, h2, h3⟩ := ht
  match t, h3 with
  | [a, b], _ =>
    simp only [List.getElem?_cons_zero, Option.some.injEq, List.getElem?_cons_succ] at h1 h2
    simp only [List.cons_append, List.nil_append]
    rw [dropTo, if_pos ⟨hb, h1, h2, hb⟩]

theorem dropTo_keep {u : UniData} (hb : u.word ' ' = false) {w : Text} (hw : ∀ c ∈ w, u.word c = true) (hne : w ≠ [])
    (hto : ¬ IsTo w) (l : Text) (hl : l = [] ∨ ∃ l', l = ' ' :: l') : dropTo u (' ' :: w ++ l) = ' ' :: dropTo u (w ++ l) := by
  have hO : ∀ c : Char, u.word c = true → c ≠ ' ' := by rintro c h rfl; rw [hb] at h; cases h
  match w, hne with
  | [a], _ =>
    rcases hl with rfl | ⟨l', rfl⟩
    · rw [dropTo_short (by simp), dropTo_short (by simp)]; rfl
    · match l' with
      | [] => rw [dropTo_short (by simp), dropTo_short (by simp)]; rfl
      | d :: l' =>
        simp only [List.cons_append, List.nil_append]
        rw [dropTo, if_neg]
        rintro ⟨_, _, h, _⟩
        rcases h with h | h <;> exact absurd h (by decide)
  | [a, b], _ =>
    rcases hl with rfl | ⟨l', rfl⟩
    · rw [dropTo_short (by simp), dropTo_short (by simp)]; rfl
    · simp only [List.cons_append, List.nil_append]
      rw [dropTo, if_neg]
      rintro ⟨_, h1, h2, _⟩
      exact hto ⟨by simpa using h1, by simpa using h2, rfl⟩
  | a :: b :: c :: w', _ =>
    simp only [List.cons_append]
    rw [dropTo, if_neg]
    rintro ⟨_, _, _, h⟩
    rw [hw c (by simp)] at h
    cases h

/-- Joined with blanks. -/
def spaced : List Text → Text
  | [] => []
  | [w] => w
  | w :: ws => w ++ ' ' :: spaced ws

theorem spaced_cons {w : Text} {ws : List Text} (h : ws ≠ []) : spaced (w :: ws) = w ++ ' ' :: spaced ws := by
  cases ws with
  | nil => exact absurd rfl h
  | cons _ _ => rfl

theorem significant_ne {ws : List Text} (h : ws ≠ []) : significant ws ≠ [] := by
  match ws with
  | [_] => simp [significant]
  | [_, _] => simp [significant]
  | _ :: _ :: _ :: _ => rw [significant]; split <;> simp

theorem dropTo_spaced {u : UniData} : ∀ (n : Nat) (ws : List Text), ws.length ≤ n → PlainWords u ws →
    dropTo u (spaced ws) = spaced (significant ws)
  | 0, [], _, _ => by simp [spaced, significant, dropTo]
  | n + 1, [], _, _ => by simp [spaced, significant, dropTo]
  | n + 1, [w], _, h => by
    have := dropTo_words (u := u) (fun c hc => (h.word w (by simp) c hc).1) []
    simpa [spaced, significant, dropTo] using this
  | n + 1, [w, t], _, h => by
    have hw := fun c hc => (h.word w (by simp) c hc).1
    have ht := fun c hc => (h.word t (by simp) c hc).1
    simp only [spaced, significant]
    rw [dropTo_words hw]
    congr 1
    have h1 := dropTo_words (u := u) ht []
    rw [dropTo_short (l := []) (by simp), List.append_nil] at h1
    by_cases hto : IsTo t
    · rw [dropTo_short]
      have := hto.2.2
      simp only [List.length_cons, this]; omega
    · have := dropTo_keep (u := u) h.blank ht (h.nonempty t (by simp)) hto [] (.inl rfl)
      simp only [List.append_nil] at this
      rw [this, h1]
  | n + 1, w :: t :: x :: rest, hn, h => by
    have hw := fun c hc => (h.word w (by simp) c hc).1
    have ht := fun c hc => (h.word t (by simp) c hc).1
    simp only [List.length_cons] at hn
    rw [spaced_cons (by simp), spaced_cons (by simp), dropTo_words hw, significant]
    by_cases hto : IsTo t
    · rw [if_pos hto]
      have ih := dropTo_spaced (u := u) n (x :: rest) (by simp only [List.length_cons]; omega)
        ⟨fun w hw => h.word w (by simp [List.mem_cons.1 hw]), fun w hw => h.nonempty w (by simp [List.mem_cons.1 hw]), h.blank⟩
      rw [spaced_cons (significant_ne (by simp)), ← ih]
      have := dropTo_to (u := u) h.blank hto (spaced (x :: rest))
      rw [List.cons_append] at this
      rw [this]
    · rw [if_neg hto]
      have ih := dropTo_spaced (u := u) n (t :: x :: rest) (by simp only [List.length_cons]; omega)
        ⟨fun w hw => h.word w (List.mem_cons_of_mem _ hw), fun w hw => h.nonempty w (List.mem_cons_of_mem _ hw), h.blank⟩
      rw [spaced_cons (significant_ne (by simp)), ← ih, spaced_cons (w := t) (ws := x :: rest) (by simp)]
      have := dropTo_keep (u := u) h.blank ht (h.nonempty t (by simp)) hto (' ' :: spaced (x :: rest)) (.inr ⟨_, rfl⟩)
      rw [List.cons_append] at this
      rw [this]

theorem nameOf_spaced {ws : List Text} {n : Text} (h : NameOf ws n) (hh : ∀ w ∈ ws, ∀ c ∈ w, c ≠ '-') :
    n.map (fun c => if c = '-' then ' ' else c) = spaced ws ∧ ws ≠ [] := by
  have hmap : ∀ w : Text, (∀ c ∈ w, c ≠ '-') → w.map (fun c => if c = '-' then ' ' else c) = w := by
    intro w hw
    conv_rhs => rw [← List.map_id w]
    exact List.map_congr_left fun c hc => by rw [if_neg (hw c hc)]; rfl
  induction h with
  | last w => exact ⟨hmap w (hh w (by simp)), by simp⟩
  | more c hc _ ih =>
    obtain ⟨h1, h2⟩ := ih (fun w hw => hh w (by simp [hw]))
    refine ⟨?_, by simp⟩
    rw [List.map_append, List.map_cons, h1, hmap _ (hh _ (by simp)), spaced_cons h2]
    rcases hc with rfl | rfl <;> rfl

theorem spaced_intercalate : ∀ (ws : List Text), spaced ws = List.intercalate [' '] ws
  | [] => rfl
  | [w] => by simp [spaced]
  | w :: x :: ws => by rw [spaced_cons (by simp), spaced_intercalate (x :: ws)]; simp [List.intercalate]

theorem mem_significant {w : Text} : ∀ {n : Nat} {ws : List Text}, ws.length ≤ n → w ∈ significant ws → w ∈ ws
  | 0, [], _, h => h
  | n + 1, [], _, h => h
  | n + 1, [_], _, h => h
  | n + 1, [_, _], _, h => h
  | n + 1, a :: t :: x :: rest, hn, h => by
    simp only [List.length_cons] at hn
    rw [significant] at h
    split at h
    · rcases List.mem_cons.1 h with h | h
      · simp [h]
      · have := mem_significant (n := n) (by simp only [List.length_cons]; omega) h
        exact List.mem_cons_of_mem _ (List.mem_cons_of_mem _ this)
    · rcases List.mem_cons.1 h with h | h
      · simp [h]
      · have := mem_significant (n := n) (by simp only [List.length_cons]; omega) h
        exact List.mem_cons_of_mem _ this

theorem mapM_firstChar {ws : List Text} (h : ∀ w ∈ ws, w ≠ []) : ws.mapM firstChar = .ok (ws.filterMap List.head?) := by
  induction ws with
  | nil => rfl
  | cons w ws ih =>
    cases w with
    | nil => exact absurd rfl (h [] (by simp))
    | cons c cs =>
      rw [List.mapM_cons, ih (fun x hx => h x (by simp [hx]))]
      rfl

theorem initials_name {u : UniData} {ws : List Text} {n : Text} (hn : NameOf ws n) (h : PlainWords u ws) :
    initials u n = .ok ((significant ws).filterMap List.head?) := by
  obtain ⟨h1, h2⟩ := nameOf_spaced hn (fun w hw c hc => (h.word w hw c hc).2)
  unfold initials
  rw [h1, dropTo_spaced ws.length ws (le_refl _) h, spaced_intercalate]
  have hO : ∀ w ∈ significant ws, ' ' ∉ w := by
    intro w hw hs
    have := (h.word w (mem_significant (le_refl _) hw) ' ' hs).1
    rw [h.blank] at this
    cases this
  rw [List.splitOn_intercalate _ hO (significant_ne h2)]
  exact mapM_firstChar (fun w hw => h.nonempty w (mem_significant (le_refl _) hw))

end Lulua
