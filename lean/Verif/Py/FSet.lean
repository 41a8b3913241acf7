import Verif.Py.Core
import Mathlib.Data.List.Sort
import Mathlib.Data.List.Perm.Basic
import Mathlib.Tactic.Linarith

/-!
# Python `frozenset` of buttons

Buttons compare and hash by their number (`keyboard.py:58-64`), so a frozenset of
buttons is represented by the strictly increasing list of these numbers: two
frozensets are `==` in python iff their lists are equal. Python iterates in hash
order instead; see C35 for the proof that this makes no difference.
-/

set_option linter.unusedSectionVars false

namespace Lulua

/-- `frozenset[Button]` as a strictly increasing list of button numbers. -/
abbrev FSet := List Nat

namespace FSet

/-- Add one element. -/
def insert (a : Nat) : FSet → FSet
  | [] => [a]
  | b :: s => if a < b then a :: b :: s else if a = b then b :: s else b :: insert a s

/-- Representation invariant. -/
def WF (s : FSet) : Prop := s.Pairwise (· < ·)

instance (s : FSet) : Decidable (WF s) := inferInstanceAs (Decidable (List.Pairwise _ _))

end FSet

/-- `frozenset(iterable)`. -/
def frozenset (l : List Nat) : FSet := l.foldr FSet.insert []

namespace FSet

theorem mem_insert {a b : Nat} {s : FSet} : b ∈ insert a s ↔ b = a ∨ b ∈ s := by
  induction s with
  | nil => simp [insert]
  | cons c s ih =>
    simp only [insert]
    split
    · simp
    · split
      · rename_i h; subst h; simp
      · simp only [List.mem_cons, ih]
        constructor
        · rintro (h | h | h) <;> simp [h]
        · rintro (h | h | h) <;> simp [h]

theorem wf_insert {a : Nat} {s : FSet} (h : WF s) : WF (insert a s) := by
  induction s with
  | nil => simp [insert, WF]
  | cons c s ih =>
    have hc := List.pairwise_cons.1 h
    simp only [insert]
    split
    · rename_i hlt
      refine List.pairwise_cons.2 ⟨?_, h⟩
      intro x hx
      rcases List.mem_cons.1 hx with rfl | hx
      · exact hlt
      · exact lt_trans hlt (hc.1 x hx)
    · split
      · exact h
      · rename_i h1 h2
        refine List.pairwise_cons.2 ⟨?_, ih hc.2⟩
        intro x hx
        rcases mem_insert.1 hx with rfl | hx
        · omega
        · exact hc.1 x hx

theorem WF.nodup {s : FSet} (h : WF s) : s.Nodup :=
  List.Pairwise.imp (fun h => Nat.ne_of_lt h) h

/-- Frozensets are equal iff they have the same members. -/
theorem ext {s t : FSet} (hs : WF s) (ht : WF t) (h : ∀ b, b ∈ s ↔ b ∈ t) : s = t := by
  have hp : s.Perm t := (List.perm_ext_iff_of_nodup hs.nodup ht.nodup).2 h
  exact hp.eq_of_pairwise (fun a b _ _ h1 h2 => absurd (lt_trans h1 h2) (lt_irrefl _)) hs ht

end FSet

theorem mem_frozenset {l : List Nat} {b : Nat} : b ∈ frozenset l ↔ b ∈ l := by
  induction l with
  | nil => simp [frozenset]
  | cons a l ih =>
    have : frozenset (a :: l) = FSet.insert a (frozenset l) := rfl
    rw [this, FSet.mem_insert, ih, List.mem_cons]

theorem wf_frozenset (l : List Nat) : FSet.WF (frozenset l) := by
  induction l with
  | nil => simp [frozenset, FSet.WF]
  | cons a l ih => exact FSet.wf_insert ih

/-- `frozenset(s) == s` for a set `s`. -/
theorem frozenset_of_wf {s : FSet} (h : FSet.WF s) : frozenset s = s :=
  FSet.ext (wf_frozenset s) h (fun _ => mem_frozenset)

theorem frozenset_congr {l l' : List Nat} (h : ∀ b, b ∈ l ↔ b ∈ l') : frozenset l = frozenset l' :=
  FSet.ext (wf_frozenset l) (wf_frozenset l') (fun b => by rw [mem_frozenset, mem_frozenset, h])

@[simp] theorem frozenset_singleton (b : Nat) : frozenset [b] = [b] := rfl

end Lulua
