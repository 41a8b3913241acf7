import Verif.Spec.Choose
import Verif.Proofs.Writer
import Mathlib.Tactic.Ring

/-!
# Lemmas on `Writer.chooseCombination`
-/

namespace Lulua
open Spec

theorem handDiff_le (dir : Button → Direction) (bs : List Button) : handDiff dir bs ≤ bs.length := by
  have h1 : bs.countP (fun b => decide (dir b = .left)) ≤ bs.length := List.countP_le_length
  have h2 : bs.countP (fun b => decide (dir b = .right)) ≤ bs.length := List.countP_le_length
  unfold handDiff
  simp only
  omega

theorem balanceLoop_eq {hf : HandFinger} {dir : Button → Direction} {bs : List Button}
    (h : Assigned hf dir bs) (acc : Int) :
    balanceLoop hf bs acc = .ok (acc + ((bs.countP fun b => dir b = .left : Nat) : Int)
      - ((bs.countP fun b => dir b = .right : Nat) : Int)) := by
  induction bs generalizing acc with
  | nil => simp [balanceLoop]
  | cons b bs ih =>
    obtain ⟨f, hb⟩ := h b (by simp)
    rw [balanceLoop, hb]
    simp only [bind, Except.bind]
    rw [ih (fun x hx => h x (by simp [hx]))]
    cases hd : dir b <;> simp [hd, dirToScore] <;> ring

theorem balanceLoop_natAbs {hf : HandFinger} {dir : Button → Direction} {bs : List Button}
    (h : Assigned hf dir bs) : ∃ r, balanceLoop hf bs 0 = .ok r ∧ r.natAbs = handDiff dir bs := by
  refine ⟨_, balanceLoop_eq h 0, ?_⟩
  unfold handDiff
  simp only
  omega

/-- The packed score. -/
def pack (r : Nat × Nat × Nat) : Nat := (r.1 <<< 16) ||| (r.2.1 <<< 8) ||| (r.2.2 <<< 0)

theorem pack_eq {r : Nat × Nat × Nat} (h1 : r.2.1 < 256) (h2 : r.2.2 < 256) :
    pack r = r.1 * 65536 + r.2.1 * 256 + r.2.2 := by
  obtain ⟨a, b, c⟩ := r
  simp only at h1 h2
  unfold pack
  simp only [Nat.shiftLeft_zero]
  have e1 : a <<< 16 ||| b <<< 8 = (a <<< 8 ||| b) <<< 8 := by
    rw [Nat.shiftLeft_or_distrib, ← Nat.shiftLeft_add]
  rw [e1, ← Nat.shiftLeft_add_eq_or_of_lt (by omega : b < 2 ^ 8),
    ← Nat.shiftLeft_add_eq_or_of_lt (by omega : c < 2 ^ 8)]
  simp only [Nat.shiftLeft_eq]
  omega

theorem pack_lt_iff {r s : Nat × Nat × Nat} (h1 : r.2.1 < 256) (h2 : r.2.2 < 256)
    (h3 : s.2.1 < 256) (h4 : s.2.2 < 256) : pack r < pack s ↔ Better r s := by
  rw [pack_eq h1 h2, pack_eq h3 h4]
  unfold Better
  omega

theorem prevButtons_eq (p : Comb) :
    (if p.modifier.isEmpty then p.buttons else p.modifier) = prevButtons p := by
  unfold prevButtons
  cases p.modifier <;> simp

theorem assigned_append {hf : HandFinger} {dir : Button → Direction} {as bs : List Button} :
    Assigned hf dir (as ++ bs) ↔ Assigned hf dir as ∧ Assigned hf dir bs := by
  unfold Assigned
  simp only [List.mem_append]
  constructor
  · intro h; exact ⟨fun b hb => h b (Or.inl hb), fun b hb => h b (Or.inr hb)⟩
  · rintro ⟨h1, h2⟩ b (hb | hb)
    · exact h1 b hb
    · exact h2 b hb

theorem calcEffort_eq {hf : HandFinger} {dir : Button → Direction} {prev : Option Comb} {c : Comb}
    (h : AllAssigned hf dir prev c) : calcEffort hf prev c = .ok (pack (rank dir prev c)) := by
  obtain ⟨r2, hr2, e2⟩ := balanceLoop_natAbs h.1
  have hi : c.iter = c.modifier ++ c.buttons := rfl
  unfold calcEffort prevBalance
  cases prev with
  | none =>
    simp only [bind, Except.bind, hi, hr2, e2]
    rfl
  | some p =>
    have h1 : Assigned hf dir (prevButtons p ++ c.buttons) :=
      assigned_append.2 ⟨h.2 p rfl, (assigned_append.1 h.1).2⟩
    obtain ⟨r1, hr1, e1⟩ := balanceLoop_natAbs h1
    simp only [prevButtons_eq, bind, Except.bind, hi, hr1, hr2, e1, e2]
    rfl

theorem minLoop_spec {hf : HandFinger} {prev : Option Comb} (score : Comb → Nat) {cs : List Comb}
    (h : ∀ d ∈ cs, calcEffort hf prev d = .ok (score d)) (b : Comb) :
    ∃ c, minLoop hf prev cs (score b) b = .ok c ∧
      ((c = b ∧ ∀ d ∈ cs, score b ≤ score d) ∨
       ∃ pre post, cs = pre ++ c :: post ∧ score c < score b ∧ (∀ d ∈ pre, score c < score d) ∧
         ∀ d ∈ post, score c ≤ score d) := by
  induction cs generalizing b with
  | nil => exact ⟨b, rfl, Or.inl ⟨rfl, by simp⟩⟩
  | cons d cs ih =>
    have hd := h d (by simp)
    have hcs : ∀ d ∈ cs, calcEffort hf prev d = .ok (score d) := fun x hx => h x (by simp [hx])
    rw [minLoop, hd]
    simp only [bind, Except.bind]
    split
    · rename_i hlt
      obtain ⟨c, hc, h'⟩ := ih hcs d
      refine ⟨c, hc, Or.inr ?_⟩
      rcases h' with ⟨rfl, h'⟩ | ⟨pre, post, rfl, h1, h2, h3⟩
      · exact ⟨[], cs, rfl, hlt, by simp, h'⟩
      · refine ⟨d :: pre, post, rfl, by omega, ?_, h3⟩
        intro x hx
        rcases List.mem_cons.1 hx with rfl | hx
        · exact h1
        · exact h2 x hx
    · rename_i hge
      obtain ⟨c, hc, h'⟩ := ih hcs b
      refine ⟨c, hc, ?_⟩
      rcases h' with ⟨rfl, h'⟩ | ⟨pre, post, rfl, h1, h2, h3⟩
      · left
        refine ⟨rfl, ?_⟩
        intro x hx
        rcases List.mem_cons.1 hx with rfl | hx
        · omega
        · exact h' x hx
      · right
        refine ⟨d :: pre, post, rfl, h1, ?_, h3⟩
        intro x hx
        rcases List.mem_cons.1 hx with rfl | hx
        · omega
        · exact h2 x hx

theorem choose_score {hf : HandFinger} {prev : Option Comb} (score : Comb → Nat) {cs : List Comb}
    (hne : cs ≠ []) (h : ∀ d ∈ cs, calcEffort hf prev d = .ok (score d)) :
    ∃ pre c post, cs = pre ++ c :: post ∧ chooseCombination hf prev cs = .ok c ∧
      (∀ d ∈ pre, score c < score d) ∧ ∀ d ∈ post, score c ≤ score d := by
  match cs, hne, h with
  | [d], _, _ => exact ⟨[], d, [], rfl, rfl, by simp, by simp⟩
  | d :: d' :: cs, _, h =>
    have hd := h d (by simp)
    have hcs : ∀ x ∈ d' :: cs, calcEffort hf prev x = .ok (score x) := fun x hx => h x (by simp at hx ⊢; tauto)
    obtain ⟨c, hc, h'⟩ := minLoop_spec score hcs d
    have hch : chooseCombination hf prev (d :: d' :: cs) = .ok c := by
      simp only [chooseCombination, hd, bind, Except.bind]
      exact hc
    rcases h' with ⟨rfl, h'⟩ | ⟨pre, post, he, h1, h2, h3⟩
    · exact ⟨[], c, d' :: cs, rfl, hch, by simp, h'⟩
    · refine ⟨d :: pre, c, post, by rw [he]; rfl, hch, ?_, h3⟩
      intro x hx
      rcases List.mem_cons.1 hx with rfl | hx
      · exact h1
      · exact h2 x hx

theorem rank_small {dir : Button → Direction} {prev : Option Comb} {c : Comb} (h : Small prev c) :
    (rank dir prev c).2.1 < 256 ∧ (rank dir prev c).2.2 < 256 := by
  have h1 := handDiff_le dir (c.modifier ++ c.buttons)
  rw [List.length_append] at h1
  refine ⟨lt_of_le_of_lt h1 h.1, ?_⟩
  cases prev with
  | none => simp [rank]
  | some p =>
    have h2 := handDiff_le dir (prevButtons p ++ c.buttons)
    rw [List.length_append] at h2
    exact lt_of_le_of_lt h2 h.2

theorem choose_best {hf : HandFinger} {dir : Button → Direction} {prev : Option Comb}
    {cs : List Comb} (hne : cs ≠ []) (ha : ∀ c ∈ cs, AllAssigned hf dir prev c)
    (hs : ∀ c ∈ cs, Small prev c) :
    ∃ pre c post, cs = pre ++ c :: post ∧ chooseCombination hf prev cs = .ok c ∧
      (∀ d ∈ pre, Better (rank dir prev c) (rank dir prev d)) ∧
      ∀ d ∈ post, ¬ Better (rank dir prev d) (rank dir prev c) := by
  obtain ⟨pre, c, post, rfl, hc, h1, h2⟩ :=
    choose_score (fun d => pack (rank dir prev d)) hne (fun d hd => calcEffort_eq (ha d hd))
  have hcs := rank_small (dir := dir) (hs c (by simp))
  refine ⟨pre, c, post, rfl, hc, ?_, ?_⟩
  · intro d hd
    have hds := rank_small (dir := dir) (hs d (by simp [hd]))
    exact (pack_lt_iff hcs.1 hcs.2 hds.1 hds.2).1 (h1 d hd)
  · intro d hd hb
    have hds := rank_small (dir := dir) (hs d (by simp [hd]))
    exact absurd ((pack_lt_iff hds.1 hds.2 hcs.1 hcs.2).2 hb) (by have := h2 d hd; omega)

/-- The chosen combination is never worse than another one. -/
theorem choose_not_worse {hf : HandFinger} {dir : Button → Direction} {prev : Option Comb}
    {cs : List Comb} {c : Comb} (hch : chooseCombination hf prev cs = .ok c)
    (ha : ∀ c ∈ cs, AllAssigned hf dir prev c) (hs : ∀ c ∈ cs, Small prev c) :
    ∀ d ∈ cs, ¬ Better (rank dir prev d) (rank dir prev c) := by
  have hne : cs ≠ [] := List.ne_nil_of_mem (choose_mem hch)
  obtain ⟨pre, c', post, rfl, hc, h1, h2⟩ := choose_best hne ha hs
  rw [hch] at hc
  simp only [Except.ok.injEq] at hc
  subst hc
  intro d hd
  rcases List.mem_append.1 hd with hd | hd
  · have := h1 d hd
    unfold Better at *
    omega
  · rcases List.mem_cons.1 hd with rfl | hd
    · unfold Better; omega
    · exact h2 d hd

end Lulua
