import Mathlib.Tactic.Linarith
import Mathlib.Tactic.Ring
import Mathlib.Tactic.FieldSimp
import Verif.Spec.Plot
import Verif.Proofs.Carpalx
import Verif.Py.DictLemmas

/-!
# Lemmas about the data behind plots
-/

namespace Lulua
open Spec

/-! ### Sorting -/

theorem filter_orderedInsert {α : Type} {r : α → α → Prop} [DecidableRel r] {p : α → Bool} {a : α}
    (h : ∀ b, p a = true → p b = true → r a b) : ∀ l : List α,
    (l.orderedInsert r a).filter p = (a :: l).filter p
  | [] => rfl
  | b :: l => by
    rw [List.orderedInsert_cons]
    split
    · rfl
    · next hr =>
      have ih := filter_orderedInsert (p := p) (a := a) h l
      simp only [List.filter_cons] at ih ⊢
      rw [ih]
      by_cases ha : p a = true
      · by_cases hb : p b = true
        · exact absurd (h b ha hb) hr
        · simp [hb]
      · simp [ha]

theorem filter_insertionSort {α : Type} {r : α → α → Prop} [DecidableRel r] {p : α → Bool}
    (h : ∀ a b, p a = true → p b = true → r a b) : ∀ l : List α, (l.insertionSort r).filter p = l.filter p
  | [] => rfl
  | a :: l => by
    rw [List.insertionSort_cons, filter_orderedInsert (fun b => h a b), List.filter_cons, List.filter_cons,
      filter_insertionSort h l]

theorem pySorted_spec {α : Type} (key : α → Rat) (reverse : Bool) (l : List α) :
    SortedBy key reverse l (pySorted key reverse l) := by
  unfold pySorted
  cases reverse with
  | true =>
    simp only [if_true]
    have t1 : Std.Total fun a b : α => key b ≤ key a := ⟨fun a b => le_total _ _⟩
    have t2 : IsTrans α fun a b : α => key b ≤ key a := ⟨fun a b c h1 h2 => le_trans h2 h1⟩
    refine ⟨List.perm_insertionSort _ l, ?_, fun k => filter_insertionSort (fun a b ha hb => ?_) l⟩
    · simpa using List.pairwise_insertionSort (fun a b : α => key b ≤ key a) l
    · simp only [decide_eq_true_eq] at ha hb
      rw [ha, hb]
  | false =>
    simp only [Bool.false_eq_true, if_false]
    have t1 : Std.Total fun a b : α => key a ≤ key b := ⟨fun a b => le_total _ _⟩
    have t2 : IsTrans α fun a b : α => key a ≤ key b := ⟨fun a b c h1 h2 => le_trans h1 h2⟩
    refine ⟨List.perm_insertionSort _ l, ?_, fun k => filter_insertionSort (fun a b ha hb => ?_) l⟩
    · simpa using List.pairwise_insertionSort (fun a b : α => key a ≤ key b) l
    · simp only [decide_eq_true_eq] at ha hb
      rw [ha, hb]

/-! ### Bins -/

theorem sum_set {κ ν : Type} [DecidableEq κ] (f : ν → Rat) (k : κ) (v : ν) : ∀ (d : Dict κ ν), d.WF →
    ((d.set k v).map fun p => f p.2).sum = (d.map fun p => f p.2).sum - ((d.get? k).map f).getD 0 + f v
  | [], _ => by simp [Dict.set, Dict.get?]
  | (k', v') :: d, wf => by
    rw [Dict.wf_cons] at wf
    by_cases h : k' = k
    · simp only [Dict.set, Dict.get?, if_pos h, List.map_cons, List.sum_cons, Option.map_some, Option.getD_some]; ring
    · have ih := sum_set f k v d wf.2
      simp only [Dict.set, Dict.get?, if_neg h, List.map_cons, List.sum_cons, ih]; ring

/-- What is known after the triads `ts`. -/
structure BinnedAs (L : KeyboardLayout) (env : CarpalxEnv) (ts : List (Triad × Nat)) (b : Dict TextTriad TriadBin) (W : Nat) :
    Prop where
  wf : b.WF
  total : W = weightOf ts
  known : ∀ t ∈ ts, (∃ tt, L.triadText t.1 = .ok tt) ∧ ∃ v, env.triadEffort t.1 = .ok v
  key : ∀ tt, (∃ d, b.get? tt = some d) ↔ producing L ts tt ≠ []
  weight : ∀ tt d, b.get? tt = some d → d.weight = weightOf (producing L ts tt)
  effort : ∀ tt d, b.get? tt = some d → d.effort.env = env ∧ d.effort.N = d.weight ∧
    d.effort.absEffort = effortSum (effortOf env) (producing L ts tt)
  sumWeight : (b.map fun p => (p.2.weight : Rat)).sum = weightOf ts
  sumEffort : (b.map fun p => p.2.effort.absEffort).sum = effortSum (effortOf env) ts

theorem producing_snoc (L : KeyboardLayout) (ts : List (Triad × Nat)) (t : Triad × Nat) (tt : TextTriad) :
    producing L (ts ++ [t]) tt = producing L ts tt ++ if L.triadText t.1 = .ok tt then [t] else [] := by
  unfold producing
  rw [List.filter_append]
  congr 1
  by_cases h : L.triadText t.1 = .ok tt <;> simp [h]

theorem weightOf_snoc (ts : List (Triad × Nat)) (t : Triad × Nat) : weightOf (ts ++ [t]) = weightOf ts + t.2 := by
  simp [weightOf]

theorem effortSum_snoc (e : Triad → Rat) (ts : List (Triad × Nat)) (t : Triad × Nat) :
    effortSum e (ts ++ [t]) = effortSum e ts + t.2 * e t.1 := by
  simp [effortSum]

theorem binTriad_binned {L : KeyboardLayout} {env : CarpalxEnv} {ts : List (Triad × Nat)} {b b' : Dict TextTriad TriadBin}
    {W W' : Nat} (hb : BinnedAs L env ts b W) {t : Triad × Nat} (h : binTriad L env (b, W) t = .ok (b', W')) :
    BinnedAs L env (ts ++ [t]) b' W' := by
  simp only [binTriad, bind_ok_iff, Except.ok.injEq, Prod.mk.injEq, Rater.add] at h
  obtain ⟨tt, h1, eff, ⟨v, h2, rfl⟩, lay, _, rfl, rfl⟩ := h
  set old := (b.get? tt).getD ⟨0, ⟨env, 0, 0⟩, (0, 0, 0)⟩ with hold
  -- the old bin
  have hOld : old.weight = weightOf (producing L ts tt) ∧ old.effort.env = env ∧ old.effort.N = old.weight ∧
      old.effort.absEffort = effortSum (effortOf env) (producing L ts tt) := by
    cases hg : b.get? tt with
    | some d =>
      have : old = d := by rw [hold, hg]; rfl
      rw [this]
      exact ⟨hb.weight tt d hg, hb.effort tt d hg⟩
    | none =>
      have hemp : producing L ts tt = [] := by
        by_contra hne
        obtain ⟨d, hd⟩ := (hb.key tt).2 hne
        rw [hg] at hd; cases hd
      have : old = ⟨0, ⟨env, 0, 0⟩, (0, 0, 0)⟩ := by rw [hold, hg]; rfl
      rw [this, hemp]
      simp [weightOf, effortSum]
  obtain ⟨o1, o2, o3, o4⟩ := hOld
  have hv : env.triadEffort t.1 = .ok v := by rw [← o2]; exact h2
  have hve := effortOf_ok hv
  generalize hnew : (⟨old.weight + t.2, ⟨old.effort.env, old.effort.absEffort + t.2 * v, old.effort.N + t.2⟩, lay⟩ :
    TriadBin) = new
  have n1 : new.weight = old.weight + t.2 := by rw [← hnew]
  have n2 : new.effort.env = env := by rw [← hnew]; exact o2
  have n3 : new.effort.N = old.effort.N + t.2 := by rw [← hnew]
  have n4 : new.effort.absEffort = old.effort.absEffort + t.2 * v := by rw [← hnew]
  have hget : ∀ tt' d, (b.set tt new).get? tt' = some d ↔ (tt = tt' ∧ d = new) ∨ (tt ≠ tt' ∧ b.get? tt' = some d) := by
    intro tt' d
    rw [Dict.get?_set]
    by_cases hk : tt = tt'
    · simp [hk, eq_comm]
    · simp [hk]
  refine ⟨Dict.wf_set hb.wf _ _, ?_, ?_, ?_, ?_, ?_, ?_, ?_⟩
  · rw [weightOf_snoc, hb.total]
  · intro x hx
    rw [List.mem_append, List.mem_singleton] at hx
    rcases hx with hx | rfl
    · exact hb.known x hx
    · exact ⟨⟨tt, h1⟩, v, hv⟩
  · intro tt'
    simp only [hget]
    rw [producing_snoc]
    by_cases hk : tt = tt'
    · subst hk
      simp only [h1, if_true, true_and, ne_eq, not_true_eq_false, false_and, or_false, exists_eq, List.append_eq_nil_iff,
        List.cons_ne_nil, and_false, not_false_eq_true]
    · rw [if_neg (by rw [h1]; simpa using hk), List.append_nil]
      simp only [hk, false_and, false_or, ne_eq, not_false_eq_true, true_and]
      exact hb.key tt'
  · intro tt' d hd
    rw [hget] at hd
    rcases hd with ⟨rfl, rfl⟩ | ⟨hk, hd⟩
    · rw [n1, producing_snoc, if_pos h1, weightOf_snoc, o1]
    · rw [producing_snoc, if_neg (by rw [h1]; simpa using hk), List.append_nil]
      exact hb.weight tt' d hd
  · intro tt' d hd
    rw [hget] at hd
    rcases hd with ⟨rfl, rfl⟩ | ⟨hk, hd⟩
    · refine ⟨n2, ?_, ?_⟩
      · rw [n3, n1, o3]; push_cast; ring
      · rw [n4, producing_snoc, if_pos h1, effortSum_snoc, o4, hve]
    · rw [producing_snoc, if_neg (by rw [h1]; simpa using hk), List.append_nil]
      exact hb.effort tt' d hd
  · rw [sum_set (fun d : TriadBin => (d.weight : Rat)) _ _ b hb.wf, hb.sumWeight, weightOf_snoc]
    have : ((b.get? tt).map fun d : TriadBin => (d.weight : Rat)).getD 0 = old.weight := by
      rw [hold]; cases b.get? tt <;> simp
    rw [this, n1]; push_cast; ring
  · rw [sum_set (fun d : TriadBin => d.effort.absEffort) _ _ b hb.wf, hb.sumEffort, effortSum_snoc, hve]
    have : ((b.get? tt).map fun d : TriadBin => d.effort.absEffort).getD 0 = old.effort.absEffort := by
      rw [hold]; cases b.get? tt <;> simp
    rw [this, n4]; ring

theorem foldlM_cons_ok {α β : Type} {f : β → α → Py β} {a : α} {l : List α} {b c : β} :
    (a :: l).foldlM f b = .ok c ↔ ∃ b', f b a = .ok b' ∧ l.foldlM f b' = .ok c := by
  rw [List.foldlM_cons, bind_ok_iff]

theorem binTriads_binned {L : KeyboardLayout} {env : CarpalxEnv} {ts : Dict Triad Nat} {b : Dict TextTriad TriadBin} {W : Nat}
    (h : binTriads L env ts = .ok (b, W)) : BinnedAs L env ts b W := by
  have key : ∀ (ts pre : List (Triad × Nat)) (b b' : Dict TextTriad TriadBin) (W W' : Nat), BinnedAs L env pre b W →
      ts.foldlM (binTriad L env) (b, W) = .ok (b', W') → BinnedAs L env (pre ++ ts) b' W' := by
    intro ts
    induction ts with
    | nil =>
      intro pre b b' W W' hb h
      simp only [List.foldlM_nil, pure, Except.pure, Except.ok.injEq, Prod.mk.injEq] at h
      obtain ⟨rfl, rfl⟩ := h
      simpa using hb
    | cons t ts ih =>
      intro pre b b' W W' hb h
      obtain ⟨⟨b1, W1⟩, h1, h2⟩ := foldlM_cons_ok.1 h
      have := ih (pre ++ [t]) b1 b' W1 W' (binTriad_binned hb h1) h2
      simpa using this
  have h0 : BinnedAs L env [] [] 0 := by
    refine ⟨Dict.wf_nil, rfl, by simp, ?_, ?_, ?_, ?_, ?_⟩
    · intro tt; simp [producing, Dict.get?]
    · intro tt d h; simp [Dict.get?] at h
    · intro tt d h; simp [Dict.get?] at h
    · simp [weightOf]
    · simp [effortSum]
  simpa using key ts [] [] b 0 W h0 h

/-- It works exactly if all triads can be read and rated. -/
theorem binTriads_exists {L : KeyboardLayout} {env : CarpalxEnv} {ts : Dict Triad Nat}
    (h : ∀ t ∈ ts, (∃ tt, L.triadText t.1 = .ok tt) ∧ ∃ v, env.triadEffort t.1 = .ok v) :
    ∃ b W, binTriads L env ts = .ok (b, W) := by
  have hlay : ∀ t tt, L.triadText t = .ok tt → ∃ l, L.triadLayers t = .ok l := by
    intro t tt ht
    simp only [KeyboardLayout.triadText, KeyboardLayout.getText, bind_ok_iff] at ht
    obtain ⟨a, ⟨la, h1, _⟩, b, ⟨lb, h2, _⟩, c, ⟨lc, h3, _⟩, _⟩ := ht
    exact ⟨(la.1, lb.1, lc.1), by simp [KeyboardLayout.triadLayers, h1, h2, h3, bind, Except.bind]⟩
  have key : ∀ (ts pre : List (Triad × Nat)) (b : Dict TextTriad TriadBin) (W : Nat), BinnedAs L env pre b W →
      (∀ t ∈ ts, (∃ tt, L.triadText t.1 = .ok tt) ∧ ∃ v, env.triadEffort t.1 = .ok v) →
      ∃ x, ts.foldlM (binTriad L env) (b, W) = .ok x := by
    intro ts
    induction ts with
    | nil => intro pre b W _ _; exact ⟨_, rfl⟩
    | cons t ts ih =>
      intro pre b W hb h
      obtain ⟨⟨tt, h1⟩, v, h2⟩ := h t (by simp)
      obtain ⟨lay, h3⟩ := hlay t.1 tt h1
      have hstep : ∃ x, binTriad L env (b, W) t = .ok x := by
        have he : (((b.get? tt).getD ⟨0, ⟨env, 0, 0⟩, (0, 0, 0)⟩ : TriadBin).effort).env = env := by
          cases hg : b.get? tt with
          | none => rfl
          | some d => exact (hb.effort tt d hg).1
        simp only [binTriad, h1, h3, Rater.add, he, h2, bind, Except.bind]
        exact ⟨_, rfl⟩
      obtain ⟨⟨b1, W1⟩, h4⟩ := hstep
      obtain ⟨x, hx⟩ := ih (pre ++ [t]) b1 W1 (binTriad_binned hb h4) (fun y hy => h y (by simp [hy]))
      exact ⟨x, foldlM_cons_ok.2 ⟨_, h4, hx⟩⟩
  have h0 : BinnedAs L env [] [] 0 := by
    refine ⟨Dict.wf_nil, rfl, by simp, ?_, ?_, ?_, ?_, ?_⟩
    · intro tt; simp [producing, Dict.get?]
    · intro tt d h; simp [Dict.get?] at h
    · intro tt d h; simp [Dict.get?] at h
    · simp [weightOf]
    · simp [effortSum]
  obtain ⟨⟨b, W⟩, hx⟩ := key ts [] [] 0 h0 h
  exact ⟨b, W, hx⟩

/-- Effort of a bin. -/
theorem bin_effort {L : KeyboardLayout} {env : CarpalxEnv} {ts : Dict Triad Nat} {b : Dict TextTriad TriadBin} {W : Nat}
    (h : BinnedAs L env ts b W) {tt : TextTriad} {d : TriadBin} (hd : b.get? tt = some d) :
    d.effort.effort * d.weight = effortSum (effortOf env) (producing L ts tt) := by
  obtain ⟨_, h2, h3⟩ := h.effort tt d hd
  unfold Rater.effort
  rw [h2, ← h3]
  by_cases hw : (d.weight : Rat) = 0
  · rw [if_pos hw, zero_mul]
    have hw' : weightOf (producing L ts tt) = 0 := by
      rw [← h.weight tt d hd]; exact_mod_cast hw
    rw [h3]
    unfold effortSum
    symm
    apply List.sum_eq_zero
    intro x hx
    obtain ⟨t, ht, rfl⟩ := List.mem_map.1 hx
    have : t.2 = 0 := by
      unfold weightOf at hw'
      exact (List.sum_eq_zero_iff.1 hw') t.2 (List.mem_map.2 ⟨t, ht, rfl⟩)
    rw [this]; simp
  · rw [if_neg hw, div_mul_cancel₀ _ hw]

/-! ### Selection -/

theorem selectTop_spec (bound : Rat) : ∀ (l acc : List (TextTriad × TriadBin)) (w : Nat),
    ∃ k ≤ l.length,
      l.foldl (fun (x : List (TextTriad × TriadBin) × Nat) d =>
        if (x.2 : Rat) < bound then (x.1 ++ [d], x.2 + d.2.weight) else x) (acc, w) =
        (acc ++ l.take k, w + ((l.take k).map fun d => d.2.weight).sum) ∧
      (∀ j < k, ((w + ((l.take j).map fun d => d.2.weight).sum : Nat) : Rat) < bound) ∧
      (k = l.length ∨ bound ≤ ((w + ((l.take k).map fun d => d.2.weight).sum : Nat) : Rat))
  | [], acc, w => ⟨0, le_refl _, by simp, by simp, .inl rfl⟩
  | d :: l, acc, w => by
    by_cases hw : (w : Rat) < bound
    · obtain ⟨k, h1, h2, h3, h4⟩ := selectTop_spec bound l (acc ++ [d]) (w + d.2.weight)
      refine ⟨k + 1, by simpa using h1, ?_, ?_, ?_⟩
      · rw [List.foldl_cons]
        simp only [hw, if_true]
        rw [h2]
        simp only [List.take_succ_cons, List.map_cons, List.sum_cons, List.append_assoc, List.cons_append, List.nil_append,
          Nat.add_assoc]
      · intro j hj
        cases j with
        | zero => simpa using hw
        | succ j =>
          have := h3 j (by omega)
          simp only [List.take_succ_cons, List.map_cons, List.sum_cons, ← Nat.add_assoc]
          exact this
      · rcases h4 with h4 | h4
        · left; simpa using h4
        · right
          simp only [List.take_succ_cons, List.map_cons, List.sum_cons, ← Nat.add_assoc]
          exact h4
    · have hstay : ∀ l : List (TextTriad × TriadBin), l.foldl (fun (x : List (TextTriad × TriadBin) × Nat) d =>
          if (x.2 : Rat) < bound then (x.1 ++ [d], x.2 + d.2.weight) else x) (acc, w) = (acc, w) := by
        intro l
        induction l with
        | nil => rfl
        | cons d l ih => rw [List.foldl_cons]; simp only [hw, if_false]; exact ih
      exact ⟨0, Nat.zero_le _, by rw [hstay]; simp, by simp, .inr (by simpa using hw)⟩

/-! ### Effort curve -/

/-- Weight of the first `k` bins. -/
def weightUpTo (l : List (TextTriad × TriadBin)) (k : Nat) : Nat := ((l.take k).map fun d => d.2.weight).sum
/-- Effort of the first `k` bins. -/
def effortUpTo (l : List (TextTriad × TriadBin)) (k : Nat) : Rat :=
  ((l.take k).map fun d => d.2.effort.effort * (d.2.weight : Rat)).sum

theorem weightUpTo_succ {l : List (TextTriad × TriadBin)} {k : Nat} (hk : k < l.length) :
    weightUpTo l (k + 1) = weightUpTo l k + l[k].2.weight := by
  unfold weightUpTo; rw [List.take_succ_eq_append_getElem hk, List.map_append, List.sum_append]; rfl

theorem effortUpTo_succ {l : List (TextTriad × TriadBin)} {k : Nat} (hk : k < l.length) :
    effortUpTo l (k + 1) = effortUpTo l k + l[k].2.effort.effort * l[k].2.weight := by
  unfold effortUpTo; rw [List.take_succ_eq_append_getElem hk, List.map_append, List.sum_append]; simp

/-- The points are those of some of the bins: the first one, and in between only bins at least `binWidth` further. -/
theorem effortCurve_spec (binWidth : Nat) (l : List (TextTriad × TriadBin)) : ∀ k ≤ l.length,
    ∃ ks : List Nat, (∀ i ∈ ks, 1 ≤ i ∧ i ≤ k) ∧ ks.Pairwise (fun i j => i < j ∧ weightUpTo l i + binWidth ≤ weightUpTo l j) ∧
      (0 < k → ks.head? = some 1) ∧
      (l.take k).foldl (effortStep binWidth) ⟨0, 0, [], []⟩ =
        ⟨weightUpTo l k, effortUpTo l k, ks.map (weightUpTo l), ks.map (effortUpTo l)⟩
  | 0, _ => ⟨[], by simp, List.Pairwise.nil, by simp, by simp [weightUpTo, effortUpTo]⟩
  | k + 1, hk => by
    obtain ⟨ks, h1, h2, h3, h4⟩ := effortCurve_spec binWidth l k (by omega)
    have hlt : k < l.length := by omega
    rw [List.take_succ_eq_append_getElem hlt, List.foldl_append, h4, List.foldl_cons, List.foldl_nil]
    unfold effortStep
    simp only
    rw [← weightUpTo_succ hlt, ← effortUpTo_succ hlt]
    have hmono : ∀ i j, i ≤ j → weightUpTo l i ≤ weightUpTo l j := by
      intro i j hij
      unfold weightUpTo
      obtain ⟨t, ht⟩ : ∃ t, l.take j = l.take i ++ t := by
        obtain ⟨m, rfl⟩ : ∃ m, j = i + m := ⟨j - i, by omega⟩
        exact ⟨_, List.take_add⟩
      rw [ht]; simp
    split
    · next hc =>
      refine ⟨ks ++ [k + 1], ?_, ?_, ?_, by simp⟩
      · intro i hi
        rw [List.mem_append, List.mem_singleton] at hi
        rcases hi with hi | rfl
        · have := h1 i hi; omega
        · omega
      · rw [List.pairwise_append]
        refine ⟨h2, List.pairwise_singleton _ _, ?_⟩
        intro i hi j hj
        rw [List.mem_singleton] at hj
        subst hj
        refine ⟨by have := h1 i hi; omega, ?_⟩
        -- the last point is the heaviest one so far
        cases hl : ks.getLast? with
        | none => rw [List.getLast?_eq_none_iff] at hl; subst hl; simp at hi
        | some m =>
          rw [List.getLast?_map, hl] at hc
          simp only [Option.map_some, Option.all_some, decide_eq_true_eq] at hc
          have him : i ≤ m := by
            obtain ⟨ys, rfl⟩ := List.getLast?_eq_some_iff.1 hl
            rw [List.mem_append, List.mem_singleton] at hi
            rcases hi with hi | rfl
            · exact ((List.pairwise_append.1 h2).2.2 i hi m (by simp)).1.le
            · exact le_refl _
          exact le_trans (Nat.add_le_add_right (hmono i m him) binWidth) hc
      · intro _
        rcases Nat.eq_zero_or_pos k with rfl | hk0
        · have : ks = [] := by
            cases ks with
            | nil => rfl
            | cons a _ => have := h1 a (by simp); omega
          rw [this]; rfl
        · have := h3 hk0
          rw [List.head?_append, this]; rfl
    · next hc =>
      have hk0 : 0 < k := by
        rcases Nat.eq_zero_or_pos k with rfl | hk0
        · exfalso
          have : ks = [] := by
            cases ks with
            | nil => rfl
            | cons a _ => have := h1 a (by simp); omega
          subst this
          simp at hc
        · exact hk0
      exact ⟨ks, fun i hi => by have := h1 i hi; omega, h2, fun _ => h3 hk0, rfl⟩

/-! ### Letters -/

theorem combsFor_snoc (L : KeyboardLayout) (cs : List (Comb × Nat)) (c : Comb × Nat) (v : LVal) :
    combsFor L (cs ++ [c]) v = combsFor L cs v ++ if L.getText c.1 = .ok v then [c] else [] := by
  unfold combsFor
  rw [List.filter_append]
  congr 1
  by_cases h : L.getText c.1 = .ok v <;> simp [h]

/-- What is known after the combinations `cs`. -/
structure LettersAs (L : KeyboardLayout) (lo : Char → Bool) (cs : List (Comb × Nat)) (b : Dict LVal Nat) : Prop where
  wf : b.WF
  key : ∀ v, (∃ n, b.get? v = some n) ↔ IsLetter lo v ∧ combsFor L cs v ≠ []
  count : ∀ v n, b.get? v = some n → n = ((combsFor L cs v).map Prod.snd).sum

theorem firstChar_letter {lo : Char → Bool} {v : LVal} {ch : Char} (h : v.firstChar = .ok ch) :
    IsLetter lo v ↔ lo ch = true := by
  cases v with
  | other _ => cases h
  | str t =>
    cases t with
    | nil => cases h
    | cons c t =>
      simp only [LVal.firstChar, firstChar, Except.ok.injEq] at h
      subst h
      constructor
      · rintro ⟨c', t', h1, h2⟩
        simp only [LVal.str.injEq, List.cons.injEq] at h1
        rw [h1.1]; exact h2
      · intro h; exact ⟨c, t, rfl, h⟩

theorem binLetter_letters {L : KeyboardLayout} {lo : Char → Bool} {cs : List (Comb × Nat)} {b b' : Dict LVal Nat}
    (hb : LettersAs L lo cs b) {c : Comb × Nat} (h : binLetter L lo b c = .ok b') : LettersAs L lo (cs ++ [c]) b' := by
  simp only [binLetter, bind_ok_iff, Except.ok.injEq] at h
  obtain ⟨v, h1, ch, h2, rfl⟩ := h
  have hlet := firstChar_letter (lo := lo) h2
  by_cases hl : lo ch = true
  · simp only [hl, if_true]
    have hcount : b.count v = ((combsFor L cs v).map Prod.snd).sum := by
      unfold Dict.count
      cases hg : b.get? v with
      | some n => rw [hb.count v n hg]; simp
      | none =>
        have : combsFor L cs v = [] := by
          by_contra hne
          obtain ⟨n, hn⟩ := (hb.key v).2 ⟨hlet.2 hl, hne⟩
          rw [hg] at hn; cases hn
        rw [this]; rfl
    refine ⟨Dict.wf_bump hb.wf _ _, fun w => ?_, fun w n hn => ?_⟩
    · unfold Dict.bump
      rw [Dict.get?_set, combsFor_snoc]
      by_cases hw : v = w
      · subst hw
        simp [h1, hlet.2 hl]
      · rw [if_neg hw, if_neg (by rw [h1]; simpa using hw), List.append_nil]
        exact hb.key w
    · unfold Dict.bump at hn
      rw [Dict.get?_set] at hn
      rw [combsFor_snoc]
      by_cases hw : v = w
      · subst hw
        rw [if_pos rfl] at hn
        simp only [Option.some.injEq] at hn
        rw [if_pos h1, ← hn, hcount]
        simp
      · rw [if_neg hw] at hn
        rw [if_neg (by rw [h1]; simpa using hw), List.append_nil]
        exact hb.count w n hn
  · simp only [hl, Bool.false_eq_true, if_false]
    refine ⟨hb.wf, fun w => ?_, fun w n hn => ?_⟩
    · rw [combsFor_snoc, hb.key]
      by_cases hw : v = w
      · subst hw
        simp [mt hlet.1 hl]
      · rw [if_neg (by rw [h1]; simpa using hw), List.append_nil]
    · rw [combsFor_snoc]
      by_cases hw : v = w
      · subst hw
        exact absurd (hlet.1 ((hb.key v).1 ⟨n, hn⟩).1) hl
      · rw [if_neg (by rw [h1]; simpa using hw), List.append_nil]
        exact hb.count w n hn

theorem binLetters {L : KeyboardLayout} {lo : Char → Bool} {cs : Dict Comb Nat} {b : Dict LVal Nat}
    (h : cs.foldlM (binLetter L lo) [] = .ok b) : LettersAs L lo cs b := by
  have key : ∀ (cs pre : List (Comb × Nat)) (b b' : Dict LVal Nat), LettersAs L lo pre b →
      cs.foldlM (binLetter L lo) b = .ok b' → LettersAs L lo (pre ++ cs) b' := by
    intro cs
    induction cs with
    | nil =>
      intro pre b b' hb h
      simp only [List.foldlM_nil, pure, Except.pure, Except.ok.injEq] at h
      subst h
      simpa using hb
    | cons c cs ih =>
      intro pre b b' hb h
      obtain ⟨b1, h1, h2⟩ := foldlM_cons_ok.1 h
      simpa using ih (pre ++ [c]) b1 b' (binLetter_letters hb h1) h2
  have h0 : LettersAs L lo [] [] := ⟨Dict.wf_nil, fun v => by simp [combsFor, Dict.get?], fun v n h => by simp [Dict.get?] at h⟩
  simpa using key cs [] [] b h0 h

/-- The rows follow the sorted letters. -/
theorem letterRows_spec {total : Nat} : ∀ {l : List (LVal × Nat)} {cum : Int} {rows : List LetterRow},
    letterRows total cum l = .ok rows → rows.map (fun r => (r.letter, r.abs)) = l ∧
      (∀ r ∈ rows, total ≠ 0 ∧ r.rel = (r.abs : Rat) / total ∧ r.cumRel = (r.cum : Rat) / total) ∧
      ∀ i r, rows[i]? = some r → r.cum = cum - (((rows.take i).map LetterRow.abs).sum : Nat)
  | [], cum, rows, h => by
    simp only [letterRows, Except.ok.injEq] at h
    subst h
    simp
  | (k, v) :: l, cum, rows, h => by
    rw [letterRows] at h
    split at h
    · cases h
    · next h0 =>
      simp only [bind_ok_iff, Except.ok.injEq] at h
      obtain ⟨rest, h1, rfl⟩ := h
      obtain ⟨e1, e2, e3⟩ := letterRows_spec h1
      refine ⟨by simp [e1], ?_, ?_⟩
      · intro r hr
        rcases List.mem_cons.1 hr with rfl | hr
        · exact ⟨h0, rfl, rfl⟩
        · exact e2 r hr
      · intro i r hr
        cases i with
        | zero => simp only [List.getElem?_cons_zero, Option.some.injEq] at hr; subst hr; simp
        | succ i =>
          rw [List.getElem?_cons_succ] at hr
          rw [e3 i r hr]
          simp only [List.take_succ_cons, List.map_cons, List.sum_cons]
          push_cast
          ring

theorem letterRows_exists {total : Nat} (h : total ≠ 0) : ∀ (l : List (LVal × Nat)) (cum : Int),
    ∃ rows, letterRows total cum l = .ok rows
  | [], _ => ⟨[], rfl⟩
  | (k, v) :: l, cum => by
    obtain ⟨rows, hr⟩ := letterRows_exists h l (cum - v)
    exact ⟨_, by rw [letterRows, if_neg h, hr]; rfl⟩

end Lulua

namespace Lulua
open Spec

/-! ### Rows -/

/-- The row of a bin. -/
def binRow (r : TextTriad × TriadBin) : TextTriad × Nat × Rat := (r.1, r.2.weight, r.2.effort.effort)

theorem _root_.Lulua.Spec.SortedBy.map {α β : Type} {key : β → Rat} {f : α → β} {rev : Bool} {l l' : List α}
    (h : SortedBy (fun a => key (f a)) rev l l') : SortedBy key rev (l.map f) (l'.map f) := by
  refine ⟨h.perm.map f, List.pairwise_map.2 h.sorted, fun k => ?_⟩
  rw [List.filter_map, List.filter_map]
  exact congrArg (List.map f) (h.stable k)

theorem heaviest_rows {L : KeyboardLayout} {env : CarpalxEnv} {ts : Dict Triad Nat} {b : Dict TextTriad TriadBin} {W : Nat}
    (h : BinnedAs L env ts b W) : RowsOf L (effortOf env) ts ((heaviest b).map binRow) := by
  have hs := pySorted_spec (fun x : TextTriad × TriadBin => (x.2.weight : Rat)) true b
  have hp : (heaviest b).Perm b := hs.perm
  have hmem : ∀ r, r ∈ heaviest b ↔ b.get? r.1 = some r.2 := fun r =>
    (hp.mem_iff).trans (Dict.get?_eq_some_iff h.wf).symm
  refine ⟨?_, ?_, ?_, ?_, ?_⟩
  · rw [List.map_map]
    exact ((hp.map Prod.fst).nodup_iff).2 h.wf
  · intro tt
    rw [← h.key tt, List.map_map, List.mem_map]
    constructor
    · rintro ⟨r, hr, rfl⟩
      exact ⟨r.2, (hmem r).1 hr⟩
    · rintro ⟨d, hd⟩
      exact ⟨(tt, d), (hmem _).2 hd, rfl⟩
  · intro r hr
    obtain ⟨x, hx, rfl⟩ := List.mem_map.1 hr
    exact h.weight x.1 x.2 ((hmem x).1 hx)
  · intro r hr
    obtain ⟨x, hx, rfl⟩ := List.mem_map.1 hr
    have h1 := h.weight x.1 x.2 ((hmem x).1 hx)
    obtain ⟨_, h2, h3⟩ := h.effort x.1 x.2 ((hmem x).1 hx)
    simp only [binRow, Rater.effort]
    rw [h2, h3, h1]
    split
    · next h0 => rw [h0, div_zero]
    · rfl
  · rw [List.pairwise_map]
    refine List.Pairwise.imp ?_ hs.sorted
    intro a b hab
    simp only [if_true] at hab
    simp only [binRow]
    exact_mod_cast hab

theorem heaviest_weight {L : KeyboardLayout} {env : CarpalxEnv} {ts : Dict Triad Nat} {b : Dict TextTriad TriadBin} {W : Nat}
    (h : BinnedAs L env ts b W) : firstWeight ((heaviest b).map binRow) (heaviest b).length = weightOf ts := by
  have hp : (heaviest b).Perm b := (pySorted_spec (fun x : TextTriad × TriadBin => (x.2.weight : Rat)) true b).perm
  have h1 : (((heaviest b).map fun p => p.2.weight).sum : Nat) = (b.map fun p => p.2.weight).sum :=
    (hp.map fun p : TextTriad × TriadBin => p.2.weight).sum_eq
  have h2 : (((b.map fun p => p.2.weight).sum : Nat) : Rat) = weightOf ts := by
    rw [← h.sumWeight]
    generalize b = b
    induction b with
    | nil => rfl
    | cons p b ih => simp only [List.map_cons, List.sum_cons, Nat.cast_add, ih]
  have h3 : (b.map fun p => p.2.weight).sum = weightOf ts := by exact_mod_cast h2
  unfold firstWeight
  rw [← h3, ← h1, ← List.map_take, List.take_length, List.map_map]; rfl

theorem heaviest_effort {L : KeyboardLayout} {env : CarpalxEnv} {ts : Dict Triad Nat} {b : Dict TextTriad TriadBin} {W : Nat}
    (h : BinnedAs L env ts b W) :
    firstEffort ((heaviest b).map binRow) (heaviest b).length = effortSum (effortOf env) ts := by
  have hp : (heaviest b).Perm b := (pySorted_spec (fun x : TextTriad × TriadBin => (x.2.weight : Rat)) true b).perm
  have h1 : ((heaviest b).map fun p => p.2.effort.effort * (p.2.weight : Rat)).sum =
      (b.map fun p => p.2.effort.effort * (p.2.weight : Rat)).sum :=
    (hp.map fun p : TextTriad × TriadBin => p.2.effort.effort * (p.2.weight : Rat)).sum_eq
  have h2 : (b.map fun p => p.2.effort.effort * (p.2.weight : Rat)) = b.map fun p => p.2.effort.absEffort := by
    apply List.map_congr_left
    intro p hp
    have hg := Dict.get?_of_mem h.wf hp
    rw [bin_effort h hg, (h.effort p.1 p.2 hg).2.2]
  unfold firstEffort
  rw [← h.sumEffort, ← h2, ← h1, ← List.map_take, List.take_length, List.map_map]; rfl

theorem firstWeight_row (l : List (TextTriad × TriadBin)) (k : Nat) : firstWeight (l.map binRow) k = weightUpTo l k := by
  unfold firstWeight weightUpTo
  rw [← List.map_take, List.map_map]; rfl

theorem firstEffort_row (l : List (TextTriad × TriadBin)) (k : Nat) : firstEffort (l.map binRow) k = effortUpTo l k := by
  unfold firstEffort effortUpTo
  rw [← List.map_take, List.map_map]; rfl

theorem firstWeight_mono {l : List (TextTriad × Nat × Rat)} {i j : Nat} (h : i ≤ j) : firstWeight l i ≤ firstWeight l j := by
  unfold firstWeight
  obtain ⟨m, rfl⟩ : ∃ m, j = i + m := ⟨j - i, by omega⟩
  rw [List.take_add]; simp

theorem firstEffort_mono {l : List (TextTriad × Nat × Rat)} (hl : ∀ r ∈ l, 0 ≤ r.2.2) {i j : Nat} (h : i ≤ j) :
    firstEffort l i ≤ firstEffort l j := by
  unfold firstEffort
  obtain ⟨m, rfl⟩ : ∃ m, j = i + m := ⟨j - i, by omega⟩
  rw [List.take_add, List.map_append, List.sum_append]
  refine le_add_of_nonneg_right (List.sum_nonneg ?_)
  intro x hx
  obtain ⟨r, hr, rfl⟩ := List.mem_map.1 hx
  exact mul_nonneg (hl r (List.mem_of_mem_drop (List.mem_of_mem_take hr))) (Nat.cast_nonneg _)

end Lulua
