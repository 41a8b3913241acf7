import Verif.Proofs.Plot
import Verif.Props.Carpalx
import Verif.Props.Typing

/-!
# C60–C62: data behind plots
-/

namespace Lulua.Props
open Lulua Spec

/-- For demonstration: two buttons give `a`. -/
def plotLayout : KeyboardLayout :=
  KeyboardLayout.mk' "demo" [{ modifier := [[]], layout := [(0, .str ['a']), (1, .str ['b']), (2, .str ['a'])] }] demoKeyboard

def plotTriads : Dict Triad Nat :=
  [((⟨[], [0]⟩, ⟨[], [1]⟩, ⟨[], [2]⟩), 3), ((⟨[], [1]⟩, ⟨[], [1]⟩, ⟨[], [0]⟩), 5),
    ((⟨[], [2]⟩, ⟨[], [1]⟩, ⟨[], [0]⟩), 4), ((⟨[], [0]⟩, ⟨[], [0]⟩, ⟨[], [0]⟩), 1)]

/-! ### C60 -/

/-- **C60**: `triadfreq` works exactly if all triads can be read with the layout and rated. -/
theorem C60_works (L : KeyboardLayout) (env : CarpalxEnv) (ts : Dict Triad Nat) (cutoff : Rat) (sort : SortBy)
    (rev : Bool) (lim : Int) :
    (∃ rows, triadfreq L env ts cutoff sort rev lim = .ok rows) ↔
      ∀ t ∈ ts, (∃ tt, L.triadText t.1 = .ok tt) ∧ ∃ v, env.triadEffort t.1 = .ok v := by
  constructor
  · rintro ⟨rows, h⟩
    simp only [triadfreq, bind_ok_iff] at h
    obtain ⟨⟨b, W⟩, h1, _⟩ := h
    exact (binTriads_binned h1).known
  · intro h
    obtain ⟨b, W, h1⟩ := binTriads_exists h
    exact ⟨_, by simp only [triadfreq, h1, bind, Except.bind]; rfl⟩

/-- **C60**: `l` being the texts by falling weight, the first `k` are selected: without the last of these the weight does
not reach the cutoff, with it it does, or everything is selected. These are sorted as requested and the first `lim`
printed (all if `lim` is not positive). -/
theorem C60_cutoff (L : KeyboardLayout) (env : CarpalxEnv) (ts : Dict Triad Nat) (cutoff : Rat) (sort : SortBy)
    (rev : Bool) (lim : Int) (rows : List (TextTriad × Nat × Rat)) (h : triadfreq L env ts cutoff sort rev lim = .ok rows) :
    ∃ l k, RowsOf L (effortOf env) ts l ∧ k ≤ l.length ∧
      (∀ j < k, (firstWeight l j : Rat) < weightOf ts * cutoff) ∧
      (k = l.length ∨ (weightOf ts : Rat) * cutoff ≤ firstWeight l k) ∧
      ∃ s, SortedBy (rowKey (weightOf ts) sort) rev (l.take k) s ∧ rows = if 0 < lim then s.take lim.toNat else s := by
  simp only [triadfreq, bind_ok_iff, Except.ok.injEq] at h
  obtain ⟨⟨b, W⟩, h1, h2⟩ := h
  have hb := binTriads_binned h1
  obtain ⟨k, k1, k2, k3, k4⟩ := selectTop_spec (W * cutoff) (heaviest b) [] 0
  have hsel : (selectTop (W * cutoff) (heaviest b)).1 = (heaviest b).take k := by
    unfold selectTop; rw [k2]; simp
  simp only [hsel] at h2
  have hW : W = weightOf ts := hb.total
  subst hW
  refine ⟨(heaviest b).map binRow, k, heaviest_rows hb, by simpa using k1, ?_, ?_, ?_⟩
  · intro j hj
    have := k3 j hj
    rw [firstWeight_row]
    simpa [weightUpTo] using this
  · rcases k4 with k4 | k4
    · left; simpa using k4
    · right
      rw [firstWeight_row]
      simpa [weightUpTo] using k4
  · have hkey : (fun a => rowKey (weightOf ts) sort (binRow a)) = sort.key (weightOf ts) := by
      funext a
      cases sort <;> simp only [rowKey, binRow, SortBy.key, pow_two]
    refine ⟨(pySorted (sort.key (weightOf ts)) rev ((heaviest b).take k)).map binRow, ?_, ?_⟩
    · rw [← List.map_take]
      apply SortedBy.map
      rw [hkey]
      exact pySorted_spec _ _ _
    · rw [← h2]
      split
      · next hl => rw [List.map_take]; rfl
      · next hl => rfl

/-- **C60**: nothing left out is heavier than anything selected. -/
theorem C60_heaviest (l : List (TextTriad × Nat × Rat)) (L : KeyboardLayout) (e : Triad → Rat) (ts : Dict Triad Nat)
    (h : RowsOf L e ts l) (k : Nat) : ∀ a ∈ l.take k, ∀ b ∈ l.drop k, b.2.1 ≤ a.2.1 := by
  have := h.falling
  rw [← List.take_append_drop k l, List.pairwise_append] at this
  exact this.2.2

/-- **C60**: a cutoff of zero or less selects nothing. -/
theorem C60_nothing (L : KeyboardLayout) (env : CarpalxEnv) (ts : Dict Triad Nat) (cutoff : Rat) (sort : SortBy)
    (rev : Bool) (lim : Int) (rows : List (TextTriad × Nat × Rat)) (h : triadfreq L env ts cutoff sort rev lim = .ok rows)
    (hc : cutoff ≤ 0) : rows = [] := by
  obtain ⟨l, k, _, _, h3, _, s, h5, h6⟩ := C60_cutoff L env ts cutoff sort rev lim rows h
  have hk : k = 0 := by
    by_contra hk
    have := h3 0 (by omega)
    have h0 : (weightOf ts : Rat) * cutoff ≤ 0 := mul_nonpos_of_nonneg_of_nonpos (Nat.cast_nonneg _) hc
    simp only [firstWeight, List.take_zero, List.map_nil, List.sum_nil, Nat.cast_zero] at this
    linarith
  subst hk
  have : s = [] := by
    have := h5.perm
    rw [List.take_zero] at this
    exact this.eq_nil
  rw [h6, this]; simp

/-- **C60**: without limit a cutoff of one or more selects every text if all weights are positive. -/
theorem C60_everything (L : KeyboardLayout) (env : CarpalxEnv) (ts : Dict Triad Nat) (cutoff : Rat) (sort : SortBy)
    (rev : Bool) (lim : Int) (rows : List (TextTriad × Nat × Rat)) (h : triadfreq L env ts cutoff sort rev lim = .ok rows)
    (hc : 1 ≤ cutoff) (hl : lim ≤ 0) (hw : ∀ t ∈ ts, 0 < t.2) (tt : TextTriad) :
    tt ∈ rows.map (fun r => r.1) ↔ producing L ts tt ≠ [] := by
  have hks : ∃ b W, binTriads L env ts = .ok (b, W) := by
    simp only [triadfreq, bind_ok_iff] at h
    obtain ⟨⟨b, W⟩, h1, _⟩ := h
    exact ⟨b, W, h1⟩
  obtain ⟨l, k, h1, h2, h3, h4, s, h5, h6⟩ := C60_cutoff L env ts cutoff sort rev lim rows h
  rw [if_neg (by omega)] at h6
  subst h6
  rw [← h1.texts tt]
  have hpos : ∀ r ∈ l, 0 < r.2.1 := by
    intro r hr
    rw [h1.weight r hr]
    have hne := (h1.texts r.1).1 (List.mem_map.2 ⟨r, hr, rfl⟩)
    obtain ⟨t, ht⟩ := List.exists_mem_of_ne_nil _ hne
    have h7 : t.2 ≤ weightOf (producing L ts r.1) :=
      List.single_le_sum (fun _ _ => Nat.zero_le _) _ (List.mem_map.2 ⟨t, ht, rfl⟩)
    have h8 := hw t (List.mem_filter.1 ht).1
    omega
  have htot : firstWeight l l.length = weightOf ts := by
    obtain ⟨b, W, hb⟩ := hks
    have hB := binTriads_binned hb
    have e1 := heaviest_weight hB
    have e2 := heaviest_rows hB
    -- both lists hold the same rows
    have hsame : ∀ (l l' : List (TextTriad × Nat × Rat)), RowsOf L (effortOf env) ts l → RowsOf L (effortOf env) ts l' →
        ∀ r ∈ l, r ∈ l' := by
      intro l l' a a' r hr
      obtain ⟨r', hr', he⟩ := List.mem_map.1 ((a'.texts r.1).2 ((a.texts r.1).1 (List.mem_map.2 ⟨r, hr, rfl⟩)))
      have w1 := a.weight r hr
      have w2 := a'.weight r' hr'
      have f1 := a.effort r hr
      have f2 := a'.effort r' hr'
      rw [he] at w2 f2
      have : r = r' := Prod.ext he.symm (Prod.ext (w1.trans w2.symm) (f1.trans f2.symm))
      rw [this]; exact hr'
    have hperm : l.Perm ((heaviest b).map binRow) :=
      (List.perm_ext_iff_of_nodup h1.once.of_map e2.once.of_map).2 fun r => ⟨hsame _ _ h1 e2 r, hsame _ _ e2 h1 r⟩
    rw [← e1]
    unfold firstWeight
    rw [List.take_length, show (heaviest b).length = ((heaviest b).map binRow).length by simp, List.take_length]
    exact (hperm.map fun r => r.2.1).sum_eq
  have hk : k = l.length := by
    rcases h4 with h4 | h4
    · exact h4
    · by_contra hk
      have hlt : k < l.length := by omega
      have h7 : firstWeight l (k + 1) ≤ firstWeight l l.length := firstWeight_mono (by omega)
      have h8 : firstWeight l (k + 1) = firstWeight l k + l[k].2.1 := by
        unfold firstWeight; rw [List.take_succ_eq_append_getElem hlt, List.map_append, List.sum_append]; rfl
      have h9 := hpos l[k] (List.getElem_mem hlt)
      have h10 : (weightOf ts : Rat) ≤ weightOf ts * cutoff := le_mul_of_one_le_right (Nat.cast_nonneg _) hc
      have h11 : (weightOf ts : Rat) ≤ firstWeight l k := le_trans h10 h4
      have h12 : weightOf ts ≤ firstWeight l k := by exact_mod_cast h11
      omega
  rw [hk, List.take_length] at h5
  exact (h5.perm.map fun r => r.1).mem_iff

/-- Two ways of typing `aba` make it the most frequent one. -/
example : (triadfreq plotLayout demoEnv plotTriads (1/2) .effort false 0).map (List.map fun r => (r.1, r.2.1)) =
      .ok [((.str ['a'], .str ['b'], .str ['a']), 7)] ∧
    (triadfreq plotLayout demoEnv plotTriads (3/5) .weight false 0).map (List.map fun r => (r.1, r.2.1)) =
      .ok [((.str ['b'], .str ['b'], .str ['a']), 5), ((.str ['a'], .str ['b'], .str ['a']), 7)] ∧
    (triadfreq plotLayout demoEnv plotTriads 1 .combined true 1).map (List.map fun r => (r.1, r.2.1)) =
      .ok [((.str ['a'], .str ['b'], .str ['a']), 7)] ∧ ∀ t ∈ plotTriads, 0 < t.2 := by
  refine ⟨?_, ?_, ?_, ?_⟩ <;> decide +kernel

/-! ### C61 -/

/-- **C61**: the points are those of some of the texts in falling order of weight (`ks` are their numbers), the first one
and the last one among them. Except for the last they are at least a 200th of the weight (rounded down) apart. -/
theorem C61_points (L : KeyboardLayout) (env : CarpalxEnv) (ts : Dict Triad Nat) (r : Option (List Rat) × Option (List Rat))
    (h : triadEffortData L env ts = .ok r) (hw : 0 < weightOf ts) (he : effortSum (effortOf env) ts ≠ 0) :
    ∃ l ks, RowsOf L (effortOf env) ts l ∧ ks.head? = some 1 ∧ (∀ i ∈ ks, 1 ≤ i ∧ i ≤ l.length) ∧
      ks.Pairwise (fun i j => i < j ∧ firstWeight l i + weightOf ts / 200 ≤ firstWeight l j) ∧
      firstWeight l l.length = weightOf ts ∧ firstEffort l l.length = effortSum (effortOf env) ts ∧
      r = (some ((ks ++ [l.length]).map fun k => (firstWeight l k : Rat) / weightOf ts),
        some ((ks ++ [l.length]).map fun k => firstEffort l k / effortSum (effortOf env) ts)) := by
  simp only [triadEffortData, bind_ok_iff, Except.ok.injEq] at h
  obtain ⟨⟨b, W⟩, h1, h2⟩ := h
  have hb := binTriads_binned h1
  have hW : W = weightOf ts := hb.total
  subst hW
  obtain ⟨ks, k1, k2, k3, k4⟩ := effortCurve_spec (weightOf ts / 200) (heaviest b) (heaviest b).length (le_refl _)
  rw [List.take_length] at k4
  simp only [k4] at h2
  have hpos : 0 < (heaviest b).length := by
    by_contra h0
    have : heaviest b = [] := List.length_eq_zero_iff.1 (by omega)
    have := heaviest_weight hb
    rw [‹heaviest b = []›] at this
    simp [firstWeight] at this
    omega
  have e1 := heaviest_weight hb
  have e2 := heaviest_effort hb
  have e1' := e1
  have e2' := e2
  rw [firstWeight_row] at e1'
  rw [firstEffort_row] at e2'
  refine ⟨(heaviest b).map binRow, ks, heaviest_rows hb, k3 hpos, by simpa using k1, ?_, by simpa using e1,
    by simpa using e2, ?_⟩
  · simp only [firstWeight_row]; exact k2
  · rw [← h2]
    simp only [firstWeight_row, firstEffort_row, List.length_map]
    have hw' : (weightOf ts : Rat) ≠ 0 := by exact_mod_cast hw.ne'
    unfold trueDivide
    rw [e1', e2', if_neg hw', if_neg he]
    simp only [List.map_append, List.map_map, List.map_cons, List.map_nil, e1', e2']
    rfl

/-- **C61**: if no triad has a negative effort, both rise from above (at) zero to one. -/
theorem C61_monotone (L : KeyboardLayout) (env : CarpalxEnv) (ts : Dict Triad Nat) (r : Option (List Rat) × Option (List Rat))
    (h : triadEffortData L env ts = .ok r) (hw : 0 < weightOf ts) (hn : ∀ t ∈ ts, 0 ≤ effortOf env t.1)
    (he : 0 < effortSum (effortOf env) ts) :
    ∃ x y, r = (some x, some y) ∧ x.length = y.length ∧ 2 ≤ x.length ∧ x.Pairwise (· ≤ ·) ∧ y.Pairwise (· ≤ ·) ∧
      (∀ a ∈ x, 0 < a ∧ a ≤ 1) ∧ (∀ a ∈ y, 0 ≤ a ∧ a ≤ 1) ∧ x.getLast? = some 1 ∧ y.getLast? = some 1 := by
  obtain ⟨l, ks, h1, h2, h3, h4, h5, h6, h7⟩ := C61_points L env ts r h hw he.ne'
  have hw' : (0 : Rat) < weightOf ts := by exact_mod_cast hw
  have hnn : ∀ r ∈ l, 0 ≤ r.2.2 := by
    intro r hr
    rw [h1.effort r hr]
    refine div_nonneg (List.sum_nonneg ?_) (Nat.cast_nonneg _)
    intro x hx
    obtain ⟨t, ht, rfl⟩ := List.mem_map.1 hx
    exact mul_nonneg (Nat.cast_nonneg _) (hn t (List.mem_filter.1 ht).1)
  have hlen : 1 ≤ l.length := by
    have hm : (1 : Nat) ∈ ks := List.mem_of_head? h2
    exact (h3 1 hm).2
  have hsort : (ks ++ [l.length]).Pairwise (· ≤ ·) := by
    rw [List.pairwise_append]
    refine ⟨h4.imp fun h => h.1.le, List.pairwise_singleton _ _, ?_⟩
    intro i hi j hj
    rw [List.mem_singleton] at hj
    rw [hj]
    exact (h3 i hi).2
  have hrange : ∀ i ∈ ks ++ [l.length], 1 ≤ i ∧ i ≤ l.length := by
    intro i hi
    rw [List.mem_append, List.mem_singleton] at hi
    rcases hi with hi | rfl
    · exact h3 i hi
    · exact ⟨hlen, le_refl _⟩
  -- the first text has a positive weight
  have hfirst : 0 < firstWeight l 1 := by
    by_contra h0
    have h0 : firstWeight l 1 = 0 := by omega
    have hall : ∀ r ∈ l, r.2.1 = 0 := by
      cases l with
      | nil => simp
      | cons a l =>
        have ha : a.2.1 = 0 := by simpa [firstWeight] using h0
        intro r hr
        rcases List.mem_cons.1 hr with rfl | hr
        · exact ha
        · have := (List.pairwise_cons.1 h1.falling).1 r hr
          omega
    have : firstWeight l l.length = 0 := by
      unfold firstWeight
      rw [List.take_length]
      apply List.sum_eq_zero
      intro x hx
      obtain ⟨r, hr, rfl⟩ := List.mem_map.1 hx
      exact hall r hr
    omega
  refine ⟨_, _, h7, by simp, ?_, ?_, ?_, ?_, ?_, ?_, ?_⟩
  · simp only [List.length_map, List.length_append, List.length_singleton]
    have : ks ≠ [] := by rintro rfl; simp at h2
    have := List.length_pos_iff.2 this
    omega
  · rw [List.pairwise_map]
    refine hsort.imp ?_
    intro i j hij
    exact div_le_div_of_nonneg_right (by exact_mod_cast firstWeight_mono hij) hw'.le
  · rw [List.pairwise_map]
    refine hsort.imp ?_
    intro i j hij
    exact div_le_div_of_nonneg_right (firstEffort_mono hnn hij) he.le
  · intro a ha
    obtain ⟨i, hi, rfl⟩ := List.mem_map.1 ha
    obtain ⟨hi1, hi2⟩ := hrange i hi
    constructor
    · apply div_pos _ hw'
      exact_mod_cast lt_of_lt_of_le hfirst (firstWeight_mono hi1)
    · rw [div_le_one hw', ← h5]
      exact_mod_cast firstWeight_mono hi2
  · intro a ha
    obtain ⟨i, hi, rfl⟩ := List.mem_map.1 ha
    obtain ⟨hi1, hi2⟩ := hrange i hi
    constructor
    · apply div_nonneg _ he.le
      have := firstEffort_mono hnn (Nat.zero_le i)
      simpa [firstEffort] using this
    · rw [div_le_one he, ← h6]
      exact firstEffort_mono hnn hi2
  · rw [List.map_append, List.map_singleton, List.getLast?_concat, h5, div_self hw'.ne']
  · rw [List.map_append, List.map_singleton, List.getLast?_concat, h6, div_self he.ne']

theorem spaced_length {f : Nat → Nat} {w : Nat} : ∀ {ks : List Nat}, ks.Pairwise (fun i j => f i + w ≤ f j) →
    ∀ a ∈ ks.head?, ∀ z ∈ ks.getLast?, f a + (ks.length - 1) * w ≤ f z
  | [], _, a, ha, _, _ => by simp at ha
  | [k], _, a, ha, z, hz => by simp at ha hz; subst ha; subst hz; simp
  | k :: k' :: ks, h, a, ha, z, hz => by
    have ih := spaced_length (List.pairwise_cons.1 h).2 k' (by simp) z (by simpa using hz)
    have h1 := (List.pairwise_cons.1 h).1 k' (by simp)
    simp only [List.head?_cons, Option.mem_def, Option.some.injEq] at ha
    subst ha
    simp only [List.length_cons, Nat.add_sub_cancel] at ih ⊢
    rw [Nat.add_mul, Nat.one_mul]
    omega

/-- **C61**: whatever the number of triads, there are at most 401 points if the weight is at least 200. -/
theorem C61_few (L : KeyboardLayout) (env : CarpalxEnv) (ts : Dict Triad Nat) (x y : List Rat)
    (h : triadEffortData L env ts = .ok (some x, some y)) (hw : 200 ≤ weightOf ts) (he : effortSum (effortOf env) ts ≠ 0) :
    x.length ≤ 401 := by
  obtain ⟨l, ks, h1, h2, h3, h4, h5, h6, h7⟩ := C61_points L env ts _ h (by omega) he
  simp only [Prod.mk.injEq, Option.some.injEq] at h7
  rw [h7.1, List.length_map, List.length_append, List.length_singleton]
  cases hz : ks.getLast? with
  | none => rw [List.getLast?_eq_none_iff] at hz; subst hz; simp at h2
  | some z =>
    have h8 := spaced_length (h4.imp fun h => h.2) 1 h2 z hz
    have h9 : firstWeight l z ≤ weightOf ts := by
      rw [← h5]; exact firstWeight_mono (h3 z (List.mem_of_getLast? hz)).2
    have h10 : weightOf ts < 400 * (weightOf ts / 200) := by omega
    have h11 : (ks.length - 1) * (weightOf ts / 200) < 400 * (weightOf ts / 200) := by omega
    have := lt_of_mul_lt_mul_right h11 (Nat.zero_le _)
    omega

/-- **C61**: without any weight what is written is not a curve. -/
theorem C61_empty (L : KeyboardLayout) (env : CarpalxEnv) (ts : Dict Triad Nat) (r : Option (List Rat) × Option (List Rat))
    (h : triadEffortData L env ts = .ok r) (hw : weightOf ts = 0) : r = (none, none) := by
  simp only [triadEffortData, bind_ok_iff, Except.ok.injEq] at h
  obtain ⟨⟨b, W⟩, h1, h2⟩ := h
  have hb := binTriads_binned h1
  have hW : W = weightOf ts := hb.total
  subst hW
  obtain ⟨ks, k1, k2, k3, k4⟩ := effortCurve_spec (weightOf ts / 200) (heaviest b) (heaviest b).length (le_refl _)
  rw [List.take_length] at k4
  simp only [k4] at h2
  have e1 := heaviest_weight hb
  have e2 := heaviest_effort hb
  rw [firstWeight_row] at e1
  rw [firstEffort_row] at e2
  have e3 : effortSum (effortOf env) ts = 0 := by
    unfold effortSum
    apply List.sum_eq_zero
    intro x hx
    obtain ⟨t, ht, rfl⟩ := List.mem_map.1 hx
    have : t.2 = 0 := (List.sum_eq_zero_iff.1 hw) t.2 (List.mem_map.2 ⟨t, ht, rfl⟩)
    rw [this]; simp
  rw [← h2, e1, e2, e3, hw]
  simp [trueDivide]

example : (triadEffortData plotLayout demoEnv plotTriads).map (·.1) = .ok (some [7/13, 12/13, 1, 1]) ∧ weightOf plotTriads = 13 ∧
    (∀ t ∈ plotTriads, 0 ≤ effortOf demoEnv t.1) ∧ 0 < effortSum (effortOf demoEnv) plotTriads := by
  refine ⟨?_, ?_, ?_, ?_⟩ <;> decide +kernel

example : 200 ≤ weightOf [((⟨[], [0]⟩, ⟨[], [1]⟩, ⟨[], [2]⟩), 150), ((⟨[], [1]⟩, ⟨[], [1]⟩, ⟨[], [0]⟩), 250)] ∧
    (triadEffortData plotLayout demoEnv [((⟨[], [0]⟩, ⟨[], [1]⟩, ⟨[], [2]⟩), 150), ((⟨[], [1]⟩, ⟨[], [1]⟩, ⟨[], [0]⟩), 250)]).map
      (·.1) = .ok (some [5/8, 1, 1]) := by
  refine ⟨?_, ?_⟩ <;> decide +kernel

/-! ### C62 -/

/-- **C62**: there is one column for each letter, in rising order of their number; this is the sum over all combinations
giving the letter. -/
theorem C62_counts (L : KeyboardLayout) (lo : Char → Bool) (cs : Dict Comb Nat) (rows : List LetterRow)
    (h : letterfreq L lo cs = .ok rows) :
    (rows.map LetterRow.letter).Nodup ∧ (∀ v, v ∈ rows.map LetterRow.letter ↔ IsLetter lo v ∧ combsFor L cs v ≠ []) ∧
      (∀ r ∈ rows, r.abs = ((combsFor L cs r.letter).map Prod.snd).sum) ∧ rows.Pairwise fun a b => a.abs ≤ b.abs := by
  simp only [letterfreq, bind_ok_iff] at h
  obtain ⟨b, h1, rows', h2, h3⟩ := h
  have hb := binLetters h1
  split at h3
  · cases h3
  simp only [Except.ok.injEq] at h3
  subst h3
  obtain ⟨e1, e2, e3⟩ := letterRows_spec h2
  have hs := pySorted_spec (fun x : LVal × Nat => (x.2 : Rat)) false b
  have hp := hs.perm
  rw [← e1] at hp
  have hmem : ∀ r ∈ rows', b.get? r.letter = some r.abs := fun r hr =>
    Dict.get?_of_mem hb.wf (hp.mem_iff.1 (List.mem_map.2 ⟨r, hr, rfl⟩))
  refine ⟨?_, ?_, ?_, ?_⟩
  · have := (hp.map Prod.fst).nodup_iff.2 hb.wf
    rw [List.map_map] at this
    exact this
  · intro v
    rw [← hb.key v]
    constructor
    · intro hv
      obtain ⟨r, hr, rfl⟩ := List.mem_map.1 hv
      exact ⟨_, hmem r hr⟩
    · rintro ⟨n, hn⟩
      obtain ⟨r, hr, he⟩ := List.mem_map.1 (hp.mem_iff.2 (Dict.mem_of_get? hn))
      exact List.mem_map.2 ⟨r, hr, (Prod.ext_iff.1 he).1⟩
  · intro r hr
    exact hb.count _ _ (hmem r hr)
  · have h4 := hs.sorted
    rw [← e1, List.pairwise_map] at h4
    refine h4.imp ?_
    intro a b hab
    simp only [Bool.false_eq_true, if_false] at hab
    exact_mod_cast hab

/-- **C62**: the frequencies sum to one; at each letter the accumulated one is that of the letter and of all letters after
it, starting with one. -/
theorem C62_sums (L : KeyboardLayout) (lo : Char → Bool) (cs : Dict Comb Nat) (rows : List LetterRow)
    (h : letterfreq L lo cs = .ok rows) :
    (rows.map LetterRow.rel).sum = 1 ∧ (∀ r ∈ rows, 0 ≤ r.rel ∧ r.rel = (r.abs : Rat) / (rows.map LetterRow.abs).sum) ∧
      ∀ (i : Nat) (r : LetterRow), rows[i]? = some r → r.cumRel = ((rows.drop i).map LetterRow.rel).sum ∧
        r.cum = (((rows.drop i).map LetterRow.abs).sum : Nat) := by
  simp only [letterfreq, bind_ok_iff] at h
  obtain ⟨b, h1, rows', h2, h3⟩ := h
  split at h3
  · cases h3
  next hne =>
  simp only [Except.ok.injEq] at h3
  subst h3
  obtain ⟨e1, e2, e3⟩ := letterRows_spec h2
  have hp := (pySorted_spec (fun x : LVal × Nat => (x.2 : Rat)) false b).perm
  rw [← e1] at hp
  have htot : (rows'.map LetterRow.abs).sum = (b.map Prod.snd).sum := by
    have := (hp.map Prod.snd).sum_eq
    rw [List.map_map] at this
    exact this
  rw [← htot] at e2 e3
  obtain ⟨r0, hr0⟩ := List.exists_mem_of_ne_nil _ hne
  have hpos : ((rows'.map LetterRow.abs).sum : Rat) ≠ 0 := by exact_mod_cast (e2 r0 hr0).1
  have hrel : ∀ l : List LetterRow, (∀ r ∈ l, r ∈ rows') →
      (l.map LetterRow.rel).sum = ((l.map LetterRow.abs).sum : Nat) / ((rows'.map LetterRow.abs).sum : Nat) := by
    intro l hl
    induction l with
    | nil => simp
    | cons r l ih =>
      simp only [List.map_cons, List.sum_cons]
      rw [ih (fun r hr => hl r (by simp [hr])), (e2 r (hl r (by simp))).2.1]
      push_cast
      ring
  have hdrop : ∀ i, ((rows'.drop i).map LetterRow.abs).sum + ((rows'.take i).map LetterRow.abs).sum =
      (rows'.map LetterRow.abs).sum := by
    intro i
    conv_rhs => rw [← List.take_append_drop i rows']
    rw [List.map_append, List.sum_append, Nat.add_comm]
  refine ⟨?_, ?_, ?_⟩
  · rw [hrel rows' (fun _ h => h)]
    exact div_self hpos
  · intro r hr
    refine ⟨?_, (e2 r hr).2.1⟩
    rw [(e2 r hr).2.1]
    positivity
  · intro i r hr
    have hc : r.cum = (((rows'.drop i).map LetterRow.abs).sum : Nat) := by
      rw [e3 i r hr]
      have := hdrop i
      omega
    refine ⟨?_, hc⟩
    rw [(e2 r (List.mem_of_getElem? hr)).2.2, hc, hrel _ (fun r hr => List.mem_of_mem_drop hr)]
    push_cast
    rfl

theorem letters_exist {L : KeyboardLayout} {lo : Char → Bool} : ∀ (cs : List (Comb × Nat)) (b : Dict LVal Nat),
    (∀ c ∈ cs, ∃ ch t, L.getText c.1 = .ok (.str (ch :: t))) → ∃ b', cs.foldlM (binLetter L lo) b = .ok b'
  | [], b, _ => ⟨b, rfl⟩
  | c :: cs, b, h => by
    obtain ⟨ch, t, h1⟩ := h c (by simp)
    have : ∃ b1, binLetter L lo b c = .ok b1 := ⟨_, by
      simp only [binLetter, h1, bind, Except.bind, LVal.firstChar, firstChar]; rfl⟩
    obtain ⟨b1, h2⟩ := this
    obtain ⟨b', h3⟩ := letters_exist cs b1 (fun c hc => h c (by simp [hc]))
    exact ⟨b', foldlM_cons_ok.2 ⟨b1, h2, h3⟩⟩

/-- **C62**: it works if all combinations give non-empty texts and there is a letter, unless all counts are zero. -/
theorem C62_works (L : KeyboardLayout) (lo : Char → Bool) (cs : Dict Comb Nat)
    (h : ∀ c ∈ cs, ∃ ch t, L.getText c.1 = .ok (.str (ch :: t)))
    (hl : ∃ c ∈ cs, 0 < c.2 ∧ ∃ v, L.getText c.1 = .ok v ∧ IsLetter lo v) : ∃ rows, letterfreq L lo cs = .ok rows := by
  obtain ⟨b, h1⟩ := letters_exist (lo := lo) cs [] h
  have hb := binLetters (cs := cs) h1
  obtain ⟨c, hc, hpos, v, hv, hlet⟩ := hl
  have hmem : c ∈ combsFor L cs v := List.mem_filter.2 ⟨hc, by simpa using hv⟩
  obtain ⟨n, hn⟩ := (hb.key v).2 ⟨hlet, List.ne_nil_of_mem hmem⟩
  have hn0 : 0 < n := by
    rw [hb.count v n hn]
    have : c.2 ≤ ((combsFor L cs v).map Prod.snd).sum :=
      List.single_le_sum (fun _ _ => Nat.zero_le _) _ (List.mem_map.2 ⟨c, hmem, rfl⟩)
    omega
  have hmemb := Dict.mem_of_get? hn
  have htot : (b.map Prod.snd).sum ≠ 0 := by
    have : n ≤ (b.map Prod.snd).sum := List.single_le_sum (fun _ _ => Nat.zero_le _) _ (List.mem_map.2 ⟨_, hmemb, rfl⟩)
    omega
  obtain ⟨rows, hr⟩ := letterRows_exists htot (pySorted (fun x => (x.2 : Rat)) false b) ((b.map Prod.snd).sum : Nat)
  have hne : rows ≠ [] := by
    rintro rfl
    have e1 := (letterRows_spec hr).1
    have hp := (pySorted_spec (fun x : LVal × Nat => (x.2 : Rat)) false b).perm
    rw [← e1] at hp
    have := hp.mem_iff.2 hmemb
    simp at this
  refine ⟨rows, ?_⟩
  simp only [letterfreq, h1, bind, Except.bind]
  rw [hr]
  simp [hne]

example : letterfreq plotLayout (· != ' ') [(⟨[], [1]⟩, 4), (⟨[], [0]⟩, 3), (⟨[], [2]⟩, 2)] =
    .ok [⟨.str ['b'], 4/9, 4, 9, 1⟩, ⟨.str ['a'], 5/9, 5, 5, 5/9⟩] := by decide +kernel

end Lulua.Props
