import Verif.Model.Pretty
import Verif.Spec.Pretty
import Verif.Proofs.Plot
import Verif.Proofs.Keyboard

/-!
# C107: the tables `pretty` prints
-/

namespace Lulua.Props
open Lulua Lulua.Spec

theorem pyDiv_ok {a b : Nat} {x : Rat} : pyDiv a b = .ok x ↔ b ≠ 0 ∧ x = (a : Rat) / b := by
  unfold pyDiv
  split <;> simp_all [eq_comm]

theorem shareRows_ok {κ : Type} {total : Nat} {l : List (κ × Nat)} {rows : List (κ × Nat × Rat)} :
    shareRows total l = .ok rows ↔ (l ≠ [] → total ≠ 0) ∧ rows = l.map fun e => (e.1, e.2, (e.2 : Rat) / total * 100) := by
  unfold shareRows
  induction l generalizing rows with
  | nil => simp [pure, Except.pure, eq_comm]
  | cons e l ih =>
    simp only [List.mapM_cons, bind_ok_iff, pyDiv_ok, Except.ok.injEq, ih, pure, Except.pure]
    constructor
    · rintro ⟨r, ⟨s, ⟨h1, rfl⟩, rfl⟩, rs, ⟨h2, rfl⟩, rfl⟩
      exact ⟨fun _ => h1, rfl⟩
    · rintro ⟨h, rfl⟩
      exact ⟨_, ⟨_, ⟨h (by simp), rfl⟩, rfl⟩, _, ⟨fun _ => h (by simp), rfl⟩, rfl⟩

theorem sum_share {κ : Type} (t : Rat) (l : List (κ × Nat)) :
    (l.map fun e => (e.2 : Rat) / t * 100).sum = ((l.map Prod.snd).sum : Nat) / t * 100 := by
  induction l with
  | nil => simp
  | cons e l ih => simp only [List.map_cons, List.sum_cons, ih]; push_cast; ring

theorem shareRows_table {κ : Type} {d l : List (κ × Nat)} (hp : l.Perm d) {rows : List (κ × Nat × Rat)}
    (h : shareRows (d.map Prod.snd).sum l = .ok rows) : ShareTable d rows ∧ rows.map (fun r => (r.1, r.2.1)) = l := by
  obtain ⟨h1, rfl⟩ := shareRows_ok.1 h
  have hmap : ((l.map fun e => (e.1, e.2, (e.2 : Rat) / ((d.map Prod.snd).sum : Nat) * 100)).map fun r => (r.1, r.2.1)) = l := by
    rw [List.map_map]; exact List.map_id l
  have hne : (l.map fun e => (e.1, e.2, (e.2 : Rat) / ((d.map Prod.snd).sum : Nat) * 100)) ≠ [] → l ≠ [] := by
    intro h h'; subst h'; exact h rfl
  refine ⟨⟨by rw [hmap]; exact hp, fun hr => Nat.pos_of_ne_zero (h1 (hne hr)), ?_, ?_⟩, hmap⟩
  · intro r hr
    obtain ⟨e, he, rfl⟩ := List.mem_map.1 hr
    have h0 : ((d.map Prod.snd).sum : Rat) ≠ 0 := by
      exact_mod_cast h1 (List.ne_nil_of_mem he)
    field_simp
  · intro hr
    have h0 : (((d.map Prod.snd).sum : Nat) : Rat) ≠ 0 := by exact_mod_cast h1 (hne hr)
    rw [List.map_map]
    have := sum_share (((d.map Prod.snd).sum : Nat) : Rat) l
    simp only [Function.comp_def]
    rw [this, (hp.map Prod.snd).sum_eq, div_self h0, one_mul]

theorem combinationRows_ok {u : UniData} {L : KeyboardLayout} {total : Nat} {n i : Int} {l : List (Comb × Nat)}
    {rows : List CombinationRow} : combinationRows u L total n i l = .ok rows ↔
    List.Forall₂ (fun e r => combinationText u L e.1 = .ok r.text ∧ r.comb = e.1 ∧ r.count = e.2 ∧ total ≠ 0 ∧
      r.share = (e.2 : Rat) / total * 100) l rows ∧ ∀ (k : Nat) r, rows[k]? = some r → r.rank = n - i - k := by
  induction l generalizing i rows with
  | nil =>
    simp only [combinationRows, Except.ok.injEq, List.forall₂_nil_left_iff]
    constructor
    · rintro rfl; simp
    · rintro ⟨rfl, _⟩; rfl
  | cons e l ih =>
    simp only [combinationRows, bind_ok_iff, pyDiv_ok, ih, Except.ok.injEq]
    constructor
    · rintro ⟨t, h1, s, ⟨h2, rfl⟩, rs, ⟨h3, h4⟩, rfl⟩
      refine ⟨.cons ⟨h1, rfl, rfl, h2, rfl⟩ h3, ?_⟩
      rintro (_ | k) r hr
      · simp only [List.getElem?_cons_zero, Option.some.injEq] at hr; subst hr; simp
      · rw [List.getElem?_cons_succ] at hr
        rw [h4 k r hr]; push_cast; ring
    · rintro ⟨h, hk⟩
      cases h with
      | @cons _ r _ rs h h3 =>
        obtain ⟨h1, h2, h4, h5, h6⟩ := h
        refine ⟨r.text, h1, _, ⟨h5, rfl⟩, rs, ⟨h3, ?_⟩, ?_⟩
        · intro k r' hr
          rw [hk (k + 1) r' (by rw [List.getElem?_cons_succ]; exact hr)]; push_cast; ring
        · have := hk 0 r rfl
          simp only [Nat.cast_zero, sub_zero] at this
          cases r
          simp_all

theorem runs_bump_count (l : List (Nat × Nat)) (d : Dict Nat Nat) (k : Nat) :
    (l.foldl (fun d e => d.bump e.1 e.2) d).count k = d.count k + ((l.filter fun e => e.1 = k).map Prod.snd).sum := by
  induction l generalizing d with
  | nil => simp
  | cons e l ih =>
    rw [List.foldl_cons, ih, Dict.count_bump, List.filter_cons]
    by_cases h : e.1 = k <;> simp [h]; omega

theorem runs_bump_wf (l : List (Nat × Nat)) (d : Dict Nat Nat) (w : d.WF) :
    (l.foldl (fun d e => d.bump e.1 e.2) d).WF := by
  induction l generalizing d with
  | nil => exact w
  | cons e l ih => exact ih _ (Dict.wf_bump w _ _)

/-- In a dict the entries with a key are at most one. -/
theorem filter_count {d : Dict Nat Nat} (w : d.WF) (k : Nat) : ((List.filter (fun e => e.1 = k) d).map Prod.snd).sum = d.count k := by
  unfold Dict.count
  induction d with
  | nil => rfl
  | cons e d ih =>
    obtain ⟨a, v⟩ := e
    have hw : a ∉ List.map Prod.fst d ∧ (List.map Prod.fst d).Nodup := by simpa [Dict.WF, Dict.keys] using w
    rw [List.filter_cons]
    by_cases h : a = k
    · subst h
      have : List.filter (fun e => decide (e.1 = a)) d = [] := by
        rw [List.filter_eq_nil_iff]
        intro x hx
        simp only [decide_eq_true_eq]
        rintro rfl
        exact hw.1 (List.mem_map.2 ⟨x, hx, rfl⟩)
      simp [this, Dict.get?]
    · have := ih (by simpa [Dict.WF, Dict.keys] using hw.2)
      simp only [h, decide_false, Bool.false_eq_true, if_false, this]
      simp [Dict.get?, h]

theorem handTables_spec {hands : List (Direction × Dict Nat Nat)} {c c' : Dict Nat Nat}
    {tables : List (Direction × List (Nat × Nat × Rat))} (hw : ∀ h ∈ hands, h.2.WF) (wc : c.WF)
    (h : handTables hands c = .ok (tables, c')) :
    List.Forall₂ (fun e r => r.1 = e.1 ∧ ShareTable e.2 r.2 ∧ r.2.Pairwise fun a b => a.1 ≤ b.1) hands tables ∧ c'.WF ∧
    ∀ n, c'.count n = c.count n + runsOf hands n := by
  induction hands generalizing c tables with
  | nil =>
    simp only [handTables, Except.ok.injEq, Prod.mk.injEq] at h
    obtain ⟨rfl, rfl⟩ := h
    exact ⟨.nil, wc, fun n => by simp [runsOf]⟩
  | cons e hands ih =>
    obtain ⟨hd, dist⟩ := e
    simp only [handTables, bind_ok_iff, Except.ok.injEq, Prod.mk.injEq] at h
    obtain ⟨rows, h1, ⟨ts, c1⟩, h2, rfl, rfl⟩ := h
    have hs : SortedBy (fun e : Nat × Nat => (e.1 : Rat)) false dist (byKey dist) := pySorted_spec _ false dist
    obtain ⟨i1, i2, i3⟩ := ih (fun h hh => hw h (by simp [hh])) (runs_bump_wf _ _ wc) h2
    obtain ⟨s1, s2⟩ := shareRows_table hs.perm h1
    refine ⟨.cons ⟨rfl, s1, ?_⟩ i1, i2, ?_⟩
    · have h3 := hs.sorted
      rw [← s2, List.pairwise_map] at h3
      exact h3.imp fun h => by simpa using h
    · intro n
      rw [i3 n, runs_bump_count]
      have : ((List.filter (fun e => decide (e.1 = n)) (byKey dist)).map Prod.snd).sum = dist.count n := by
        rw [← filter_count (d := dist) (hw (hd, dist) (by simp)) n]
        exact (((hs.perm.filter _).map Prod.snd).sum_eq)
      rw [this]
      simp only [runsOf, List.map_cons, List.sum_cons]
      omega

/-- **C107** (tables): the shares of each table are those of the counts and add up to a hundred; buttons, combinations,
unknown characters, triads and words are in the order of their counts. The combinations are numbered backwards up to one, so
that no combination is more frequent than one with a smaller number, and each has the text the layout displays for it. The
runs of both hands are added. -/
theorem C107_tables (u : UniData) (L : KeyboardLayout) (s : AllStats) (hw : ∀ h ∈ s.runlen.perHand, h.2.WF) (p : Pretty)
    (h : prettyTables u L s = .ok p) :
    (p.presses = (s.simple.buttons.map Prod.snd).sum ∧ ShareTable s.simple.buttons p.buttons ∧
      p.buttons.Pairwise fun a b => a.2.1 ≤ b.2.1) ∧
    (p.combinationTotal = (s.simple.combinations.map Prod.snd).sum ∧
      ShareTable s.simple.combinations (p.combinations.map fun r => (r.comb, r.count, r.share)) ∧
      (∀ r ∈ p.combinations, combinationText u L r.comb = .ok r.text) ∧
      (p.combinations.map CombinationRow.rank).reverse = (List.range p.combinations.length).map (fun i : Nat => (i : Int) + 1) ∧
      ∀ a ∈ p.combinations, ∀ b ∈ p.combinations, a.rank < b.rank → b.count ≤ a.count) ∧
    (p.unknown.Perm s.simple.unknown ∧ p.unknown.Pairwise fun a b => a.2 ≤ b.2) ∧
    List.Forall₂ (fun e r => r.1 = e.1 ∧ ShareTable e.2 r.2 ∧ r.2.Pairwise fun a b => a.1 ≤ b.1) s.runlen.perHand p.hands ∧
    (∃ c : Dict Nat Nat, c.WF ∧ (∀ n, c.count n = runsOf s.runlen.perHand n) ∧ ShareTable c p.combined) ∧
    (p.triads.Perm s.triads.triads ∧ p.triads.Pairwise fun a b => a.2 ≤ b.2) ∧
    (p.totalWords = (s.words.words.map Prod.snd).sum ∧ ShareTable s.words.words p.words ∧
      p.words.Pairwise fun a b => a.2.1 ≤ b.2.1) := by
  simp only [prettyTables, bind_ok_iff, Except.ok.injEq] at h
  obtain ⟨bs, h1, cs, h2, ⟨hs, c⟩, h3, cb, h4, ws, h5, rfl⟩ := h
  have sorted : ∀ {κ : Type} (d : List (κ × Nat)), (byCount d).Perm d ∧ (byCount d).Pairwise fun a b => a.2 ≤ b.2 := by
    intro κ d
    have := pySorted_spec (fun e : κ × Nat => (e.2 : Rat)) false d
    exact ⟨this.perm, this.sorted.imp fun h => by simpa using h⟩
  have table : ∀ {κ : Type} (d : List (κ × Nat)) (rows : List (κ × Nat × Rat)),
      shareRows (d.map Prod.snd).sum (byCount d) = .ok rows → ShareTable d rows ∧ rows.Pairwise fun a b => a.2.1 ≤ b.2.1 := by
    intro κ d rows h
    obtain ⟨t1, t2⟩ := shareRows_table (sorted d).1 h
    have := (sorted d).2
    rw [← t2, List.pairwise_map] at this
    exact ⟨t1, this⟩
  obtain ⟨t1, t2, t3⟩ := handTables_spec hw Dict.wf_nil h3
  refine ⟨⟨rfl, table _ _ h1⟩, ⟨rfl, ?_, ?_, ?_, ?_⟩, sorted _, t1, ⟨c, t2, fun n => by rw [t3 n]; simp [Dict.count, Dict.get?],
    (shareRows_table (.refl _) h4).1⟩, sorted _, rfl, table _ _ h5⟩
  · have c1 := (combinationRows_ok.1 h2).1
    refine (shareRows_table (sorted _).1 (shareRows_ok.2 ⟨?_, ?_⟩)).1
    · intro hne
      cases hl : byCount s.simple.combinations with
      | nil => exact absurd hl hne
      | cons e l =>
        rw [hl] at c1
        cases c1 with
        | cons h _ => exact h.2.2.2.1
    · generalize byCount s.simple.combinations = l at c1
      clear h2
      induction c1 with
      | nil => rfl
      | cons h _ ih =>
        rw [List.map_cons, List.map_cons, h.2.1, h.2.2.1, h.2.2.2.2]
        exact congrArg _ ih
  · intro r hr
    obtain ⟨e, _, he⟩ := forall2_mem_right (combinationRows_ok.1 h2).1 hr
    rw [he.2.1]; exact he.1
  · obtain ⟨c1, c2⟩ := combinationRows_ok.1 h2
    have hl : cs.length = s.simple.combinations.length := by rw [← c1.length_eq, (sorted _).1.length_eq]
    refine List.ext_getElem? fun k => ?_
    dsimp only
    by_cases hk : k < cs.length
    · rw [List.getElem?_reverse (by simpa using hk), List.getElem?_map, List.getElem?_map, List.getElem?_range hk, List.length_map,
        List.getElem?_eq_getElem (by omega)]
      simp only [Option.map_some, Option.some.injEq]
      rw [c2 _ _ (List.getElem?_eq_getElem (by omega)), hl]
      push_cast [show k ≤ s.simple.combinations.length - 1 by omega, show 1 ≤ s.simple.combinations.length by omega]
      omega
    · rw [List.getElem?_eq_none (by simpa using hk), List.getElem?_eq_none (by simpa using hk)]
  · obtain ⟨c1, c2⟩ := combinationRows_ok.1 h2
    intro a ha b hb hr
    obtain ⟨i, hi⟩ := List.mem_iff_getElem?.1 ha
    obtain ⟨j, hj⟩ := List.mem_iff_getElem?.1 hb
    have hp : cs.Pairwise fun a b => a.count ≤ b.count := by
      have := (sorted s.simple.combinations).2
      generalize byCount s.simple.combinations = l at c1 this
      clear h2 c2 ha hb hi hj
      induction c1 with
      | nil => exact .nil
      | @cons x y l l' h h' ih =>
        rw [List.pairwise_cons] at this
        refine .cons ?_ (ih this.2)
        intro z hz
        obtain ⟨e, he, hez⟩ := forall2_mem_right h' hz
        rw [h.2.2.1, hez.2.2.1]
        exact this.1 e he
    have hlt : j < i := by
      have := c2 _ _ hi
      have := c2 _ _ hj
      omega
    obtain ⟨_, rfl⟩ := List.getElem?_eq_some_iff.1 hi
    obtain ⟨_, rfl⟩ := List.getElem?_eq_some_iff.1 hj
    exact List.pairwise_iff_getElem.1 hp _ _ _ _ hlt

/-- Statistics of one run of two presses with the left hand and of one press with the right one. -/
def unsortedStats : AllStats where
  simple := .init
  runlen := { RunlenStats.init with perHand := [(.left, [(2, 1)]), (.right, [(1, 1)])] }
  triads := ⟨[], [], []⟩
  words := .init

/-- **C107 is false** for the order of the runs of both hands: unlike those of each hand they are not sorted by length. -/
theorem C107_false (u : UniData) (L : KeyboardLayout) : ∃ p, prettyTables u L unsortedStats = .ok p ∧
    p.hands = [(.left, [(2, 1, 100)]), (.right, [(1, 1, 100)])] ∧ p.combined = [(2, 1, 50), (1, 1, 50)] := by
  refine ⟨_, rfl, ?_, ?_⟩ <;> decide +kernel

theorem handTables_works (hands : List (Direction × Dict Nat Nat)) (c : Dict Nat Nat) :
    (∃ r, handTables hands c = .ok r) ↔ ∀ h ∈ hands, h.2 ≠ [] → (h.2.map Prod.snd).sum ≠ 0 := by
  induction hands generalizing c with
  | nil => simp [handTables]
  | cons e hands ih =>
    obtain ⟨hd, dist⟩ := e
    have hne : byKey dist ≠ [] ↔ dist ≠ [] := by
      have := (pySorted_spec (fun e : Nat × Nat => (e.1 : Rat)) false dist).perm
      unfold byKey
      constructor
      · rintro h rfl; exact h (List.perm_nil.1 this)
      · intro h h'; rw [h'] at this; exact h (List.nil_perm.1 this)
    simp only [handTables, bind_ok_iff, List.forall_mem_cons]
    constructor
    · rintro ⟨r, rows, h1, x, h2, _⟩
      exact ⟨fun h => (shareRows_ok.1 h1).1 (hne.2 h), (ih _).1 ⟨x, h2⟩⟩
    · rintro ⟨h1, h2⟩
      obtain ⟨x, hx⟩ := (ih _).2 h2
      exact ⟨_, _, shareRows_ok.2 ⟨fun h => h1 (hne.1 h), rfl⟩, x, hx, rfl⟩

theorem runs_bump_pos (l : List (Nat × Nat)) (d : Dict Nat Nat) (hl : ∀ e ∈ l, 0 < e.2) (hd : ∀ e ∈ d, 0 < e.2) :
    ∀ e ∈ l.foldl (fun d e => d.bump e.1 e.2) d, 0 < e.2 := by
  induction l generalizing d with
  | nil => exact hd
  | cons x l ih =>
    refine ih _ (fun e he => hl e (by simp [he])) ?_
    intro e he
    have hx := hl x (by simp)
    rcases Dict.mem_set he with h | h
    · rw [h]; simp only; omega
    · exact hd e h

theorem handTables_pos {hands : List (Direction × Dict Nat Nat)} {c c' : Dict Nat Nat}
    {tables : List (Direction × List (Nat × Nat × Rat))} (h : handTables hands c = .ok (tables, c')) (hc : ∀ e ∈ c, 0 < e.2)
    (hh : ∀ h ∈ hands, ∀ e ∈ h.2, 0 < e.2) : ∀ e ∈ c', 0 < e.2 := by
  induction hands generalizing c tables with
  | nil =>
    simp only [handTables, Except.ok.injEq, Prod.mk.injEq] at h
    obtain ⟨rfl, rfl⟩ := h
    exact hc
  | cons x hands ih =>
    obtain ⟨hd, dist⟩ := x
    simp only [handTables, bind_ok_iff, Except.ok.injEq, Prod.mk.injEq] at h
    obtain ⟨rows, h1, ⟨ts, c1⟩, h2, rfl, rfl⟩ := h
    refine ih h2 (runs_bump_pos _ _ ?_ hc) fun h hm => hh h (by simp [hm])
    intro e he
    exact hh (hd, dist) (by simp) e ((pySorted_spec _ false dist).perm.mem_iff.1 he)

theorem combinationRows_works (u : UniData) (L : KeyboardLayout) (total : Nat) (n i : Int) (l : List (Comb × Nat)) :
    (∃ rows, combinationRows u L total n i l = .ok rows) ↔
      (l ≠ [] → total ≠ 0) ∧ ∀ e ∈ l, ∃ t, combinationText u L e.1 = .ok t := by
  induction l generalizing i with
  | nil => simp [combinationRows]
  | cons e l ih =>
    simp only [combinationRows, bind_ok_iff, pyDiv_ok, List.forall_mem_cons]
    constructor
    · rintro ⟨_, t, h1, s, ⟨h2, _⟩, rs, h3, _⟩
      exact ⟨fun _ => h2, ⟨t, h1⟩, ((ih _).1 ⟨rs, h3⟩).2⟩
    · rintro ⟨h1, ⟨t, h2⟩, h3⟩
      obtain ⟨rs, hrs⟩ := (ih (i + 1)).2 ⟨fun _ => h1 (by simp), h3⟩
      exact ⟨_, t, h2, _, ⟨h1 (by simp), rfl⟩, rs, hrs, rfl⟩

theorem foldlM_add_ok (env : CarpalxEnv) (l : List (Triad × Nat)) (r : Rater) (hr : r.env = env) (r' : Rater) :
    l.foldlM (fun (r : Rater) x => r.add x.1 (x.2 : Rat)) r = (.ok r' : Py Rater) ↔
      ∃ vs, List.Forall₂ (fun x v => env.triadEffort x.1 = .ok v) l vs ∧
        r' = ⟨env, r.absEffort + ((l.zip vs).map fun y => (y.1.2 : Rat) * y.2).sum, r.N + ((l.map Prod.snd).sum : Nat)⟩ := by
  induction l generalizing r with
  | nil =>
    simp only [List.foldlM_nil, pure, Except.pure, Except.ok.injEq, List.forall₂_nil_left_iff]
    constructor
    · rintro rfl; exact ⟨[], rfl, by subst hr; simp⟩
    · rintro ⟨_, rfl, rfl⟩; subst hr; simp
  | cons x l ih =>
    have hadd : ∀ r1, r.add x.1 (x.2 : Rat) = .ok r1 ↔
        ∃ v, r.env.triadEffort x.1 = .ok v ∧ { r with absEffort := r.absEffort + x.2 * v, N := r.N + x.2 } = r1 := by
      intro r1; simp only [Rater.add, bind_ok_iff, Except.ok.injEq]
    simp only [List.foldlM_cons, bind_ok_iff, hadd]
    constructor
    · rintro ⟨r1, ⟨v, hv, rfl⟩, h⟩
      obtain ⟨vs, h1, rfl⟩ := (ih { r with absEffort := r.absEffort + x.2 * v, N := r.N + x.2 } hr).1 h
      rw [hr] at hv
      refine ⟨v :: vs, .cons hv h1, ?_⟩
      simp only [List.zip_cons_cons, List.map_cons, List.sum_cons, Rater.mk.injEq, true_and]
      push_cast
      constructor <;> ring
    · rintro ⟨_, h, rfl⟩
      cases h with
      | @cons _ v _ vs h1 h2 =>
        refine ⟨_, ⟨v, by rw [hr]; exact h1, rfl⟩, (ih { r with absEffort := r.absEffort + x.2 * v, N := r.N + x.2 } hr).2 ⟨vs, h2, ?_⟩⟩
        simp only [List.zip_cons_cons, List.map_cons, List.sum_cons, Rater.mk.injEq, true_and]
        push_cast
        constructor <;> ring

/-- **C107** (effort): the last line is the mean of the efforts of the triads, weighted with their counts; it can be printed
exactly if every triad can be rated. -/
theorem C107_effort (env : CarpalxEnv) (triads : Dict Triad Nat) :
    ((∃ v, prettyEffort env triads = .ok v) ↔ ∀ x ∈ triads, ∃ v, env.triadEffort x.1 = .ok v) ∧
    ∀ (effort : Triad → Rat) (v : Rat), (∀ x ∈ triads, env.triadEffort x.1 = .ok (effort x.1)) →
      prettyEffort env triads = .ok v → MeanEffort effort triads v := by
  constructor
  · simp only [prettyEffort, bind_ok_iff]
    constructor
    · rintro ⟨_, r, h, _⟩ x hx
      obtain ⟨vs, h1, _⟩ := (foldlM_add_ok env triads _ rfl r).1 h
      obtain ⟨v, _, hv⟩ := forall2_mem_left h1 hx
      exact ⟨v, hv⟩
    · intro h
      obtain ⟨vs, hvs⟩ : ∃ vs, List.Forall₂ (fun x v => env.triadEffort x.1 = .ok v) triads vs := by
        induction triads with
        | nil => exact ⟨[], .nil⟩
        | cons x l ih =>
          obtain ⟨v, hv⟩ := h x (by simp)
          obtain ⟨vs, hvs⟩ := ih fun y hy => h y (by simp [hy])
          exact ⟨v :: vs, .cons hv hvs⟩
      exact ⟨_, _, (foldlM_add_ok env triads _ rfl _).2 ⟨vs, hvs, rfl⟩, rfl⟩
  · intro effort v he h
    simp only [prettyEffort, bind_ok_iff, Except.ok.injEq] at h
    obtain ⟨r, h, rfl⟩ := h
    obtain ⟨vs, h1, rfl⟩ := (foldlM_add_ok env triads _ rfl r).1 h
    have hsum : ((List.zip triads vs).map fun y => (y.1.2 : Rat) * y.2).sum = (triads.map fun x => x.2 * effort x.1).sum := by
      clear h
      induction h1 with
      | nil => rfl
      | @cons x w l l' hx _ ih =>
        rw [he x (by simp), Except.ok.injEq] at hx
        simp only [List.zip_cons_cons, List.map_cons, List.sum_cons, hx, ih fun y hy => he y (by simp [hy])]
    simp only [Rater.effort, zero_add, hsum, MeanEffort]
    split
    · next h0 =>
      have h0' : (triads.map Prod.snd).sum = 0 := by exact_mod_cast h0
      refine ⟨?_, fun _ => rfl⟩
      have hz : ∀ x ∈ triads, x.2 = 0 := fun x hx => List.sum_eq_zero_iff.1 h0' _ (List.mem_map.2 ⟨x, hx, rfl⟩)
      rw [zero_mul, eq_comm]
      refine List.sum_eq_zero fun y hy => ?_
      obtain ⟨x, hx, rfl⟩ := List.mem_map.1 hy
      rw [hz x hx]; simp
    · next h0 =>
      exact ⟨div_mul_cancel₀ _ h0, fun h => absurd (by exact_mod_cast h) h0⟩

/-- **C107** (success): with positive counts, everything is printed exactly if each combination has a text that can be
displayed and each triad can be rated. If only the latter fails, everything but the last line has been printed. -/
theorem C107_works (u : UniData) (L : KeyboardLayout) (env : CarpalxEnv) (s : AllStats)
    (hb : ∀ e ∈ s.simple.buttons, 0 < e.2) (hc : ∀ e ∈ s.simple.combinations, 0 < e.2)
    (hh : ∀ h ∈ s.runlen.perHand, ∀ e ∈ h.2, 0 < e.2) (hw : ∀ e ∈ s.words.words, 0 < e.2) :
    ((∃ p, prettyTables u L s = .ok p) ↔ ∀ e ∈ s.simple.combinations, ∃ t, combinationText u L e.1 = .ok t) ∧
    ((∃ r, pretty u L env s = .ok r) ↔ (∀ e ∈ s.simple.combinations, ∃ t, combinationText u L e.1 = .ok t) ∧
      ∀ x ∈ s.triads.triads, ∃ v, env.triadEffort x.1 = .ok v) := by
  have pos : ∀ {κ : Type} (d : List (κ × Nat)), (∀ e ∈ d, 0 < e.2) → d ≠ [] → (d.map Prod.snd).sum ≠ 0 := by
    intro κ d h hne h0
    obtain ⟨e, he⟩ := List.exists_mem_of_ne_nil _ hne
    have := List.sum_eq_zero_iff.1 h0 e.2 (List.mem_map.2 ⟨e, he, rfl⟩)
    have := h e he
    omega
  have hperm : ∀ {κ : Type} (d : List (κ × Nat)), (byCount d).Perm d := fun d => (pySorted_spec _ false d).perm
  have hne : ∀ {κ : Type} (d : List (κ × Nat)), byCount d ≠ [] → d ≠ [] := by
    intro κ d h h'
    have := hperm d
    subst h'
    exact h (List.perm_nil.1 this)
  have key : (∃ p, prettyTables u L s = .ok p) ↔ ∀ e ∈ s.simple.combinations, ∃ t, combinationText u L e.1 = .ok t := by
    simp only [prettyTables, bind_ok_iff]
    constructor
    · rintro ⟨_, _, _, cs, h2, _⟩ e he
      exact ((combinationRows_works ..).1 ⟨cs, h2⟩).2 e ((hperm _).mem_iff.2 he)
    · intro h
      obtain ⟨cs, hcs⟩ := (combinationRows_works u L (s.simple.combinations.map Prod.snd).sum s.simple.combinations.length 0
        (byCount s.simple.combinations)).2 ⟨fun h => pos _ hc (hne _ h), fun e he => h e ((hperm _).mem_iff.1 he)⟩
      obtain ⟨⟨ts, c⟩, ht⟩ := (handTables_works s.runlen.perHand []).2 fun h hm hne => pos _ (hh h hm) hne
      have hcpos : c ≠ [] → (c.map Prod.snd).sum ≠ 0 := by
        refine pos _ (handTables_pos ht (by simp) hh)
      exact ⟨_, _, shareRows_ok.2 ⟨fun h => pos _ hb (hne _ h), rfl⟩, cs, hcs, _, ht, _, shareRows_ok.2 ⟨hcpos, rfl⟩, _,
        shareRows_ok.2 ⟨fun h => pos _ hw (hne _ h), rfl⟩, rfl⟩
  refine ⟨key, ?_⟩
  rw [← key, ← (C107_effort env s.triads.triads).1]
  simp only [pretty, bind_ok_iff]
  constructor
  · rintro ⟨_, p, h1, v, h2, _⟩; exact ⟨⟨p, h1⟩, v, h2⟩
  · rintro ⟨⟨p, h1⟩, v, h2⟩; exact ⟨_, p, h1, v, h2, rfl⟩

end Lulua.Props
