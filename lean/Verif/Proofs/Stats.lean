import Verif.Spec.Stats
import Verif.Py.DictLemmas
import Verif.Proofs.Lists
import Mathlib.Algebra.BigOperators.Group.List.Basic

namespace Lulua
open Spec

/-! ### Stretches -/

theorem stretches_snoc (evs : List Event) :
    ∃ init last, stretches evs = init ++ [last] ∧
      (∀ c, stretches (evs ++ [.skip c]) = init ++ [last, []]) ∧
      (∀ t c, stretches (evs ++ [.typed t c]) = init ++ [last ++ [.typed t c]]) ∧
      ∀ e ∈ last, e ∈ evs := by
  obtain ⟨init, last, h1, h2⟩ := splitOnP_snoc isSkip evs
  refine ⟨init, last, h1, fun c => ?_, fun t c => ?_, ?_⟩
  · have := h2 (.skip c); simpa [isSkip, stretches] using this
  · have := h2 (.typed t c); simpa [isSkip, stretches] using this
  · intro e he
    -- members of the last piece are members of the list
    clear h2
    have key : ∀ (l : List Event) (p : List Event), p ∈ l.splitOnP isSkip → ∀ e ∈ p, e ∈ l := by
      intro l
      induction l with
      | nil => intro p hp e he; simp at hp; subst hp; simp at he
      | cons x l ih =>
        intro p hp e he
        rw [List.splitOnP_cons_eq_if_modifyHead] at hp
        by_cases hx : isSkip x
        · rw [if_pos hx] at hp
          rcases List.mem_cons.1 hp with rfl | hp
          · simp at he
          · exact List.mem_cons_of_mem _ (ih p hp e he)
        · rw [if_neg hx] at hp
          cases hl : l.splitOnP isSkip with
          | nil => rw [hl] at hp; simp at hp
          | cons q qs =>
            rw [hl] at hp
            simp only [List.modifyHead_cons, List.mem_cons] at hp
            rcases hp with rfl | hp
            · rcases List.mem_cons.1 he with rfl | he
              · simp
              · exact List.mem_cons_of_mem _ (ih q (by rw [hl]; simp) e he)
            · exact List.mem_cons_of_mem _ (ih p (by rw [hl]; simp [hp]) e he)
    exact key evs last (by rw [h1]; simp) e he

theorem stretches_nil : stretches [] = [[]] := by simp [stretches]

theorem foldlM_snoc {σ ε β : Type} (f : σ → β → Except ε σ) (s : σ) (l : List β) (b : β) :
    (l ++ [b]).foldlM f s = (l.foldlM f s).bind (fun s => f s b) := by
  induction l generalizing s with
  | nil =>
    change (f s b).bind (fun s => .ok s) = f s b
    cases f s b <;> rfl
  | cons x l ih =>
    simp only [List.cons_append, List.foldlM_cons]
    cases h : f s x with
    | error e => rfl
    | ok s' => exact ih s'

theorem foldlM_nil' {σ ε β : Type} (f : σ → β → Except ε σ) (s : σ) :
    ([] : List β).foldlM f s = .ok s := rfl

/-! ### Simple statistics -/

section Count
variable {κ : Type} [DecidableEq κ]

theorem count_foldl_bump (l : List κ) (d : Dict κ Nat) (k : κ) :
    (l.foldl (fun d b => d.bump b 1) d).count k = d.count k + l.count k := by
  induction l generalizing d with
  | nil => simp
  | cons x l ih =>
    rw [List.foldl_cons, ih, Dict.count_bump, List.count_cons]
    by_cases h : x = k <;> simp [h]; omega

theorem wf_foldl_bump (l : List κ) (d : Dict κ Nat) (wf : d.WF) :
    (l.foldl (fun d b => d.bump b 1) d).WF := by
  induction l generalizing d with
  | nil => exact wf
  | cons x l ih => exact ih _ (Dict.wf_bump wf _ _)

theorem sum_foldl_bump (l : List κ) (d : Dict κ Nat) (wf : d.WF) :
    ((l.foldl (fun d b => d.bump b 1) d).map Prod.snd).sum = (d.map Prod.snd).sum + l.length := by
  induction l generalizing d with
  | nil => simp
  | cons x l ih =>
    rw [List.foldl_cons, ih _ (Dict.wf_bump wf _ _), Dict.sum_values_bump _ wf]
    simp; omega

/-- Sum weighted by a function of the key. -/
theorem wsum_bump (g : κ → Nat) (d : Dict κ Nat) (wf : d.WF) (k : κ) (n : Nat) :
    ((d.bump k n).map (fun p => p.2 * g p.1)).sum = (d.map (fun p => p.2 * g p.1)).sum + n * g k := by
  have h := Dict.sum_set_values d (fun k v => v * g k) wf k (d.count k + n)
  unfold Dict.bump
  unfold Dict.count at h ⊢
  cases hk : d.get? k with
  | none => simp only [hk, Option.getD_none] at h ⊢; simp only [Nat.zero_add, Nat.add_zero] at h ⊢; exact h
  | some w => simp only [hk, Option.getD_some] at h ⊢; rw [Nat.add_mul] at h; generalize w * g k = q at *; omega

end Count

theorem simple_fold (evs : List Event) (s : SimpleStats) (w1 : s.buttons.WF) (w2 : s.combinations.WF)
    (w3 : s.unknown.WF) :
    let r := evs.foldl SimpleStats.process s
    (r.buttons.WF ∧ r.combinations.WF ∧ r.unknown.WF) ∧
    (∀ c, r.combinations.count c = s.combinations.count c + (presses evs).count c) ∧
    (∀ b, r.buttons.count b = s.buttons.count b + ((presses evs).flatMap Comb.iter).count b) ∧
    (∀ ch, r.unknown.count ch = s.unknown.count ch + (skips evs).count ch) ∧
    (r.combinations.map Prod.snd).sum = (s.combinations.map Prod.snd).sum + (presses evs).length ∧
    (r.unknown.map Prod.snd).sum = (s.unknown.map Prod.snd).sum + (skips evs).length ∧
    (r.buttons.map Prod.snd).sum = (s.buttons.map Prod.snd).sum + ((presses evs).flatMap Comb.iter).length ∧
    ∀ g : Comb → Nat, (r.combinations.map (fun p => p.2 * g p.1)).sum =
      (s.combinations.map (fun p => p.2 * g p.1)).sum + ((presses evs).map g).sum := by
  induction evs generalizing s with
  | nil => simp [presses, skips, w1, w2, w3]
  | cons e evs ih =>
    cases e with
    | skip ch =>
      obtain ⟨a1, a2, a3, a4, a5, a6, a7, a8⟩ := ih (s.process (.skip ch)) w1 w2 (Dict.wf_bump w3 _ _)
      refine ⟨a1, a2, a3, ?_, a5, ?_, a7, a8⟩
      · intro c
        rw [List.foldl_cons, a4]
        simp only [SimpleStats.process, skips, List.filterMap_cons, skipped?, Dict.count_bump, List.count_cons,
          beq_iff_eq]
        by_cases h : ch = c <;> simp [h]; omega
      · rw [List.foldl_cons, a6]
        simp only [SimpleStats.process, skips, List.filterMap_cons, skipped?, List.length_cons,
          Dict.sum_values_bump _ w3]
        omega
    | typed t c =>
      obtain ⟨a1, a2, a3, a4, a5, a6, a7, a8⟩ := ih (s.process (.typed t c)) (wf_foldl_bump _ _ w1)
        (Dict.wf_bump w2 _ _) w3
      refine ⟨a1, ?_, ?_, a4, ?_, a6, ?_, ?_⟩
      · intro c'
        rw [List.foldl_cons, a2]
        simp only [SimpleStats.process, presses, List.filterMap_cons, press?, Dict.count_bump, List.count_cons,
          beq_iff_eq]
        by_cases h : c = c' <;> simp [h]; omega
      · intro b
        rw [List.foldl_cons, a3]
        simp only [SimpleStats.process, presses, List.filterMap_cons, press?, count_foldl_bump,
          List.flatMap_cons, List.count_append]
        omega
      · rw [List.foldl_cons, a5]
        simp only [SimpleStats.process, presses, List.filterMap_cons, press?, List.length_cons,
          Dict.sum_values_bump _ w2]
        omega
      · rw [List.foldl_cons, a7]
        simp only [SimpleStats.process, presses, List.filterMap_cons, press?, sum_foldl_bump _ _ w1,
          List.flatMap_cons, List.length_append]
        omega
      · intro g
        rw [List.foldl_cons, a8]
        simp only [SimpleStats.process, presses, List.filterMap_cons, press?, List.map_cons, List.sum_cons,
          wsum_bump g _ w2]
        omega

theorem length_presses_skips (evs : List Event) : (presses evs).length + (skips evs).length = evs.length := by
  induction evs with
  | nil => rfl
  | cons e evs ih =>
    cases e <;> simp only [presses, skips, List.filterMap_cons, press?, skipped?, List.length_cons] at * <;> omega

theorem eventsText_length (g : Comb → Nat) (evs : List Event)
    (h : ∀ t c, Event.typed t c ∈ evs → t.length = g c) :
    (eventsText evs).length = ((presses evs).map g).sum + (skips evs).length := by
  induction evs with
  | nil => rfl
  | cons e evs ih =>
    have ih := ih (fun t c hm => h t c (List.mem_cons_of_mem _ hm))
    cases e with
    | skip c =>
      simp only [eventsText, List.flatMap_cons, eventText, List.length_append, presses, skips,
        List.filterMap_cons, press?, skipped?, List.length_cons, List.length_nil] at *
      omega
    | typed t c =>
      have := h t c (by simp)
      simp only [eventsText, List.flatMap_cons, eventText, List.length_append, presses, skips,
        List.filterMap_cons, press?, skipped?, List.map_cons, List.sum_cons] at *
      omega

/-! ### Triads -/

/-- The last three elements. -/
def last3 {α : Type} (l : List α) : List α := l.drop (l.length - 3)

theorem last3_snoc {α : Type} (l : List α) (x : α) :
    last3 (l ++ [x]) = (if (last3 l ++ [x]).length > 3 then (last3 l ++ [x]).drop 1 else last3 l ++ [x]) := by
  unfold last3
  simp only [List.length_append, List.length_drop, List.length_cons, List.length_nil]
  by_cases h : l.length < 3
  · have e1 : l.length - 3 = 0 := by omega
    have e2 : l.length + (0 + 1) - 3 = 0 := by omega
    rw [e1, e2, if_neg (by omega)]; simp
  · rw [if_pos (by omega), List.drop_append_of_le_length (by omega),
      List.drop_append_of_le_length (by simp; omega), List.drop_drop]
    congr 2
    omega

theorem suffix_iff_last3 {α : Type} {a b c : α} {l : List α} :
    [a, b, c] <:+ l ↔ last3 l = [a, b, c] := by
  constructor
  · rintro ⟨t, rfl⟩
    simp [last3]
  · intro h
    rw [← h]
    exact List.drop_suffix _ _

/-- What a list of events leaves in the triad statistics. -/
theorem triads_fold (ig : List Button) (evs : List Event) (hs : SingleButtons evs) :
    ∃ s, evs.foldlM TriadStats.process ⟨[], [], ig⟩ = .ok s ∧ s.ignored = ig ∧ s.triads.WF ∧
      (∀ init last, stretches evs = init ++ [last] → s.triad = last3 ((presses last).filter (notOn ig))) ∧
      ∀ k, s.triads.count k = triadCount ig evs k := by
  induction evs using List.reverseRecOn with
  | nil =>
    refine ⟨_, rfl, rfl, Dict.wf_nil, ?_, ?_⟩
    · intro init last h
      rw [stretches_nil] at h
      have : last = [] := by
        have := congrArg List.getLast? h; simpa using this.symm
      subst this; rfl
    · intro k
      simp [triadCount, stretches_nil, presses, occurrences]
  | append_singleton evs e ih =>
    obtain ⟨s, h1, h2, h3, h4, h5⟩ := ih (fun t c hm => hs t c (List.mem_append_left _ hm))
    obtain ⟨init, last, g1, g2, g3, _⟩ := stretches_snoc evs
    rw [foldlM_snoc, h1]
    cases e with
    | skip ch =>
      refine ⟨{ s with triad := [] }, rfl, h2, h3, ?_, ?_⟩
      · intro init' last' h
        rw [g2] at h
        have : last' = [] := by
          have := congrArg List.getLast? h; simpa using this.symm
        subst this; rfl
      · intro k
        simp only [h5, triadCount, g1, g2]
        simp [presses, occurrences]
    | typed t c =>
      obtain ⟨b, hb⟩ := hs t c (by simp)
      have ht := h4 init last g1
      have hproc : TriadStats.process s (.typed t c) =
          if b ∈ s.ignored then .ok s else .ok (s.append c).record := by
        simp [TriadStats.process, hb, first, bind, Except.bind, pure, Except.pure]
      have hpress : presses (last ++ [.typed t c]) = presses last ++ [c] := by
        simp [presses, press?]
      have hnot : notOn ig c = decide (b ∉ ig) := by simp [notOn, hb]
      change ∃ s', TriadStats.process s (.typed t c) = .ok s' ∧ _
      rw [hproc, h2]
      by_cases hig : b ∈ ig
      · rw [if_pos hig]
        have hf : ((presses last ++ [c]).filter (notOn ig)) = (presses last).filter (notOn ig) := by
          simp [List.filter_append, hnot, hig]
        refine ⟨s, rfl, h2, h3, ?_, ?_⟩
        · intro init' last' h
          rw [g3] at h
          obtain ⟨_, e2⟩ := List.append_inj' h rfl
          simp only [List.cons.injEq, and_true] at e2
          subst e2
          rw [ht, hpress, hf]
        · intro k
          rw [h5]
          simp only [triadCount, g1, g3, List.map_append, List.sum_append, List.map_cons, List.map_nil,
            hpress, hf]
      · rw [if_neg hig]
        have hf : ((presses last ++ [c]).filter (notOn ig)) = (presses last).filter (notOn ig) ++ [c] := by
          simp [List.filter_append, hnot, hig]
        have htr : (s.append c).triad = last3 ((presses (last ++ [.typed t c])).filter (notOn ig)) := by
          rw [hpress, hf, last3_snoc, ← ht]; rfl
        have happ : (s.append c).triads = s.triads := rfl
        have hkey : ∀ k, (s.append c).record.triads.count k = s.triads.count k +
            if [k.1, k.2.1, k.2.2] <:+ (presses last).filter (notOn ig) ++ [c] then 1 else 0 := by
          intro k
          have hrec : (s.append c).record = match (s.append c).triad with
            | [a, b, c'] => { s.append c with triads := (s.append c).triads.bump (a, b, c') 1 }
            | _ => s.append c := rfl
          rw [hrec]
          rw [hpress, hf] at htr
          simp only [suffix_iff_last3, ← htr]
          split
          · rename_i a b' c' heq
            simp only [happ, Dict.count_bump, heq]
            by_cases hk : (a, b', c') = k
            · subst hk; simp
            · rw [if_neg hk, if_neg]
              intro h
              simp only [List.cons.injEq, and_true] at h
              exact hk (by ext <;> simp [h])
          · rename_i hne
            rw [if_neg, happ]; rfl
            intro h
            exact hne _ _ _ h
        refine ⟨_, rfl, ?_, ?_, ?_, ?_⟩
        · unfold TriadStats.record; split <;> exact h2
        · unfold TriadStats.record
          split
          · exact Dict.wf_bump h3 _ _
          · exact h3
        · intro init' last' h
          rw [g3] at h
          obtain ⟨_, e2⟩ := List.append_inj' h rfl
          simp only [List.cons.injEq, and_true] at e2
          subst e2
          rw [← htr]
          unfold TriadStats.record; split <;> rfl
        · intro k
          rw [hkey, h5]
          simp only [triadCount, g1, g3, List.map_append, List.sum_append, List.map_cons, List.map_nil,
            hpress, hf, List.sum_cons, List.sum_nil, Nat.add_zero]
          rw [occurrences_snoc (by simp)]
          omega

/-! ### Run lengths -/

theorem bumpNested_ok {κ : Type} [DecidableEq κ] {d : Dict κ (Dict Nat Nat)}
    (hall : ∀ k, (d.get? k).isSome) (k : κ) (n : Nat) :
    ∃ d', bumpNested d k n = .ok d' ∧ (∀ k, (d'.get? k).isSome) ∧
      ∀ k' n', recorded d' k' n' = recorded d k' n' + if k = k' ∧ n = n' then 1 else 0 := by
  obtain ⟨inner, hi⟩ := Option.isSome_iff_exists.1 (hall k)
  refine ⟨d.set k (inner.bump n 1), ?_, ?_, ?_⟩
  · simp [bumpNested, Dict.getItem, hi, bind, Except.bind]
  · intro k'
    rw [Dict.get?_set]
    split
    · rfl
    · exact hall k'
  · intro k' n'
    unfold recorded
    rw [Dict.get?_set]
    by_cases h : k = k'
    · subst h
      simp only [if_true, Option.getD_some, hi, Dict.count_bump, true_and]
    · simp [h]

theorem completedRuns_snoc_same {α : Type} [DecidableEq α] {l : List α} {x : α}
    (hx : l.getLast? = some x) : completedRuns (l ++ [x]) = completedRuns l := by
  obtain ⟨init, last, h1, h2⟩ := runs_snoc hx
  unfold completedRuns
  rw [h1, h2 x, if_pos rfl]
  simp

/-- State of the hand counters after the presses of a stretch, with `cur` the length of the
running run. -/
def RunState {α : Type} [DecidableEq α] (l : List α) (last : Option α) (cur : Nat) : Prop :=
  last = l.getLast? ∧ ((l = [] ∧ cur = 0) ∨ ∃ init x, runs l = init ++ [List.replicate cur x])

theorem RunState.snoc_same {α : Type} [DecidableEq α] {l : List α} {x : α} {cur : Nat}
    (h : RunState l (some x) cur) :
    RunState (l ++ [x]) (some x) (cur + 1) ∧ completedRuns (l ++ [x]) = completedRuns l ∧
    ∃ init, runs l = init ++ [List.replicate cur x] ∧ runs (l ++ [x]) = init ++ [List.replicate (cur + 1) x] := by
  obtain ⟨h1, h2⟩ := h
  have hx := h1.symm
  obtain ⟨init, last, e1, e2⟩ := runs_snoc hx
  rcases h2 with ⟨rfl, _⟩ | ⟨init', y, e3⟩
  · simp at hx
  · have e4 : init = init' ∧ last ++ [x] = List.replicate cur y := by
      rw [e1] at e3
      obtain ⟨a, b⟩ := List.append_inj' e3 rfl
      exact ⟨a, by simpa using b⟩
    have hxy : x = y := by
      have : x ∈ List.replicate cur y := by rw [← e4.2]; simp
      exact (List.mem_replicate.1 this).2
    subst hxy
    have e5 : runs (l ++ [x]) = init ++ [List.replicate (cur + 1) x] := by
      rw [e2 x, if_pos rfl, List.replicate_succ', ← e4.2]; simp
    exact ⟨⟨by simp, .inr ⟨init, x, e5⟩⟩, completedRuns_snoc_same hx, init,
      by rw [e1, e4.2], e5⟩

theorem RunState.snoc_diff {α : Type} [DecidableEq α] {l : List α} {x y : α} {cur : Nat}
    (h : RunState l (some x) cur) (hy : x ≠ y) :
    RunState (l ++ [y]) (some y) 1 ∧
    completedRuns (l ++ [y]) = completedRuns l ++ [List.replicate cur x] ∧
    ∃ init, runs l = init ++ [List.replicate cur x] ∧
      runs (l ++ [y]) = init ++ [List.replicate cur x, [y]] := by
  obtain ⟨h1, h2⟩ := h
  have hx := h1.symm
  obtain ⟨init, last, e1, e2⟩ := runs_snoc hx
  rcases h2 with ⟨rfl, _⟩ | ⟨init', z, e3⟩
  · simp at hx
  · have e4 : init = init' ∧ last ++ [x] = List.replicate cur z := by
      rw [e1] at e3
      obtain ⟨a, b⟩ := List.append_inj' e3 rfl
      exact ⟨a, by simpa using b⟩
    have hxz : x = z := by
      have : x ∈ List.replicate cur z := by rw [← e4.2]; simp
      exact (List.mem_replicate.1 this).2
    subst hxz
    have e5 : runs (l ++ [y]) = init ++ [List.replicate cur x, [y]] := by
      rw [e2 y, if_neg hy, e4.2]
    refine ⟨⟨by simp, .inr ⟨init ++ [List.replicate cur x], y, by rw [e5]; simp⟩⟩, ?_, init,
      by rw [e1, e4.2], e5⟩
    unfold completedRuns
    have e6 : init ++ [List.replicate cur x, [y]] = (init ++ [List.replicate cur x]) ++ [[y]] := by simp
    rw [e5, e1, e4.2, e6, List.dropLast_concat, List.dropLast_concat]

theorem RunState.first {α : Type} [DecidableEq α] {l : List α} {cur : Nat} (h : RunState l none cur)
    (y : α) : l = [] ∧ cur = 0 ∧ RunState (l ++ [y]) (some y) 1 := by
  obtain ⟨h1, h2⟩ := h
  have hl : l = [] := List.getLast?_eq_none_iff.1 h1.symm
  subst hl
  refine ⟨rfl, ?_, by simp, .inr ⟨[], y, by simp [runs_singleton]⟩⟩
  rcases h2 with ⟨_, h⟩ | ⟨init, x, h⟩
  · exact h
  · simp [runs, List.splitBy] at h

/-- Pairs of adjacent runs. -/
def adjacent {α : Type} (r : List (List α)) : List (List α × List α) := r.zip r.tail

theorem adjacent_snoc {α : Type} (init : List (List α)) (a b : List α) :
    adjacent (init ++ [a, b]) = adjacent (init ++ [a]) ++ [(a, b)] := by
  induction init with
  | nil => rfl
  | cons x init ih =>
    cases init with
    | nil => rfl
    | cons y init =>
      unfold adjacent at *
      simp only [List.cons_append, List.tail_cons, List.zip_cons_cons] at ih ⊢
      rw [ih]

theorem adjacent_replace {α : Type} (init : List (List α)) (a a' : List α) (P : List α × List α → Bool)
    (h : ∀ x, P (x, a) = P (x, a')) :
    (adjacent (init ++ [a])).countP P = (adjacent (init ++ [a'])).countP P := by
  rcases List.eq_nil_or_concat init with rfl | ⟨init', x, rfl⟩
  · rfl
  · simp only [List.concat_eq_append, List.append_assoc, List.cons_append, List.nil_append]
    rw [adjacent_snoc, adjacent_snoc]
    simp [h]

theorem runlen_fold (hf : HandFinger) (pos : Comb → Direction × Finger) (evs : List Event)
    (hp : Presses hf pos evs) :
    ∃ s, evs.foldlM (RunlenStats.process hf) .init = .ok s ∧
      (∀ h, (s.perHand.get? h).isSome) ∧ (∀ f, (s.fingerDist.get? f).isSome) ∧
      (∀ init last, stretches evs = init ++ [last] →
        RunState ((presses last).map (fun c => (pos c).1)) s.lastHand s.curPerHand ∧
        RunState ((presses last).map pos) s.lastFinger s.fingerRunlen) ∧
      (∀ h n, recorded s.perHand h n = runCount (fun c => (pos c).1) evs h n) ∧
      (∀ f n, recorded s.fingerDist f n = runBefore pos evs f n) := by
  induction evs using List.reverseRecOn with
  | nil =>
    refine ⟨.init, rfl, ?_, ?_, ?_, ?_, ?_⟩
    · intro h; cases h <;> decide
    · rintro ⟨h, f⟩; cases h <;> cases f <;> decide
    · intro init last h
      rw [stretches_nil] at h
      have : last = [] := by
        have := congrArg List.getLast? h; simpa using this.symm
      subst this
      exact ⟨⟨rfl, .inl ⟨rfl, rfl⟩⟩, ⟨rfl, .inl ⟨rfl, rfl⟩⟩⟩
    · intro h n
      have : recorded RunlenStats.init.perHand h n = 0 := by cases h <;> rfl
      rw [this]; simp [runCount, stretches_nil, presses, completedRuns, runs]
    · rintro ⟨h, f⟩ n
      have : recorded RunlenStats.init.fingerDist (h, f) n = 0 := by cases h <;> cases f <;> rfl
      rw [this]; simp [runBefore, stretches_nil, presses, runs]
  | append_singleton evs e ih =>
    obtain ⟨s, h1, h2, h3, h4, h5, h6⟩ := ih (fun t c hm => hp t c (List.mem_append_left _ hm))
    obtain ⟨init, last, g1, g2, g3, _⟩ := stretches_snoc evs
    rw [foldlM_snoc, h1]
    cases e with
    | skip ch =>
      refine ⟨{ s with lastHand := none, curPerHand := 0, lastFinger := none, fingerRunlen := 0 }, rfl,
        h2, h3, ?_, ?_, ?_⟩
      · intro init' last' h
        rw [g2] at h
        have : last' = [] := by
          have := congrArg List.getLast? h; simpa using this.symm
        subst this
        exact ⟨⟨rfl, .inl ⟨rfl, rfl⟩⟩, ⟨rfl, .inl ⟨rfl, rfl⟩⟩⟩
      · intro h n
        rw [h5]
        simp only [runCount, g1, g2]
        simp [presses, completedRuns, runs]
      · intro h n
        rw [h6]
        simp only [runBefore, g1, g2]
        simp [presses, runs]
    | typed t c =>
      obtain ⟨b, hb, hpos⟩ := hp t c (by simp)
      obtain ⟨r1, r2⟩ := h4 init last g1
      have hpress : presses (last ++ [.typed t c]) = presses last ++ [c] := by
        simp [presses, press?]
      change ∃ s', RunlenStats.process hf s (.typed t c) = .ok s' ∧ _
      -- hands
      have handStep : ∃ d cur, (s.flushHand (pos c).1) = .ok { s with perHand := d, curPerHand := cur } ∧
          (∀ h, (Dict.get? d h).isSome) ∧
          RunState ((presses last).map (fun c => (pos c).1) ++ [(pos c).1]) (some (pos c).1)
            (cur + 1) ∧
          ∀ h n, recorded d h n = recorded s.perHand h n +
            ((completedRuns ((presses last).map (fun c => (pos c).1) ++ [(pos c).1])).count (List.replicate n h) -
             (completedRuns ((presses last).map (fun c => (pos c).1))).count (List.replicate n h)) ∧
            (completedRuns ((presses last).map (fun c => (pos c).1))).count (List.replicate n h) ≤
            (completedRuns ((presses last).map (fun c => (pos c).1) ++ [(pos c).1])).count (List.replicate n h) := by
        rcases Option.eq_none_or_eq_some s.lastHand with hl | ⟨x, hl⟩
        · rw [hl] at r1
          obtain ⟨a1, a2, a3⟩ := r1.first (pos c).1
          refine ⟨s.perHand, s.curPerHand, ?_, h2, ?_, ?_⟩
          · rw [RunlenStats.flushHand]; split
            · rfl
            · rename_i y hy; rw [hl] at hy; simp at hy
          · rw [a2]; exact a3
          · intro h n
            rw [a1]; simp [completedRuns, runs, List.splitBy, List.splitBy.loop]
        · rw [hl] at r1
          by_cases hx : x = (pos c).1
          · subst hx
            obtain ⟨a1, a2, _⟩ := r1.snoc_same
            refine ⟨s.perHand, s.curPerHand, ?_, h2, ?_, ?_⟩
            · rw [RunlenStats.flushHand]; split
              · rfl
              · rename_i y hy
                rw [hl] at hy
                rw [if_neg (by simpa using hy)]
            · exact a1
            · intro h n
              rw [a2]; simp
          · obtain ⟨a1, a2, init', a3, _⟩ := r1.snoc_diff hx
            obtain ⟨d, b1, b2, b3⟩ := bumpNested_ok h2 x s.curPerHand
            refine ⟨d, 0, ?_, b2, ?_, ?_⟩
            · rw [RunlenStats.flushHand]; split
              · rename_i hy; rw [hl] at hy; simp at hy
              · rename_i y hy
                rw [hl] at hy
                simp only [Option.some.injEq] at hy
                subst hy
                rw [if_pos (Ne.symm hx), b1]; rfl
            · exact a1
            · intro h n
              have hpos' : 0 < s.curPerHand := by
                have : List.replicate s.curPerHand x ∈ runs ((presses last).map (fun c => (pos c).1)) := by
                  rw [a3]; simp
                obtain ⟨_, m, e⟩ := runs_replicate this
                have := congrArg List.length e
                simp at this; omega
              rw [a2, b3, List.count_append]
              refine ⟨?_, by omega⟩
              have : ([List.replicate s.curPerHand x] : List (List Direction)).count (List.replicate n h)
                  = if x = h ∧ s.curPerHand = n then 1 else 0 := by
                rw [List.count_singleton]
                by_cases hh : x = h ∧ s.curPerHand = n
                · obtain ⟨rfl, rfl⟩ := hh; simp
                · rw [if_neg hh, if_neg]
                  intro heq
                  simp only [beq_iff_eq] at heq
                  apply hh
                  have hlen := congrArg List.length heq
                  simp only [List.length_replicate] at hlen
                  refine ⟨?_, hlen⟩
                  have hm : x ∈ List.replicate n h := by
                    rw [← heq]; simp; omega
                  exact (List.mem_replicate.1 hm).2
              rw [this]; omega
      -- fingers
      have fingerStep : ∀ s' : RunlenStats, s'.lastFinger = s.lastFinger → s'.fingerDist = s.fingerDist →
          s'.fingerRunlen = s.fingerRunlen →
          ∃ d cur, (s'.flushFinger (pos c)) = .ok { s' with fingerDist := d, fingerRunlen := cur } ∧
          (∀ h, (Dict.get? d h).isSome) ∧
          RunState ((presses last).map pos ++ [pos c]) (some (pos c))
            (cur + 1) ∧
          ∀ f n, recorded d f n + (adjacent (runs ((presses last).map pos))).countP (fun p => decide (p.1.length = n ∧ p.2.head? = some f)) =
            recorded s.fingerDist f n +
            (adjacent (runs ((presses last).map pos ++ [pos c]))).countP (fun p => decide (p.1.length = n ∧ p.2.head? = some f)) := by
        intro s' e1 e2 e3
        rcases Option.eq_none_or_eq_some s.lastFinger with hl | ⟨x, hl⟩
        · rw [hl] at r2 e1
          obtain ⟨a1, a2, a3⟩ := r2.first (pos c)
          refine ⟨s'.fingerDist, s'.fingerRunlen, ?_, by rw [e2]; exact h3, ?_, ?_⟩
          · rw [RunlenStats.flushFinger]; split
            · rfl
            · rename_i y hy; rw [e1] at hy; simp at hy
          · rw [e3, a2]; exact a3
          · intro f n
            rw [a1, e2]; simp [adjacent, runs, List.splitBy, List.splitBy.loop]
        · rw [hl] at r2 e1
          by_cases hx : x = pos c
          · subst hx
            obtain ⟨a1, a2, init', a3, a4⟩ := r2.snoc_same
            have hcur : 0 < s.fingerRunlen := by
              have : List.replicate s.fingerRunlen (pos c) ∈ runs ((presses last).map pos) := by
                rw [a3]; simp
              obtain ⟨_, m, e⟩ := runs_replicate this
              have := congrArg List.length e
              simp at this; omega
            refine ⟨s'.fingerDist, s'.fingerRunlen, ?_, by rw [e2]; exact h3, ?_, ?_⟩
            · rw [RunlenStats.flushFinger]; split
              · rfl
              · rename_i y hy
                rw [e1] at hy
                rw [if_neg (by simpa using hy)]
            · rw [e3]; exact a1
            · intro f n
              rw [a3, a4, e2]
              rw [adjacent_replace init' _ (List.replicate (s.fingerRunlen + 1) (pos c))]
              intro x
              have : (List.replicate s.fingerRunlen (pos c)).head? = (List.replicate (s.fingerRunlen + 1) (pos c)).head? := by
                obtain ⟨m, hm⟩ : ∃ m, s.fingerRunlen = m + 1 := ⟨s.fingerRunlen - 1, by omega⟩
                rw [hm]; simp [List.replicate_succ]
              rw [this]
          · obtain ⟨a1, a2, init', a3, a4⟩ := r2.snoc_diff hx
            obtain ⟨d, b1, b2, b3⟩ := bumpNested_ok h3 (pos c) s.fingerRunlen
            refine ⟨d, 0, ?_, b2, ?_, ?_⟩
            · rw [RunlenStats.flushFinger]; split
              · rename_i hy; rw [e1] at hy; simp at hy
              · rename_i y hy
                rw [e1] at hy
                simp only [Option.some.injEq] at hy
                subst hy
                rw [if_pos (Ne.symm hx), e2, e3, b1]; rfl
            · exact a1
            · intro f n
              rw [a3, a4, adjacent_snoc, List.countP_append, b3]
              have : ([(List.replicate s.fingerRunlen x, [pos c])] : List (List (Direction × Finger) × List (Direction × Finger))).countP
                  (fun p => decide (p.1.length = n ∧ p.2.head? = some f)) = if pos c = f ∧ s.fingerRunlen = n then 1 else 0 := by
                simp only [List.countP_cons, List.countP_nil, List.length_replicate, List.head?_cons,
                  Option.some.injEq, decide_eq_true_eq, Nat.zero_add]
                by_cases hh : pos c = f <;> by_cases hn : s.fingerRunlen = n <;> simp [hh, hn]
              rw [this]; omega
      obtain ⟨d, cur, u1, u2, u3, u4⟩ := handStep
      obtain ⟨d', cur', v1, v2, v3, v4⟩ := fingerStep
        { s with perHand := d
                 curPerHand := cur + 1
                 lastHand := some (pos c).1 } rfl rfl rfl
      refine ⟨_, by
        simp only [RunlenStats.process, hb, List.length_cons, List.length_nil, ne_eq, not_true_eq_false,
          if_false, first, hpos, u1, v1, bind, Except.bind, pure, Except.pure, Nat.zero_add]
        rfl, u2, v2, ?_, ?_, ?_⟩
      · intro init' last' h
        rw [g3] at h
        obtain ⟨_, e2⟩ := List.append_inj' h rfl
        simp only [List.cons.injEq, and_true] at e2
        subst e2
        simp only [hpress, List.map_append, List.map_cons, List.map_nil]
        exact ⟨u3, v3⟩
      · intro h n
        obtain ⟨w1, w2⟩ := u4 h n
        change recorded d h n = _
        rw [w1, h5]
        simp only [runCount, g1, g3, List.map_append, List.sum_append, List.map_cons, List.map_nil,
          List.sum_cons, List.sum_nil, hpress]
        omega
      · intro f n
        change recorded d' f n = _
        have w := v4 f n
        rw [h6] at w
        simp only [runBefore, g1, g3, List.map_append, List.sum_append, List.map_cons, List.map_nil,
          List.sum_cons, List.sum_nil, hpress] at w ⊢
        unfold adjacent at w
        omega

/-! ### Words -/

/-- The words completed in a stretch of text and the unfinished one. -/
theorem delimitedWords_snoc (letter : Char → Bool) (text : Text) :
    ∃ ws cur, delimitedWords letter text = ws ∧ (text.splitOnP (fun c => !letter c)).getLast? = some cur ∧
      ∀ c, (letter c → delimitedWords letter (text ++ [c]) = ws ∧
              ((text ++ [c]).splitOnP (fun c => !letter c)).getLast? = some (cur ++ [c])) ∧
           (¬ letter c → delimitedWords letter (text ++ [c]) = (if cur.isEmpty then ws else ws ++ [cur]) ∧
              ((text ++ [c]).splitOnP (fun c => !letter c)).getLast? = some []) := by
  obtain ⟨init, last, h1, h2⟩ := splitOnP_snoc (fun c => !letter c) text
  refine ⟨_, last, rfl, by rw [h1]; simp, fun c => ⟨fun hc => ?_, fun hc => ?_⟩⟩
  · have := h2 c
    simp only [hc, Bool.not_true, Bool.false_eq_true, if_false] at this
    unfold delimitedWords
    rw [this, h1]
    simp
  · have := h2 c
    simp only [Bool.not_eq_true] at hc
    simp only [hc, Bool.not_false, if_true] at this
    have e : init ++ [last, []] = (init ++ [last]) ++ [[]] := by simp
    unfold delimitedWords
    rw [this, h1, e, List.dropLast_concat, List.dropLast_concat, List.filter_append]
    refine ⟨?_, by simp⟩
    by_cases hl : last.isEmpty <;> simp [hl]

theorem words_chars (letter : Char → Bool) (text : Text) (s : WordStats) (pre : Text) (base : Text → Nat)
    (hw : s.words.WF)
    (hcur : (pre.splitOnP (fun c => !letter c)).getLast? = some s.current)
    (hcount : ∀ w, s.words.count w = base w + (delimitedWords letter pre).count w) :
    let s' := text.foldl (WordStats.processChar letter) s
    s'.words.WF ∧ ((pre ++ text).splitOnP (fun c => !letter c)).getLast? = some s'.current ∧
      ∀ w, s'.words.count w = base w + (delimitedWords letter (pre ++ text)).count w := by
  induction text generalizing s pre with
  | nil => simpa using ⟨hw, hcur, hcount⟩
  | cons c text ih =>
    obtain ⟨ws, cur, e1, e2, e3⟩ := delimitedWords_snoc letter pre
    rw [hcur] at e2
    simp only [Option.some.injEq] at e2
    subst e2
    have happ : pre ++ c :: text = (pre ++ [c]) ++ text := by simp
    rw [List.foldl_cons, happ]
    by_cases hc : letter c
    · obtain ⟨f1, f2⟩ := (e3 c).1 hc
      apply ih
      · simp only [WordStats.processChar, hc, if_true]; exact hw
      · rw [f2]; simp [WordStats.processChar, hc]
      · intro w
        rw [f1, ← e1, ← hcount]; simp [WordStats.processChar, hc]
    · obtain ⟨f1, f2⟩ := (e3 c).2 hc
      have hc' : letter c = false := by simpa using hc
      apply ih
      · simp only [WordStats.processChar, hc']
        cases hs : s.current.isEmpty
        · exact Dict.wf_bump hw _ _
        · exact hw
      · rw [f2]
        cases hs : s.current with
        | nil => simp [WordStats.processChar, hc', hs]
        | cons x xs => simp [WordStats.processChar, hc', hs]
      · intro w
        rw [f1]
        cases hs : s.current with
        | nil =>
          simp only [WordStats.processChar, hc', hs, List.isEmpty_nil, if_true, Bool.false_eq_true, if_false]
          rw [hcount, e1]
        | cons x xs =>
          simp only [WordStats.processChar, hc', hs, List.isEmpty_cons, Bool.false_eq_true, if_false]
          rw [Dict.count_bump, hcount, e1, List.count_append, List.count_singleton]
          by_cases h : x :: xs = w
          · subst h; simp; omega
          · rw [if_neg h, if_neg (by simpa using h)]; rfl

theorem words_fold (letter : Char → Bool) (L : KeyboardLayout) (evs : List Event) (ht : TextsOf L evs) :
    ∃ s, evs.foldlM (WordStats.process letter L) .init = .ok s ∧ s.words.WF ∧
      (∀ init last, stretches evs = init ++ [last] →
        ((eventsText last).splitOnP (fun c => !letter c)).getLast? = some s.current) ∧
      ∀ w, s.words.count w = wordCount letter evs w := by
  induction evs using List.reverseRecOn with
  | nil =>
    refine ⟨.init, rfl, Dict.wf_nil, ?_, ?_⟩
    · intro init last h
      rw [stretches_nil] at h
      have : last = [] := by
        have := congrArg List.getLast? h; simpa using this.symm
      subst this; simp [eventsText, WordStats.init]
    · intro w
      simp [wordCount, stretches_nil, eventsText, delimitedWords, WordStats.init]
  | append_singleton evs e ih =>
    obtain ⟨s, h1, h2, h3, h4⟩ := ih (fun t c hm => ht t c (List.mem_append_left _ hm))
    obtain ⟨init, last, g1, g2, g3, _⟩ := stretches_snoc evs
    rw [foldlM_snoc, h1]
    cases e with
    | skip ch =>
      refine ⟨{ s with current := [] }, rfl, h2, ?_, ?_⟩
      · intro init' last' h
        rw [g2] at h
        have : last' = [] := by
          have := congrArg List.getLast? h; simpa using this.symm
        subst this; simp [eventsText]
      · intro w
        rw [h4]
        simp only [wordCount, g1, g2]
        simp [eventsText, delimitedWords]
    | typed t c =>
      have htext := ht t c (by simp)
      have happ : eventsText (last ++ [.typed t c]) = eventsText last ++ t := by
        simp [eventsText, eventText]
      have hbase : ∀ w, s.words.count w =
          (init.map fun s => (delimitedWords letter (eventsText s)).count w).sum +
            (delimitedWords letter (eventsText last)).count w := by
        intro w
        rw [h4]; simp [wordCount, g1]
      obtain ⟨k1, k2, k3⟩ := words_chars letter t s (eventsText last) _ h2 (h3 init last g1) hbase
      refine ⟨t.foldl (WordStats.processChar letter) s, ?_, k1, ?_, ?_⟩
      · simp only [Except.bind, WordStats.process, htext, bind, WordStats.processText]
      · intro init' last' h
        rw [g3] at h
        obtain ⟨_, e2⟩ := List.append_inj' h rfl
        simp only [List.cons.injEq, and_true] at e2
        subst e2
        rw [happ]; exact k2
      · intro w
        rw [k3]
        simp only [wordCount, g3, List.map_append, List.sum_append, List.map_cons, List.map_nil,
          List.sum_cons, List.sum_nil, happ, Nat.add_zero]

end Lulua
