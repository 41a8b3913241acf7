import Verif.Props.Stats

/-!
# C24 continued: merging statistics while a text is processed

`apply` of `lulua/text.py` merges into fresh statistics only, but nothing in `update` says so. Whatever is merged in the
middle of a text must not disturb the run, triad or word that is in progress.
-/

namespace Lulua.Props
open Lulua Spec

/-- `r` is in the middle of the same run, triad and word as `s`, and has the counts of `s` and `o` together. -/
structure Ahead (o s r : AllStats) : Prop where
  buttons : ∀ b, r.simple.buttons.count b = s.simple.buttons.count b + o.simple.buttons.count b
  combinations : ∀ c, r.simple.combinations.count c = s.simple.combinations.count c + o.simple.combinations.count c
  unknown : ∀ c, r.simple.unknown.count c = s.simple.unknown.count c + o.simple.unknown.count c
  runlen : { r.runlen with perHand := [] } = { s.runlen with perHand := [] }
  hands : ∀ h, (s.runlen.perHand.get? h).isSome ∧ (r.runlen.perHand.get? h).isSome
  lengths : ∀ h n, recorded r.runlen.perHand h n = recorded s.runlen.perHand h n + recorded o.runlen.perHand h n
  triad : r.triads.triad = s.triads.triad ∧ r.triads.ignored = s.triads.ignored
  triads : ∀ t, r.triads.triads.count t = s.triads.triads.count t + o.triads.triads.count t
  current : r.words.current = s.words.current
  words : ∀ w, r.words.words.count w = s.words.words.count w + o.words.words.count w

theorem count_updateCounts {κ : Type} [DecidableEq κ] (a b : Dict κ Nat) (hb : b.WF) (k : κ) :
    (updateCounts a b).count k = a.count k + b.count k := by
  unfold Dict.count
  rw [updateCounts_get? a b hb k]
  cases a.get? k <;> cases b.get? k <;> simp [addOpt]

theorem recorded_updateNested {a b : Dict Direction (Dict Nat Nat)} (hb : b.WF)
    (hd : ∀ h d, b.get? h = some d → d.WF) (h : Direction) (n : Nat) :
    recorded (updateNested a b) h n = recorded a h n + recorded b h n := by
  unfold recorded
  rw [updateNested_get? a b hb h]
  cases ha : a.get? h <;> cases hb' : b.get? h <;> simp
  rw [count_updateCounts _ _ (hd h _ hb')]

theorem ahead_update {s o : AllStats} (hs : StatsOk s) (ho : StatsOk o) : Ahead o s (s.update o) := by
  refine ⟨fun _ => count_updateCounts _ _ ho.buttons _, fun _ => count_updateCounts _ _ ho.combinations _,
    fun _ => count_updateCounts _ _ ho.unknown _, rfl, fun h => ⟨hs.hands h, ?_⟩,
    fun h n => recorded_updateNested ho.perHand ho.lengths h n, ⟨rfl, rfl⟩,
    fun _ => count_updateCounts _ _ ho.triads _, rfl, fun _ => count_updateCounts _ _ ho.words _⟩
  exact (statsOk_update hs ho).hands h

theorem foldl_bump_count (bs : List Button) (d : Dict Button Nat) (b : Button) :
    (bs.foldl (fun d b => d.bump b 1) d).count b = d.count b + bs.count b := by
  induction bs generalizing d with
  | nil => simp
  | cons x bs ih =>
    rw [List.foldl_cons, ih, Dict.count_bump, List.count_cons]
    by_cases h : x = b <;> simp [h] <;> omega

theorem ahead_simple {o s r : AllStats} (h : Ahead o s r) (ev : Event) :
    (∀ b, (r.simple.process ev).buttons.count b = (s.simple.process ev).buttons.count b + o.simple.buttons.count b) ∧
    (∀ c, (r.simple.process ev).combinations.count c =
      (s.simple.process ev).combinations.count c + o.simple.combinations.count c) ∧
    (∀ c, (r.simple.process ev).unknown.count c = (s.simple.process ev).unknown.count c + o.simple.unknown.count c) := by
  have h1 := h.buttons
  have h2 := h.combinations
  have h3 := h.unknown
  cases ev with
  | skip c =>
    refine ⟨h1, h2, fun x => ?_⟩
    simp only [SimpleStats.process, Dict.count_bump, h3]
    omega
  | typed t c =>
    refine ⟨fun b => ?_, fun x => ?_, h3⟩
    · simp only [SimpleStats.process, foldl_bump_count, h1]
      omega
    · simp only [SimpleStats.process, Dict.count_bump, h2]
      omega

/-- `p` has all hands and the counts of `q` and `x` together. -/
def NestedAhead (x q p : Dict Direction (Dict Nat Nat)) : Prop :=
  (∀ h, (q.get? h).isSome ∧ (p.get? h).isSome) ∧ ∀ h n, recorded p h n = recorded q h n + recorded x h n

theorem flushHand_ahead {x p : Dict Direction (Dict Nat Nat)} {s : RunlenStats} (h : NestedAhead x s.perHand p)
    (d : Direction) : ∃ s' p', s.flushHand d = .ok s' ∧
      ({ s with perHand := p } : RunlenStats).flushHand d = .ok { s' with perHand := p' } ∧ NestedAhead x s'.perHand p' := by
  obtain ⟨lh, q, n, lf, fd, m⟩ := s
  unfold RunlenStats.flushHand
  cases lh with
  | none => exact ⟨_, p, rfl, rfl, h⟩
  | some d' =>
    by_cases hd : d ≠ d'
    · obtain ⟨q1, h1, h2, h3⟩ := bumpNested_ok (fun k => (h.1 k).1) d' n
      obtain ⟨p1, h4, h5, h6⟩ := bumpNested_ok (fun k => (h.1 k).2) d' n
      refine ⟨_, p1, by simp only [if_pos hd, h1, bind, Except.bind]; rfl,
        by simp only [if_pos hd, h4, bind, Except.bind], fun k => ⟨h2 k, h5 k⟩, fun k n => ?_⟩
      rw [h6, h3, h.2]
      omega
    · exact ⟨_, p, if_neg hd, if_neg hd, h⟩

theorem flushFinger_ahead {p : Dict Direction (Dict Nat Nat)} (s : RunlenStats) (f : Direction × Finger) :
    (∃ e, s.flushFinger f = .error e ∧ ({ s with perHand := p } : RunlenStats).flushFinger f = .error e) ∨
    ∃ s', s.flushFinger f = .ok s' ∧ s'.perHand = s.perHand ∧
      ({ s with perHand := p } : RunlenStats).flushFinger f = .ok { s' with perHand := p } := by
  obtain ⟨lh, q, n, lf, fd, m⟩ := s
  unfold RunlenStats.flushFinger
  cases lf with
  | none => exact .inr ⟨_, rfl, rfl, rfl⟩
  | some f' =>
    by_cases hd : f ≠ f'
    · cases hb : bumpNested fd f m with
      | error e =>
        exact .inl ⟨e, by simp only [if_pos hd, hb, bind, Except.bind], by simp only [if_pos hd, hb, bind, Except.bind]⟩
      | ok d => exact .inr ⟨⟨lh, q, n, some f', d, 0⟩, by simp only [if_pos hd, hb, bind, Except.bind],
          rfl, by simp only [if_pos hd, hb, bind, Except.bind]⟩
    · exact .inr ⟨_, if_neg hd, rfl, if_neg hd⟩

theorem runlen_ahead (hf : HandFinger) {x p : Dict Direction (Dict Nat Nat)} {s : RunlenStats}
    (h : NestedAhead x s.perHand p) (ev : Event) :
    (∃ e, s.process hf ev = .error e ∧ ({ s with perHand := p } : RunlenStats).process hf ev = .error e) ∨
    ∃ s' p', s.process hf ev = .ok s' ∧
      ({ s with perHand := p } : RunlenStats).process hf ev = .ok { s' with perHand := p' } ∧
      NestedAhead x s'.perHand p' := by
  cases ev with
  | skip c => exact .inr ⟨_, p, rfl, rfl, h⟩
  | typed t c =>
    unfold RunlenStats.process
    by_cases hb : c.buttons.length ≠ 1
    · exact .inl ⟨.assertionError, by simp [hb, bind, Except.bind], by simp [hb, bind, Except.bind]⟩
    · cases hb1 : first c.buttons with
      | error e => exact .inl ⟨e, by simp [hb, hb1, bind, Except.bind, pure, Except.pure],
          by simp [hb, hb1, bind, Except.bind, pure, Except.pure]⟩
      | ok b =>
        cases hpos : hf b with
        | error e => exact .inl ⟨e, by simp [hb, hb1, hpos, bind, Except.bind, pure, Except.pure],
            by simp [hb, hb1, hpos, bind, Except.bind, pure, Except.pure]⟩
        | ok pos =>
          obtain ⟨s1, p1, h1, h2, h3⟩ := flushHand_ahead h pos.1
          rcases flushFinger_ahead (p := p1) { s1 with curPerHand := s1.curPerHand + 1, lastHand := some pos.1 } pos with
            ⟨e, h4, h5⟩ | ⟨s2, h4, h5, h6⟩
          · exact .inl ⟨e, by simp [hb, hb1, hpos, h1, h4, bind, Except.bind, pure, Except.pure],
              by simp [hb, hb1, hpos, h2, h5, bind, Except.bind, pure, Except.pure]⟩
          · refine .inr ⟨{ s2 with fingerRunlen := s2.fingerRunlen + 1, lastFinger := some pos }, p1,
              by simp [hb, hb1, hpos, h1, h4, bind, Except.bind, pure, Except.pure],
              by simp [hb, hb1, hpos, h2, h6, bind, Except.bind, pure, Except.pure], ?_⟩
            show NestedAhead x s2.perHand p1
            rw [h5]
            exact h3

theorem triads_ahead {x p : Dict Triad Nat} {s : TriadStats}
    (h : ∀ t, p.count t = s.triads.count t + x.count t) (ev : Event) :
    (∃ e, s.process ev = .error e ∧ ({ s with triads := p } : TriadStats).process ev = .error e) ∨
    ∃ s' p', s.process ev = .ok s' ∧ ({ s with triads := p } : TriadStats).process ev = .ok { s' with triads := p' } ∧
      ∀ t, p'.count t = s'.triads.count t + x.count t := by
  cases ev with
  | skip c => exact .inr ⟨_, p, rfl, rfl, h⟩
  | typed t c =>
    unfold TriadStats.process
    by_cases hb : c.buttons.length ≠ 1
    · exact .inl ⟨.assertionError, by simp [hb, bind, Except.bind], by simp [hb, bind, Except.bind]⟩
    · cases hb1 : first c.buttons with
      | error e => exact .inl ⟨e, by simp [hb, hb1, bind, Except.bind, pure, Except.pure],
          by simp [hb, hb1, bind, Except.bind, pure, Except.pure]⟩
      | ok b =>
        right
        by_cases hi : b ∈ s.ignored
        · exact ⟨s, p, by simp [hb, hb1, hi, bind, Except.bind, pure, Except.pure],
            by simp [hb, hb1, hi, bind, Except.bind, pure, Except.pure], h⟩
        · have e : ∃ p', (({ s with triads := p } : TriadStats).append c).record = { (s.append c).record with triads := p' } ∧
              ∀ t, p'.count t = (s.append c).record.triads.count t + x.count t := by
            unfold TriadStats.append TriadStats.record
            simp only
            split
            · refine ⟨_, rfl, fun t => ?_⟩
              simp only [Dict.count_bump, h]
              omega
            · exact ⟨p, rfl, h⟩
          obtain ⟨p', h1, h2⟩ := e
          exact ⟨(s.append c).record, p', by simp [hb, hb1, hi, bind, Except.bind, pure, Except.pure],
            by simp [hb, hb1, hi, h1, bind, Except.bind, pure, Except.pure], h2⟩

theorem processChar_ahead (letter : Char → Bool) {x p : Dict Text Nat} {s : WordStats}
    (h : ∀ w, p.count w = s.words.count w + x.count w) (c : Char) :
    ∃ p', ({ s with words := p } : WordStats).processChar letter c = { s.processChar letter c with words := p' } ∧
      ∀ w, p'.count w = (s.processChar letter c).words.count w + x.count w := by
  unfold WordStats.processChar
  by_cases h1 : letter c
  · simp only [h1, if_true]; exact ⟨p, rfl, h⟩
  · by_cases h2 : s.current.isEmpty
    · simp only [h1, h2, if_true]; exact ⟨p, rfl, h⟩
    · simp only [h1, h2, Bool.false_eq_true, if_false]
      refine ⟨_, rfl, fun w => ?_⟩
      simp only [Dict.count_bump, h]
      omega

theorem words_ahead (letter : Char → Bool) (L : KeyboardLayout) {x p : Dict Text Nat} {s : WordStats}
    (h : ∀ w, p.count w = s.words.count w + x.count w) (ev : Event) :
    (∃ e, s.process letter L ev = .error e ∧ ({ s with words := p } : WordStats).process letter L ev = .error e) ∨
    ∃ s' p', s.process letter L ev = .ok s' ∧
      ({ s with words := p } : WordStats).process letter L ev = .ok { s' with words := p' } ∧
      ∀ w, p'.count w = s'.words.count w + x.count w := by
  cases ev with
  | skip c => exact .inr ⟨_, p, rfl, rfl, h⟩
  | typed t c =>
    unfold WordStats.process
    cases hg : L.getText c with
    | error e => exact .inl ⟨e, by simp [hg, bind, Except.bind], by simp [hg, bind, Except.bind]⟩
    | ok v =>
      cases v with
      | other n => exact .inl ⟨.typeError, by simp [hg, bind, Except.bind, WordStats.processText],
          by simp [hg, bind, Except.bind, WordStats.processText]⟩
      | str t =>
        right
        have key : ∀ (t : Text) (s : WordStats) (p : Dict Text Nat), (∀ w, p.count w = s.words.count w + x.count w) →
            ∃ p', t.foldl (WordStats.processChar letter) { s with words := p } =
              { t.foldl (WordStats.processChar letter) s with words := p' } ∧
              ∀ w, p'.count w = (t.foldl (WordStats.processChar letter) s).words.count w + x.count w := by
          intro t
          induction t with
          | nil => exact fun s p h => ⟨p, rfl, h⟩
          | cons c t ih =>
            intro s p h
            obtain ⟨p1, h1, h2⟩ := processChar_ahead letter h c
            rw [List.foldl_cons, List.foldl_cons, h1]
            exact ih _ p1 h2
        obtain ⟨p', h1, h2⟩ := key t s p h
        exact ⟨_, p', by simp only [hg, bind, Except.bind, WordStats.processText],
          by simp only [hg, bind, Except.bind, WordStats.processText, h1], h2⟩

theorem ahead_process (hf : HandFinger) (letter : Char → Bool) (L : KeyboardLayout) {o s r : AllStats} (h : Ahead o s r)
    (ev : Event) : (∃ e, s.process hf letter L ev = .error e ∧ r.process hf letter L ev = .error e) ∨
    ∃ s' r', s.process hf letter L ev = .ok s' ∧ r.process hf letter L ev = .ok r' ∧ Ahead o s' r' := by
  have hr : r.runlen = { s.runlen with perHand := r.runlen.perHand } := by
    have := h.runlen
    simp only [RunlenStats.mk.injEq] at this
    obtain ⟨a, _, b, c, d, e⟩ := this
    cases hx : r.runlen
    simp_all
  have ht : r.triads = { s.triads with triads := r.triads.triads } := by
    have := h.triad
    cases hx : r.triads
    simp_all
  have hw : r.words = { s.words with words := r.words.words } := by
    have := h.current
    cases hx : r.words
    simp_all
  unfold AllStats.process
  rw [hr, ht, hw]
  rcases runlen_ahead hf (p := r.runlen.perHand) ⟨h.hands, h.lengths⟩ ev with ⟨e, h1, h2⟩ | ⟨s1, p1, h1, h2, h3⟩
  · exact .inl ⟨e, by simp only [h1, bind, Except.bind], by simp only [h2, bind, Except.bind]⟩
  rcases triads_ahead (p := r.triads.triads) h.triads ev with ⟨e, h4, h5⟩ | ⟨s2, p2, h4, h5, h6⟩
  · exact .inl ⟨e, by simp only [h1, h4, bind, Except.bind], by simp only [h2, h5, bind, Except.bind]⟩
  rcases words_ahead letter L (p := r.words.words) h.words ev with ⟨e, h7, h8⟩ | ⟨s3, p3, h7, h8, h9⟩
  · exact .inl ⟨e, by simp only [h1, h4, h7, bind, Except.bind], by simp only [h2, h5, h8, bind, Except.bind]⟩
  obtain ⟨a, b, c⟩ := ahead_simple h ev
  exact .inr ⟨⟨s.simple.process ev, s1, s2, s3⟩,
    ⟨r.simple.process ev, { s1 with perHand := p1 }, { s2 with triads := p2 }, { s3 with words := p3 }⟩,
    by simp only [h1, h4, h7, bind, Except.bind], by simp only [h2, h5, h8, bind, Except.bind],
    ⟨a, b, c, rfl, h3.1, h3.2, ⟨rfl, rfl⟩, h6, rfl, h9⟩⟩

/-- **C24** (merging in the middle of a text): it makes no difference whether statistics are merged before or after the
rest of a text is processed. The same exceptions are raised, and all counts are the same. -/
theorem C24_continue (hf : HandFinger) (letter : Char → Bool) (L : KeyboardLayout) (s o : AllStats) (hs : StatsOk s)
    (ho : StatsOk o) (evs : List Event) :
    (∀ e, AllStats.processAll hf letter L s evs = .error e ↔ AllStats.processAll hf letter L (s.update o) evs = .error e) ∧
    ∀ s', AllStats.processAll hf letter L s evs = .ok s' →
      ∃ r, AllStats.processAll hf letter L (s.update o) evs = .ok r ∧
      (∀ b, r.simple.buttons.count b = s'.simple.buttons.count b + o.simple.buttons.count b) ∧
      (∀ c, r.simple.combinations.count c = s'.simple.combinations.count c + o.simple.combinations.count c) ∧
      (∀ c, r.simple.unknown.count c = s'.simple.unknown.count c + o.simple.unknown.count c) ∧
      (∀ h n, recorded r.runlen.perHand h n = recorded s'.runlen.perHand h n + recorded o.runlen.perHand h n) ∧
      (∀ f n, recorded r.runlen.fingerDist f n = recorded s'.runlen.fingerDist f n) ∧
      (∀ t, r.triads.triads.count t = s'.triads.triads.count t + o.triads.triads.count t) ∧
      (∀ w, r.words.words.count w = s'.words.words.count w + o.words.words.count w) := by
  have key : ∀ (evs : List Event) (s r : AllStats), Ahead o s r →
      (∃ e, AllStats.processAll hf letter L s evs = .error e ∧ AllStats.processAll hf letter L r evs = .error e) ∨
      ∃ s' r', AllStats.processAll hf letter L s evs = .ok s' ∧ AllStats.processAll hf letter L r evs = .ok r' ∧
        Ahead o s' r' := by
    intro evs
    induction evs with
    | nil => exact fun s r h => .inr ⟨s, r, rfl, rfl, h⟩
    | cons ev evs ih =>
      intro s r h
      rw [AllStats.processAll, AllStats.processAll]
      rcases ahead_process hf letter L h ev with ⟨e, h1, h2⟩ | ⟨s1, r1, h1, h2, h3⟩
      · exact .inl ⟨e, by simp only [h1, bind, Except.bind], by simp only [h2, bind, Except.bind]⟩
      · simp only [h1, h2, bind, Except.bind]
        exact ih s1 r1 h3
  rcases key evs s (s.update o) (ahead_update hs ho) with ⟨e, h1, h2⟩ | ⟨s1, r1, h1, h2, h3⟩
  · refine ⟨fun e' => by rw [h1, h2], fun s' h => ?_⟩
    rw [h1] at h; cases h
  · refine ⟨fun e' => by simp [h1, h2], fun s' h => ?_⟩
    rw [h1] at h
    cases h
    have hfd : r1.runlen.fingerDist = s1.runlen.fingerDist := by
      have := h3.runlen
      simp only [RunlenStats.mk.injEq] at this
      exact this.2.2.2.2.1
    exact ⟨r1, h2, h3.buttons, h3.combinations, h3.unknown, h3.lengths, fun f n => by rw [hfd], h3.triads, h3.words⟩

/-- A word that is interrupted by merging another file is counted once. -/
example : ((demoFile "aab").bind fun a => (demoFile "xab aA aaA ").bind fun b =>
    (AllStats.processAll demoHf demoLetter demoLayout (a.update b) (typeText demoHf demoLayout none "A ".toList).1).map
      fun r => r.words.words) = .ok [("ab".toList, 1), ("aA".toList, 1), ("aaA".toList, 1), ("aabA".toList, 1)] := by
  decide +kernel

end Lulua.Props
