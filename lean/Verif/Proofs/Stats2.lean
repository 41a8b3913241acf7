import Verif.Proofs.Merge
import Verif.Proofs.Writer

namespace Lulua
open Spec

/-! ### Events of a typed text -/

theorem typed_producer {hf : HandFinger} {name : String} {layers : List Layer} {kb : PhysicalKeyboard}
    {last : Option Comb} {text m : Text} {c : Comb}
    (h : Event.typed m c ∈ (typeText hf (KeyboardLayout.mk' name layers kb) last text).1) :
    c ∈ producers layers m := by
  obtain ⟨pre, post, h⟩ := List.append_of_mem h
  rw [typeText_eq] at h
  obtain ⟨fuel', w', _, _, h'⟩ := absLoop_split h
  rcases absLoop_cases hf (KeyboardLayout.mk' name layers kb) fuel' w' (lastAfter last pre) with
    ⟨_, h1⟩ | ⟨m', comb, hm, _, h1⟩ | ⟨c', cs, rfl, hm, _, h1⟩ | ⟨e, _, _, _, h1⟩
  · rw [h1] at h'; simp at h'
  · rw [h1] at h'
    simp only [List.cons.injEq, Event.typed.injEq] at h'
    obtain ⟨⟨rfl, rfl⟩, _⟩ := h'
    exact (typed_head hm).2.2
  · rw [h1] at h'; simp at h'
  · rw [h1] at h'; simp at h'

theorem typed_singleButtons (hf : HandFinger) (name : String) (layers : List Layer) (kb : PhysicalKeyboard)
    (last : Option Comb) (text : Text) :
    SingleButtons (typeText hf (KeyboardLayout.mk' name layers kb) last text).1 := by
  intro t c h
  obtain ⟨m, b, rfl, _⟩ := mem_producers.1 (typed_producer h)
  exact ⟨b, rfl⟩

theorem typed_presses {hf : HandFinger} {layers : List Layer} (hF : Fingered hf layers) (name : String)
    (kb : PhysicalKeyboard) (last : Option Comb) (text : Text) :
    ∃ pos, Presses hf pos (typeText hf (KeyboardLayout.mk' name layers kb) last text).1 := by
  refine ⟨fun c => match c.buttons with
    | [] => (.left, .little)
    | b :: _ => match hf b with
      | .ok p => p
      | .error _ => (.left, .little), ?_⟩
  intro t c h
  obtain ⟨m, b, rfl, l, hl, _, hb⟩ := mem_producers.1 (typed_producer h)
  obtain ⟨p, hp⟩ := (hF l hl).2 _ hb
  exact ⟨b, rfl, by simp [hp]⟩

/-! ### Counters only hold positive counts -/

section Pos
variable {κ : Type} [DecidableEq κ]

/-- No key with count zero. -/
def NoZero (d : Dict κ Nat) : Prop := ∀ k, d.get? k ≠ some 0

theorem NoZero.bump {d : Dict κ Nat} (h : NoZero d) (k : κ) : NoZero (d.bump k 1) := by
  intro k'
  unfold Dict.bump
  rw [Dict.get?_set]
  split
  · simp
  · exact h k'

theorem NoZero.foldl_bump {d : Dict κ Nat} (h : NoZero d) (l : List κ) :
    NoZero (l.foldl (fun d b => d.bump b 1) d) := by
  induction l generalizing d with
  | nil => exact h
  | cons x l ih => exact ih (h.bump x)

theorem NoZero.keys {d : Dict κ Nat} (h : NoZero d) (k : κ) : k ∈ d.keys ↔ 0 < d.count k := by
  unfold Dict.keys Dict.count
  rw [← Dict.get?_isSome_iff]
  have := h k
  cases hk : d.get? k with
  | none => simp
  | some v => rw [hk] at this; simp only [ne_eq, Option.some.injEq] at this; simp; omega

end Pos

theorem simple_noZero (evs : List Event) (s : SimpleStats) (h : NoZero s.buttons ∧ NoZero s.combinations ∧ NoZero s.unknown) :
    let r := evs.foldl SimpleStats.process s
    NoZero r.buttons ∧ NoZero r.combinations ∧ NoZero r.unknown := by
  induction evs generalizing s with
  | nil => exact h
  | cons e evs ih =>
    rw [List.foldl_cons]
    apply ih
    cases e with
    | skip c => exact ⟨h.1, h.2.1, h.2.2.bump c⟩
    | typed t c => exact ⟨h.1.foldl_bump _, h.2.1.bump c, h.2.2⟩

theorem count_flatMap_nodup (l : List Comb) (hn : ∀ c ∈ l, c.iter.Nodup) (b : Button) :
    (l.flatMap Comb.iter).count b = l.countP (fun c => decide (b ∈ c.modifier ∨ b ∈ c.buttons)) := by
  induction l with
  | nil => rfl
  | cons c l ih =>
    rw [List.flatMap_cons, List.count_append, ih (fun c hc => hn c (by simp [hc])), List.countP_cons,
      List.Nodup.count (hn c (by simp))]
    have e : b ∈ c.iter ↔ (b ∈ c.modifier ∨ b ∈ c.buttons) := by simp [Comb.iter]
    by_cases hb : b ∈ c.modifier ∨ b ∈ c.buttons
    · simp only [e, hb, if_true, decide_true]; omega
    · simp only [e, hb, if_false, decide_false]; simp

theorem mem_presses {evs : List Event} {c : Comb} : c ∈ presses evs ↔ ∃ t, Event.typed t c ∈ evs := by
  unfold presses
  rw [List.mem_filterMap]
  constructor
  · rintro ⟨e, he, h⟩
    cases e with
    | skip x => simp [press?] at h
    | typed t c' => simp only [press?, Option.some.injEq] at h; exact ⟨t, h ▸ he⟩
  · rintro ⟨t, h⟩
    exact ⟨_, h, rfl⟩

/-! ### All statistics together -/

theorem processAll_ok_iff (hf : HandFinger) (letter : Char → Bool) (L : KeyboardLayout) (evs : List Event)
    (s r : AllStats) :
    AllStats.processAll hf letter L s evs = .ok r ↔
      r.simple = evs.foldl SimpleStats.process s.simple ∧
      evs.foldlM (RunlenStats.process hf) s.runlen = .ok r.runlen ∧
      evs.foldlM TriadStats.process s.triads = .ok r.triads ∧
      evs.foldlM (WordStats.process letter L) s.words = .ok r.words := by
  induction evs generalizing s with
  | nil =>
    simp only [AllStats.processAll, List.foldl_nil, foldlM_nil', Except.ok.injEq]
    constructor
    · rintro rfl; exact ⟨rfl, rfl, rfl, rfl⟩
    · rintro ⟨h1, h2, h3, h4⟩
      cases s; cases r; simp_all
  | cons e evs ih =>
    simp only [AllStats.processAll, AllStats.process, List.foldl_cons, List.foldlM_cons]
    cases h1 : s.runlen.process hf e with
    | error x => simp [bind, Except.bind]
    | ok a =>
      cases h2 : s.triads.process e with
      | error x => simp [bind, Except.bind]
      | ok b =>
        cases h3 : s.words.process letter L e with
        | error x => simp [bind, Except.bind]
        | ok c =>
          simp only [bind, Except.bind]
          rw [ih]

theorem bumpNested_wf {κ : Type} [DecidableEq κ] {d d' : Dict κ (Dict Nat Nat)} {k : κ} {n : Nat}
    (h : bumpNested d k n = .ok d') (wf : d.WF) (wfi : ∀ k x, d.get? k = some x → x.WF) :
    d'.WF ∧ (∀ k x, d'.get? k = some x → x.WF) ∧ ∀ k, (d.get? k).isSome → (d'.get? k).isSome := by
  unfold bumpNested Dict.getItem at h
  cases hk : d.get? k with
  | none => simp [hk, bind, Except.bind] at h
  | some x =>
    simp only [hk, bind, Except.bind, Except.ok.injEq] at h
    subst h
    refine ⟨Dict.wf_set wf _ _, ?_, ?_⟩
    · intro k' y hy
      rw [Dict.get?_set] at hy
      split at hy
      · simp only [Option.some.injEq] at hy; subst hy; exact Dict.wf_bump (wfi k x hk) _ _
      · exact wfi k' y hy
    · intro k' h'
      rw [Dict.get?_set]
      split
      · rfl
      · exact h'

/-- What is needed of the run length statistics for combining. -/
def RunlenOk (s : RunlenStats) : Prop :=
  (∀ h, (s.perHand.get? h).isSome) ∧ s.perHand.WF ∧ ∀ h d, s.perHand.get? h = some d → d.WF

theorem runlenOk_process {hf : HandFinger} {s s' : RunlenStats} {e : Event} (h : s.process hf e = .ok s')
    (ok : RunlenOk s) : RunlenOk s' := by
  cases e with
  | skip c => simp only [RunlenStats.process, Except.ok.injEq] at h; subst h; exact ok
  | typed t c =>
    simp only [RunlenStats.process, bind, Except.bind] at h
    split at h
    · simp at h
    · cases hb : first c.buttons with
      | error x => simp [hb] at h
      | ok b =>
        simp only [hb] at h
        cases hp : hf b with
        | error x => simp [hp] at h
        | ok p =>
          simp only [hp] at h
          cases hfl : s.flushHand p.1 with
          | error x => simp [hfl] at h
          | ok s1 =>
            simp only [hfl] at h
            have ok1 : RunlenOk s1 := by
              unfold RunlenStats.flushHand at hfl
              rcases Option.eq_none_or_eq_some s.lastHand with hl | ⟨x, hl⟩
              · simp only [hl, Except.ok.injEq] at hfl; subst hfl; exact ok
              · simp only [hl] at hfl
                split at hfl
                · cases hbn : bumpNested s.perHand x s.curPerHand with
                  | error y => simp [hbn, bind, Except.bind] at hfl
                  | ok d =>
                    simp only [hbn, bind, Except.bind, Except.ok.injEq] at hfl
                    subst hfl
                    obtain ⟨w1, w2, w3⟩ := bumpNested_wf hbn ok.2.1 ok.2.2
                    exact ⟨fun h => w3 h (ok.1 h), w1, w2⟩
                · simp only [Except.ok.injEq] at hfl; subst hfl; exact ok
            cases hff : RunlenStats.flushFinger { s1 with curPerHand := s1.curPerHand + 1, lastHand := some p.1 } p with
            | error x => simp [hff] at h
            | ok s2 =>
              simp only [hff, Except.ok.injEq] at h
              subst h
              have : s2.perHand = s1.perHand := by
                unfold RunlenStats.flushFinger at hff
                simp only at hff
                split at hff
                · simp only [Except.ok.injEq] at hff; subst hff; rfl
                · split at hff
                  · cases hbn : bumpNested s1.fingerDist p s1.fingerRunlen with
                    | error y => simp [hbn, bind, Except.bind] at hff
                    | ok d => simp only [hbn, bind, Except.bind, Except.ok.injEq] at hff; subst hff; rfl
                  · simp only [Except.ok.injEq] at hff; subst hff; rfl
              unfold RunlenOk at *
              simpa [this] using ok1

theorem triadsWF_process {s s' : TriadStats} {e : Event} (h : s.process e = .ok s') (wf : s.triads.WF) :
    s'.triads.WF := by
  cases e with
  | skip c => simp only [TriadStats.process, Except.ok.injEq] at h; subst h; exact wf
  | typed t c =>
    simp only [TriadStats.process, bind, Except.bind] at h
    split at h
    · simp at h
    · cases hb : first c.buttons with
      | error x => simp [hb] at h
      | ok b =>
        simp only [hb] at h
        split at h
        · simp only [Except.ok.injEq] at h; subst h; exact wf
        · simp only [Except.ok.injEq] at h; subst h
          unfold TriadStats.record
          split
          · exact Dict.wf_bump wf _ _
          · exact wf

theorem wordsWF_process {letter : Char → Bool} {L : KeyboardLayout} {s s' : WordStats} {e : Event}
    (h : s.process letter L e = .ok s') (wf : s.words.WF) : s'.words.WF := by
  cases e with
  | skip c => simp only [WordStats.process, Except.ok.injEq] at h; subst h; exact wf
  | typed t c =>
    simp only [WordStats.process, bind, Except.bind] at h
    cases hg : L.getText c with
    | error x => simp [hg] at h
    | ok v =>
      simp only [hg] at h
      cases v with
      | other n => simp [WordStats.processText] at h
      | str x =>
        simp only [WordStats.processText, Except.ok.injEq] at h
        subst h
        clear hg
        induction x generalizing s with
        | nil => exact wf
        | cons y x ih =>
          rw [List.foldl_cons]
          apply ih
          unfold WordStats.processChar
          split
          · exact wf
          · split
            · exact wf
            · exact Dict.wf_bump wf _ _

theorem statsOk_process {hf : HandFinger} {letter : Char → Bool} {L : KeyboardLayout} {s s' : AllStats}
    {e : Event} (h : s.process hf letter L e = .ok s') (ok : StatsOk s) : StatsOk s' := by
  unfold AllStats.process at h
  cases h1 : s.runlen.process hf e with
  | error x => simp [h1, bind, Except.bind] at h
  | ok a =>
    cases h2 : s.triads.process e with
    | error x => simp [h1, h2, bind, Except.bind] at h
    | ok b =>
      cases h3 : s.words.process letter L e with
      | error x => simp [h1, h2, h3, bind, Except.bind] at h
      | ok c =>
        simp only [h1, h2, h3, bind, Except.bind, Except.ok.injEq] at h
        subst h
        obtain ⟨r1, r2, r3⟩ := runlenOk_process h1 ⟨ok.hands, ok.perHand, ok.lengths⟩
        obtain ⟨⟨w1, w2, w3⟩, _⟩ := simple_fold [e] s.simple ok.buttons ok.combinations ok.unknown
        exact ⟨w1, w2, w3, r1, r2, r3, triadsWF_process h2 ok.triads, wordsWF_process h3 ok.words⟩

theorem statsOk_processAll {hf : HandFinger} {letter : Char → Bool} {L : KeyboardLayout} {evs : List Event}
    {s s' : AllStats} (h : AllStats.processAll hf letter L s evs = .ok s') (ok : StatsOk s) : StatsOk s' := by
  induction evs generalizing s with
  | nil => simp only [AllStats.processAll, Except.ok.injEq] at h; subst h; exact ok
  | cons e evs ih =>
    unfold AllStats.processAll at h
    cases h1 : s.process hf letter L e with
    | error x => simp [h1, bind, Except.bind] at h
    | ok s1 =>
      simp only [h1, bind, Except.bind] at h
      exact ih h (statsOk_process h1 ok)

theorem fresh_init {t : InternTable} {kb : PhysicalKeyboard} {s : AllStats} (h : AllStats.init t kb = .ok s) :
    Fresh s := by
  unfold AllStats.init TriadStats.init at h
  cases hg : GenericLayout.findAll t kb TriadStats.ignoredNames with
  | error e => simp [hg, bind, Except.bind] at h
  | ok ig =>
    simp only [hg, bind, Except.bind, Except.ok.injEq] at h
    subst h
    exact ⟨rfl, rfl, rfl, rfl⟩

/-! ### Finger runs -/

theorem sum_indicator {β : Type} [DecidableEq β] {xs : List β} (hn : xs.Nodup) {x0 : β} (hx0 : x0 ∈ xs) :
    (xs.map fun x => if x0 = x then 1 else 0).sum = 1 := by
  induction xs with
  | nil => simp at hx0
  | cons x xs ihx =>
    rw [List.nodup_cons] at hn
    simp only [List.map_cons, List.sum_cons]
    by_cases hx : x0 = x
    · subst hx
      have : (xs.map fun i => if x0 = i then 1 else 0).sum = 0 := by
        apply List.sum_eq_zero
        intro y hy
        obtain ⟨i, hi, rfl⟩ := List.mem_map.1 hy
        have : x0 ≠ i := by rintro rfl; exact hn.1 hi
        simp [this]
      simp [this]
    · simp only [hx, if_false, Nat.zero_add]
      exact ihx hn.2 (by simpa [hx] using hx0)

theorem countP_sum_split {α β : Type} [DecidableEq β] (A : α → Bool) (h : α → Option β) (xs : List β)
    (hn : xs.Nodup) (l : List α) (hl : ∀ p ∈ l, ∃ x ∈ xs, h p = some x) :
    (xs.map fun x => l.countP (fun p => A p && decide (h p = some x))).sum = l.countP A := by
  induction l with
  | nil => simp
  | cons p l ih =>
    have ih := ih (fun q hq => hl q (by simp [hq]))
    obtain ⟨x0, hx0, hp⟩ := hl p (by simp)
    simp only [List.countP_cons, List.sum_map_add, ih]
    congr 1
    cases hA : A p with
    | false => simp
    | true =>
      simp only [Bool.true_and, decide_eq_true_eq, hp, Option.some.injEq, if_true]
      exact sum_indicator hn hx0

theorem zip_tail_fst {α : Type} (r : List α) : (r.zip r.tail).map Prod.fst = r.dropLast := by
  induction r with
  | nil => rfl
  | cons x r ih =>
    cases r with
    | nil => rfl
    | cons y r => simpa using ih

theorem sum_runBefore (pos : Comb → Direction × Finger) (evs : List Event) (n : Nat) :
    (allFingers.map fun f => runBefore pos evs f n).sum = completedOfLength pos evs n := by
  unfold runBefore completedOfLength
  generalize stretches evs = ss
  induction ss with
  | nil => simp
  | cons s ss ih =>
    simp only [List.map_cons, List.sum_cons, List.sum_map_add, ih]
    congr 1
    have key := countP_sum_split (fun p : List (Direction × Finger) × List (Direction × Finger) => decide (p.1.length = n))
      (fun p => p.2.head?) allFingers (by decide)
      ((runs ((presses s).map pos)).zip (runs ((presses s).map pos)).tail) (by
        intro p hp
        have h2 := List.mem_of_mem_tail (List.of_mem_zip hp).2
        have : p.2 ≠ [] := by
          intro he; rw [he] at h2
          exact List.nil_notMem_splitBy _ _ h2
        cases hh : p.2 with
        | nil => exact absurd hh this
        | cons x xs =>
          refine ⟨x, ?_, rfl⟩
          obtain ⟨d, f⟩ := x
          cases d <;> cases f <;> decide)
    rw [completedRuns, ← zip_tail_fst, List.countP_map]
    simp only [Bool.decide_and]
    exact key

/-! ### Hand and finger totals -/

theorem pressesWhere_cons {hf : HandFinger} {b : Button} {n : Nat} {p : Direction × Finger} (hp : hf b = .ok p)
    (P : Direction × Finger → Bool) (rest : Dict Button Nat) :
    pressesWhere hf P ((b, n) :: rest) = (if P p then n else 0) + pressesWhere hf P rest := by
  unfold pressesWhere
  simp only [List.filter_cons, hp]
  cases P p <;> simp

theorem pressesWhere_cons_error {hf : HandFinger} {b : Button} {n : Nat} {e : PyErr} (hp : hf b = .error e)
    (P : Direction × Finger → Bool) (rest : Dict Button Nat) :
    pressesWhere hf P ((b, n) :: rest) = pressesWhere hf P rest := by
  unfold pressesWhere
  simp only [List.filter_cons, hp]
  rfl

theorem handFingerLoop_ok {hf : HandFinger} {buttons : List (Button × Nat)} {hands hands' : Dict Direction Nat}
    {fingers fingers' : Dict (Direction × Finger) Nat}
    (h : handFingerLoop hf buttons hands fingers = .ok (hands', fingers')) (w1 : hands.WF) (w2 : fingers.WF) :
    hands'.WF ∧ fingers'.WF ∧
    (∀ d, hands'.count d = hands.count d + pressesWhere hf (fun p => decide (p.1 = d)) buttons) ∧
    (∀ q, fingers'.count q = fingers.count q + pressesWhere hf (fun p => decide (p = q)) buttons) ∧
    (hands'.map Prod.snd).sum = (hands.map Prod.snd).sum + (buttons.map Prod.snd).sum ∧
    (fingers'.map Prod.snd).sum = (fingers.map Prod.snd).sum + (buttons.map Prod.snd).sum := by
  induction buttons generalizing hands fingers with
  | nil =>
    simp only [handFingerLoop, Except.ok.injEq, Prod.mk.injEq] at h
    obtain ⟨rfl, rfl⟩ := h
    simp [pressesWhere, w1, w2]
  | cons e rest ih =>
    obtain ⟨b, n⟩ := e
    simp only [handFingerLoop, bind, Except.bind] at h
    cases hp : hf b with
    | error x => simp [hp] at h
    | ok p =>
      simp only [hp] at h
      obtain ⟨a1, a2, a3, a4, a5, a6⟩ := ih h (Dict.wf_bump w1 _ _) (Dict.wf_bump w2 _ _)
      refine ⟨a1, a2, fun d => ?_, fun q => ?_, ?_, ?_⟩
      · rw [a3, Dict.count_bump]
        simp only [pressesWhere, List.filter_cons, hp]
        by_cases hd : p.1 = d <;> simp [hd]; omega
      · rw [a4, Dict.count_bump]
        simp only [pressesWhere, List.filter_cons, hp]
        by_cases hd : p = q <;> simp [hd]; omega
      · rw [a5, Dict.sum_values_bump _ w1]; simp; omega
      · rw [a6, Dict.sum_values_bump _ w2]; simp; omega

theorem handFingerLoop_error {hf : HandFinger} {buttons : List (Button × Nat)} {hands : Dict Direction Nat}
    {fingers : Dict (Direction × Finger) Nat} :
    (∃ e, handFingerLoop hf buttons hands fingers = .error e) ↔ ∃ q ∈ buttons, ∃ e, hf q.1 = .error e := by
  induction buttons generalizing hands fingers with
  | nil => simp [handFingerLoop]
  | cons e rest ih =>
    obtain ⟨b, n⟩ := e
    simp only [handFingerLoop, bind, Except.bind]
    cases hp : hf b with
    | error x => simp [hp]
    | ok p => simp [ih, hp]

theorem pressesWhere_fingers (hf : HandFinger) (buttons : Dict Button Nat) (d : Direction) :
    (Finger.all.map fun f => pressesWhere hf (fun p => decide (p = (d, f))) buttons).sum =
      pressesWhere hf (fun p => decide (p.1 = d)) buttons := by
  induction buttons with
  | nil => rfl
  | cons e rest ih =>
    obtain ⟨b, n⟩ := e
    cases hp : hf b with
    | error x => simpa only [pressesWhere_cons_error hp] using ih
    | ok p =>
      simp only [pressesWhere_cons hp, decide_eq_true_eq]
      simp only [Finger.all, List.map_cons, List.map_nil, List.sum_cons, List.sum_nil] at ih ⊢
      rw [← ih]
      obtain ⟨pd, pf⟩ := p
      by_cases hd : pd = d
      · subst hd
        cases pf <;> simp <;> omega
      · simp only [Prod.mk.injEq, hd, false_and, if_false]; omega

theorem pressesWhere_hands (hf : HandFinger) (buttons : Dict Button Nat)
    (hok : ∀ q ∈ buttons, ∃ p, hf q.1 = .ok p) :
    pressesWhere hf (fun p => decide (p.1 = .left)) buttons +
      pressesWhere hf (fun p => decide (p.1 = .right)) buttons = (buttons.map Prod.snd).sum := by
  induction buttons with
  | nil => rfl
  | cons e rest ih =>
    obtain ⟨b, n⟩ := e
    obtain ⟨p, hp⟩ := hok (b, n) (by simp)
    have ih := ih (fun q hq => hok q (by simp [hq]))
    simp only [pressesWhere_cons hp, decide_eq_true_eq, List.map_cons, List.sum_cons]
    obtain ⟨pd, pf⟩ := p
    cases pd <;> simp <;> omega

end Lulua
