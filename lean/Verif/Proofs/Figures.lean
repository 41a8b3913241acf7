import Verif.Spec.Figures
import Verif.Proofs.Pipeline
import Verif.Proofs.Analyze
import Verif.Props.Analyze

/-!
# Lemmas for C122
-/

namespace Lulua
open Spec

section
variable {κ : Type} [DecidableEq κ]

/-- All counts are positive. -/
def AllPos (d : Dict κ Nat) : Prop := ∀ e ∈ d, 0 < e.2

theorem AllPos.set {d : Dict κ Nat} (h : AllPos d) (k : κ) {v : Nat} (hv : 0 < v) : AllPos (d.set k v) := by
  induction d with
  | nil => intro e he; simp only [Dict.set, List.mem_singleton] at he; subst he; exact hv
  | cons p d ih =>
    obtain ⟨k', v'⟩ := p
    intro e he
    rw [Dict.set] at he
    split at he
    · rcases List.mem_cons.1 he with rfl | he
      · exact hv
      · exact h e (by simp [he])
    · rcases List.mem_cons.1 he with rfl | he
      · exact h (k', v') (by simp)
      · exact ih (fun e he => h e (by simp [he])) e he

theorem AllPos.bump {d : Dict κ Nat} (h : AllPos d) (k : κ) : AllPos (d.bump k 1) := h.set k (by omega)

theorem AllPos.foldl_bump {d : Dict κ Nat} (h : AllPos d) (l : List κ) : AllPos (l.foldl (fun d b => d.bump b 1) d) := by
  induction l generalizing d with
  | nil => exact h
  | cons x l ih => exact ih (h.bump x)

theorem AllPos.update {a b : Dict κ Nat} (ha : AllPos a) (hb : AllPos b) : AllPos (updateCounts a b) := by
  unfold updateCounts
  induction b generalizing a with
  | nil => exact ha
  | cons p b ih =>
    rw [List.foldl_cons]
    have hp := hb p (by simp)
    refine ih ?_ fun e he => hb e (by simp [he])
    split
    · exact ha.set _ hp
    · exact ha.set _ (by omega)

theorem AllPos.noZero {d : Dict κ Nat} (h : AllPos d) : NoZero d := by
  intro k hk
  have := h _ (Dict.mem_of_get? hk)
  simp at this

end

theorem positive_process {hf : HandFinger} {letter : Char → Bool} {L : KeyboardLayout} {s r : AllStats} {ev : Event}
    (h : s.process hf letter L ev = .ok r) (hs : Positive s) : Positive r := by
  simp only [AllStats.process, bind_ok_iff, Except.ok.injEq] at h
  obtain ⟨rl, _, tr, htr, wd, hwd, rfl⟩ := h
  have hw : ∀ (t : Text) (w : WordStats), AllPos w.words → AllPos (t.foldl (WordStats.processChar letter) w).words := by
    intro t
    induction t with
    | nil => intro w hw; exact hw
    | cons c t ih =>
      intro w hw
      rw [List.foldl_cons]
      apply ih
      unfold WordStats.processChar
      split
      · exact hw
      · split
        · exact hw
        · exact AllPos.bump hw _
  cases ev with
  | skip c =>
    simp only [TriadStats.process, Except.ok.injEq] at htr
    simp only [WordStats.process, Except.ok.injEq] at hwd
    subst htr; subst hwd
    exact ⟨hs.buttons, hs.combinations, AllPos.bump hs.unknown c, hs.triads, hs.words⟩
  | typed t c =>
    have h1 : AllPos tr.triads := by
      rw [TriadStats.process] at htr
      split at htr
      · cases htr
      · simp only [bind_ok_iff] at htr
        obtain ⟨b, _, h⟩ := htr
        split at h
        · simp only [Except.ok.injEq] at h; subst h; exact hs.triads
        · simp only [Except.ok.injEq] at h
          subst h
          unfold TriadStats.record
          split
          · exact AllPos.bump hs.triads _
          · exact hs.triads
    have h2 : AllPos wd.words := by
      simp only [WordStats.process, bind_ok_iff] at hwd
      obtain ⟨v, _, h⟩ := hwd
      cases v with
      | other x => cases h
      | str t =>
        simp only [WordStats.processText, Except.ok.injEq] at h
        subst h
        exact hw _ _ hs.words
    exact ⟨AllPos.foldl_bump hs.buttons _, AllPos.bump hs.combinations c, hs.unknown, h1, h2⟩

theorem positive_processAll {hf : HandFinger} {letter : Char → Bool} {L : KeyboardLayout} {evs : List Event} {s r : AllStats}
    (h : AllStats.processAll hf letter L s evs = .ok r) (hs : Positive s) : Positive r := by
  induction evs generalizing s with
  | nil => simp only [AllStats.processAll, Except.ok.injEq] at h; subst h; exact hs
  | cons e evs ih =>
    simp only [AllStats.processAll, bind_ok_iff] at h
    obtain ⟨s', h1, h2⟩ := h
    exact ih h2 (positive_process h1 hs)

theorem positive_update {s o : AllStats} (hs : Positive s) (ho : Positive o) : Positive (s.update o) :=
  ⟨AllPos.update hs.buttons ho.buttons, AllPos.update hs.combinations ho.combinations, AllPos.update hs.unknown ho.unknown,
    AllPos.update hs.triads ho.triads, AllPos.update hs.words ho.words⟩

theorem positive_combine {fresh : AllStats} (hf : Positive fresh) {files : List AllStats} (h : ∀ f ∈ files, Positive f) :
    Positive (AllStats.combine fresh files) := by
  unfold AllStats.combine
  induction files generalizing fresh with
  | nil => exact hf
  | cons f files ih => exact ih (positive_update hf (h f (by simp))) fun x hx => h x (by simp [hx])

theorem positive_fresh {s : AllStats} (h : Fresh s) : Positive s := by
  refine ⟨?_, ?_, ?_, ?_, ?_⟩
  · rw [h.simple]; simp [SimpleStats.init]
  · rw [h.simple]; simp [SimpleStats.init]
  · rw [h.simple]; simp [SimpleStats.init]
  · rw [h.triads]; simp
  · rw [h.words]; simp [WordStats.init]

theorem positive_textStats {su : Setup} (hfr : Fresh su.fresh) {t : Text} {s : AllStats} (h : textStats su t = .ok s) :
    Positive s := by
  unfold textStats at h
  simp only [bind_ok_iff] at h
  obtain ⟨s', h1, h2⟩ := h
  split at h2
  · simp only [Except.ok.injEq] at h2; subst h2
    exact positive_processAll h1 (positive_fresh hfr)
  · cases h2
  · cases h2

theorem positive_workTexts {su : Setup} (hfr : Fresh su.fresh) {ts : List Text} {s r : WorkState}
    (h : workTexts su ts s = .ok r) (hs : Positive s.combined) : Positive r.combined := by
  induction ts generalizing s with
  | nil => simp only [workTexts, Except.ok.injEq] at h; subst h; exact hs
  | cons t ts ih =>
    simp only [workTexts, bind_ok_iff] at h
    obtain ⟨st, h1, h2⟩ := h
    exact ih h2 (positive_update hs (positive_textStats hfr h1))

theorem positive_workItems {ι : Type} {su : Setup} (hfr : Fresh su.fresh) {extract : ι → Gen Text} {is : List ι} {s r : WorkState}
    (h : workItems su extract is s = .ok r) (hs : Positive s.combined) : Positive r.combined := by
  induction is generalizing s with
  | nil => simp only [workItems, Except.ok.injEq] at h; subst h; exact hs
  | cons i is ih =>
    simp only [workItems, workItem, bind_ok_iff] at h
    obtain ⟨s', ⟨s'', h1, h2⟩, h3⟩ := h
    split at h2
    · simp only [Except.ok.injEq] at h2
      subst h2
      exact ih h3 (positive_workTexts hfr h1 hs)
    · cases h2

theorem positive_pickle {su : Setup} (hfr : Fresh su.fresh) {r : CorpusRun} {f : AllStats} (h : r.pickle su = .ok f) :
    Positive f := by
  simp only [CorpusRun.pickle, CorpusRun.output, bind_ok_iff, Except.ok.injEq] at h
  obtain ⟨rs, ⟨os, h1, rfl⟩, rfl⟩ := h
  refine positive_combine (positive_fresh hfr) fun s hs => ?_
  obtain ⟨o, ho, h2⟩ := List.mem_filterMap.1 hs
  simp only [id] at h2
  subst h2
  obtain ⟨p, _, hp⟩ := forall2_mem_right ((mapM_ok_iff _ _ _).1 h1) ho
  simp only [writeWorker, bind_ok_iff, Except.ok.injEq] at hp
  obtain ⟨w, h3, h4⟩ := hp
  split at h4
  · simp only [Option.some.injEq] at h4
    subst h4
    exact positive_workItems hfr h3 (positive_fresh hfr)
  · cases h4

/-- `all.pickle` has the statistics of some of the texts of the corpora, of all if no `lulua-write` fails. -/
theorem whole_all {su : Setup} {layers : List Layer} (hu : Usable su layers) {runs : List CorpusRun}
    (hb : ∀ r ∈ runs, Built su r) : ∃ f ts, allPickle su runs = .ok f ∧ Whole su ts f ∧ ts.Subperm (runs.flatMap corpusTexts) ∧
      ((∀ r ∈ runs, 0 < r.jobs ∧ r.final.main = .done) → ts.Perm (runs.flatMap corpusTexts)) := by
  obtain ⟨files, tss, h1, h2, h3⟩ := all_built_counts hu hb
  obtain ⟨h4, h5⟩ := countsOf_combine hu.fresh h2
  refine ⟨AllStats.combine su.fresh files, tss.flatten, by simp only [allPickle, h1, bind, Except.bind], ⟨h4, ?_, h5⟩, ?_, ?_⟩
  · refine positive_combine (positive_fresh hu.fresh) fun f hf => ?_
    obtain ⟨r, _, hr⟩ := forall2_mem_right ((mapM_ok_iff _ _ _).1 h1) hf
    exact positive_pickle hu.fresh hr
  · rw [List.flatMap_def]
    refine subperm_flatten ?_
    rw [List.forall₂_map_right_iff]
    exact h3.imp fun _ _ h => h.1
  · intro hd
    rw [List.flatMap_def]
    clear h1 h2 h4 h5 hb
    induction h3 with
    | nil => exact .refl _
    | @cons ts r tss runs h _ ih =>
      rw [List.flatten_cons, List.map_cons, List.flatten_cons]
      have := hd r (by simp)
      exact (h.2 this.1 this.2).append (ih fun x hx => hd x (by simp [hx]))

/-! ### The counts as those of one long text -/

theorem presses_append (a b : List Event) : presses (a ++ b) = presses a ++ presses b := by
  unfold presses; exact List.filterMap_append

theorem presses_allTyped (su : Setup) (texts : List Text) :
    presses (allTyped su texts) = texts.flatMap fun t => presses (typedFor su t) := by
  induction texts with
  | nil => rfl
  | cons t ts ih => rw [allTyped, List.flatMap_cons, presses_append, List.flatMap_cons, ← ih]; rfl

/-- Dictionaries with the same positive counts are the same but for the order. -/
theorem perm_of_counts {κ : Type} [DecidableEq κ] {d d' : Dict κ Nat} (w : d.WF) (w' : d'.WF) (p : AllPos d) (p' : AllPos d')
    (h : ∀ k, d.count k = d'.count k) : List.Perm d d' := by
  have nd : ∀ {x : Dict κ Nat}, x.WF → List.Nodup x := fun hx => List.Nodup.of_map _ hx
  refine (List.perm_ext_iff_of_nodup (nd w) (nd w')).2 ?_
  have key : ∀ {d d' : Dict κ Nat}, d.WF → AllPos d → (∀ k, d.count k = d'.count k) → ∀ e ∈ d, e ∈ d' := by
    intro d d' w p h e he
    have h1 := Dict.get?_of_mem w he
    have h2 := h e.1
    have h3 := p e he
    unfold Dict.count at h2
    rw [h1] at h2
    cases hd : d'.get? e.1 with
    | none => rw [hd] at h2; simp at h2; omega
    | some v =>
      rw [hd] at h2
      simp only [Option.getD_some] at h2
      have := Dict.mem_of_get? hd
      rw [← h2] at this
      exact this
  exact fun e => ⟨key w p h e, key w' p' (fun k => (h k).symm) e⟩

/-- The dictionaries of buttons and of combinations are, but for the order, those of typing all texts one after the other. -/
theorem whole_simple {su : Setup} {texts : List Text} {s : AllStats} (h : Whole su texts s) :
    let r := (allTyped su texts).foldl SimpleStats.process .init
    List.Perm s.simple.buttons r.buttons ∧ List.Perm s.simple.combinations r.combinations := by
  intro r
  obtain ⟨s1, s2, s3, s4, s5⟩ := simple_fold (allTyped su texts) .init Dict.wf_nil Dict.wf_nil Dict.wf_nil
  have hp : Positive ⟨r, s.runlen, s.triads, s.words⟩ := by
    have : ∀ (evs : List Event) (x : SimpleStats), AllPos x.buttons ∧ AllPos x.combinations ∧ AllPos x.unknown →
        AllPos (evs.foldl SimpleStats.process x).buttons ∧ AllPos (evs.foldl SimpleStats.process x).combinations ∧
        AllPos (evs.foldl SimpleStats.process x).unknown := by
      intro evs
      induction evs with
      | nil => intro x hx; exact hx
      | cons e evs ih =>
        intro x hx
        rw [List.foldl_cons]
        apply ih
        cases e with
        | skip c => exact ⟨hx.1, hx.2.1, hx.2.2.bump c⟩
        | typed t c => exact ⟨hx.1.foldl_bump _, hx.2.1.bump c, hx.2.2⟩
    obtain ⟨h1, h2, h3⟩ := this (allTyped su texts) .init ⟨by simp [SimpleStats.init, AllPos], by simp [SimpleStats.init, AllPos],
      by simp [SimpleStats.init, AllPos]⟩
    exact ⟨h1, h2, h3, h.positive.triads, h.positive.words⟩
  constructor
  · refine perm_of_counts h.ok.buttons s1.1 h.positive.buttons hp.buttons fun b => ?_
    rw [h.counts.buttons, s3, presses_allTyped, List.flatMap_assoc, sum_flatMap_count]
    simp only [buttonPresses, sum_flatMap_count, Comb.iter]
    simp [SimpleStats.init, Dict.count]
  · refine perm_of_counts h.ok.combinations s1.2.1 h.positive.combinations hp.combinations fun b => ?_
    rw [h.counts.combinations, s2, presses_allTyped, sum_flatMap_count]
    simp [SimpleStats.init, Dict.count]

theorem wsum_of_counts {κ : Type} [DecidableEq κ] {d : Dict κ Nat} (w : d.WF) (p : AllPos d) {l : List κ}
    (h : ∀ k, d.count k = l.count k) (g : κ → Nat) : (d.map fun e => e.2 * g e.1).sum = (l.map g).sum := by
  have key : ∀ (l : List κ) (d : Dict κ Nat), d.WF → (l.foldl (fun d b => d.bump b 1) d).WF ∧
      (∀ k, (l.foldl (fun d b => d.bump b 1) d).count k = d.count k + l.count k) ∧
      ((l.foldl (fun d b => d.bump b 1) d).map fun e => e.2 * g e.1).sum = (d.map fun e => e.2 * g e.1).sum + (l.map g).sum := by
    intro l
    induction l with
    | nil => intro d w; simp [w]
    | cons x l ih =>
      intro d w
      obtain ⟨h1, h2, h3⟩ := ih (d.bump x 1) (Dict.wf_bump w _ _)
      refine ⟨h1, fun k => ?_, ?_⟩
      · rw [List.foldl_cons, h2, Dict.count_bump, List.count_cons]
        by_cases hk : x = k
        · simp [hk]; omega
        · simp [hk]
      · rw [List.foldl_cons, h3, wsum_bump g d w]
        simp; omega
  obtain ⟨h1, h2, h3⟩ := key l [] Dict.wf_nil
  have hp : AllPos (l.foldl (fun d b => d.bump b 1) ([] : Dict κ Nat)) := AllPos.foldl_bump (by simp [AllPos]) l
  have := perm_of_counts w h1 p hp (fun k => by rw [h, h2]; simp)
  rw [(this.map _).sum_eq, h3]
  simp

theorem sum_of_counts {κ : Type} [DecidableEq κ] {d : Dict κ Nat} (w : d.WF) (p : AllPos d) {l : List κ}
    (h : ∀ k, d.count k = l.count k) : (d.map Prod.snd).sum = l.length := by
  have := wsum_of_counts w p h fun _ => 1
  simpa using this

theorem filter_of_counts {κ : Type} [DecidableEq κ] {d : Dict κ Nat} (w : d.WF) (p : AllPos d) {l : List κ}
    (h : ∀ k, d.count k = l.count k) (q : κ → Bool) : ((d.filter fun e => q e.1).map Prod.snd).sum = l.countP q := by
  have := wsum_of_counts w p h fun k => if q k then 1 else 0
  have e1 : (d.map fun e => e.2 * if q e.1 then 1 else 0).sum = ((d.filter fun e => q e.1).map Prod.snd).sum := by
    clear this w p h
    induction d with
    | nil => rfl
    | cons e d ih =>
      by_cases he : q e.1 = true
      · simp only [List.map_cons, List.sum_cons, List.filter_cons, he, if_true, ih, Nat.mul_one]
      · simp only [Bool.not_eq_true] at he
        simp only [List.map_cons, List.sum_cons, List.filter_cons, he, Bool.false_eq_true, if_false, ih, Nat.mul_zero, Nat.zero_add]
  have e2 : (l.map fun k => if q k then 1 else 0).sum = l.countP q := by
    clear this e1 h
    induction l with
    | nil => rfl
    | cons x l ih => rw [List.map_cons, List.sum_cons, ih, List.countP_cons]; omega
  rw [← e1, this, e2]

theorem mem_of_counts {κ : Type} [DecidableEq κ] {d : Dict κ Nat} (p : AllPos d) {l : List κ}
    (h : ∀ k, d.count k = l.count k) (k : κ) : k ∈ d.map Prod.fst ↔ k ∈ l := by
  have := p.noZero.keys k
  unfold Dict.keys at this
  rw [this, h, List.count_pos_iff]

/-- The buttons counted are those pressed in the texts. -/
theorem whole_buttons {su : Setup} {texts : List Text} {s : AllStats} (h : Whole su texts s) (b : Button) :
    s.simple.buttons.count b = (texts.flatMap fun t => pressed (typedFor su t)).count b := by
  rw [h.counts.buttons, sum_flatMap_count]
  simp only [buttonPresses, pressed, sum_flatMap_count]

theorem whole_combinations {su : Setup} {texts : List Text} {s : AllStats} (h : Whole su texts s) (c : Comb) :
    s.simple.combinations.count c = (texts.flatMap fun t => presses (typedFor su t)).count c := by
  rw [h.counts.combinations, sum_flatMap_count]

theorem countP_flatMap_sum {α β : Type} (l : List α) (f : α → List β) (q : β → Bool) :
    (l.flatMap f).countP q = (l.map fun a => (f a).countP q).sum := by
  induction l with
  | nil => rfl
  | cons a l ih => simp [List.countP_append, ih]

theorem whole_pressesWhere {su : Setup} {texts : List Text} {s : AllStats} (h : Whole su texts s) (hf : HandFinger)
    (q : Direction × Finger → Bool) : pressesWhere hf q s.simple.buttons = (texts.map fun t => (pressed (typedFor su t)).countP fun b =>
      match hf b with
      | .ok p => q p
      | .error _ => false).sum :=
  (filter_of_counts h.ok.buttons h.positive.buttons (whole_buttons h) fun b => match hf b with
    | .ok p => q p
    | .error _ => false).trans (countP_flatMap_sum _ _ _)

theorem sum_pos_iff {α : Type} (l : List α) (f : α → Nat) : 0 < (l.map f).sum ↔ ∃ a ∈ l, 0 < f a := by
  induction l with
  | nil => simp
  | cons a l ih =>
    rw [List.map_cons, List.sum_cons, List.exists_mem_cons_iff, ← ih]
    omega

theorem whole_pressed {su : Setup} {texts : List Text} {s : AllStats} (h : Whole su texts s) (b : Button) :
    (∃ n, (b, n) ∈ s.simple.buttons) ↔ ∃ t ∈ texts, b ∈ pressed (typedFor su t) := by
  have := mem_of_counts h.positive.buttons (whole_buttons h) b
  rw [List.mem_flatMap] at this
  rw [← this, List.mem_map]
  exact ⟨fun ⟨n, hn⟩ => ⟨_, hn, rfl⟩, fun ⟨e, he, hb⟩ => ⟨e.2, by rw [← hb]; exact he⟩⟩

/-- What is pressed for a text has a finger. -/
theorem pressed_fingered {su : Setup} {layers : List Layer} (hu : Usable su layers) {t : Text} {b : Button}
    (hb : b ∈ pressed (typedFor su t)) : ∃ p, su.hf b = .ok p := by
  obtain ⟨name, kb, hL⟩ := hu.layout
  obtain ⟨c, hc, hb⟩ := List.mem_flatMap.1 hb
  obtain ⟨m, hm⟩ := mem_presses.1 hc
  unfold typedFor at hm
  rw [hL] at hm
  obtain ⟨m', b', rfl, l, hl, hm', hb'⟩ := mem_producers.1 (typed_producer hm)
  rcases List.mem_append.1 hb with h1 | h1
  · exact (hu.fingered l hl).1 _ hm' b h1
  · rw [List.mem_singleton] at h1
    subst h1
    exact (hu.fingered l hl).2 _ hb'

theorem typedTexts_allTyped (su : Setup) (texts : List Text) :
    typedTexts (allTyped su texts) = texts.flatMap fun t => typedTexts (typedFor su t) := by
  unfold allTyped typedTexts
  induction texts with
  | nil => rfl
  | cons t ts ih => rw [List.flatMap_cons, List.filterMap_append, ih, List.flatMap_cons]

/-! ### Figures do not depend on the order -/

theorem count_perm {κ : Type} [DecidableEq κ] {d d' : Dict κ Nat} (w : d.WF) (h : List.Perm d d') (k : κ) :
    d.get? k = d'.get? k := by
  have w' : d'.WF := (h.map Prod.fst).nodup_iff.1 w
  cases hd : d.get? k with
  | none =>
    have h1 := Dict.get?_eq_none_iff.1 hd
    rw [eq_comm, Dict.get?_eq_none_iff]
    exact fun h2 => h1 ((h.map Prod.fst).symm.subset h2)
  | some v => exact (Dict.get?_of_mem w' (h.subset (Dict.mem_of_get? hd))).symm

theorem hamzaLoop_congr {L : KeyboardLayout} {c c' : Dict Comb Nat} (h : ∀ k, c.count k = c'.count k) (ls : List Text)
    (g : Dict Text Nat) : hamzaLoop L c ls g = hamzaLoop L c' ls g := by
  have : c.count = c'.count := funext h
  induction ls generalizing g with
  | nil => rfl
  | cons l ls ih => simp only [hamzaLoop, this, ih]

theorem hamzaStats_perm {L : KeyboardLayout} {c c' : Dict Comb Nat} (w : c.WF) (h : List.Perm c c') :
    hamzaStats L c = hamzaStats L c' := by
  unfold hamzaStats
  rw [hamzaLoop_congr (c := c) (c' := c') (fun k => by unfold Dict.count; rw [count_perm w h]), (h.map Prod.snd).sum_eq]

theorem handFingerLoop_exists {hf : HandFinger} {l : List (Button × Nat)} {hands : Dict Direction Nat}
    {fingers : Dict (Direction × Finger) Nat} :
    (∃ r, handFingerLoop hf l hands fingers = .ok r) ↔ ∀ e ∈ l, ∃ p, hf e.1 = .ok p := by
  induction l generalizing hands fingers with
  | nil => simp [handFingerLoop]
  | cons e l ih =>
    obtain ⟨b, n⟩ := e
    simp only [handFingerLoop, List.forall_mem_cons]
    constructor
    · rintro ⟨r, h⟩
      simp only [bind_ok_iff] at h
      obtain ⟨p, h1, h2⟩ := h
      exact ⟨⟨p, h1⟩, ih.1 ⟨r, h2⟩⟩
    · rintro ⟨⟨p, h1⟩, h2⟩
      obtain ⟨r, h3⟩ := (ih (hands := hands.bump p.1 n) (fingers := fingers.bump p n)).2 h2
      exact ⟨r, by simp only [h1, bind, Except.bind, h3]⟩

theorem pressesWhere_perm {hf : HandFinger} {q : Direction × Finger → Bool} {l l' : Dict Button Nat} (h : List.Perm l l') :
    pressesWhere hf q l = pressesWhere hf q l' := by
  unfold pressesWhere
  exact ((h.filter _).map _).sum_eq

theorem get?_of_keys {κ : Type} [DecidableEq κ] {d d' : Dict κ Nat} {k : κ} (hk : k ∈ d.map Prod.fst ↔ k ∈ d'.map Prod.fst)
    (hc : d.count k = d'.count k) : d.get? k = d'.get? k := by
  unfold Dict.count at hc
  cases h : d.get? k with
  | none =>
    have := Dict.get?_eq_none_iff.1 h
    rw [eq_comm, Dict.get?_eq_none_iff]
    exact fun h' => this (hk.2 h')
  | some v =>
    have h1 : k ∈ d.map Prod.fst := by rw [← Dict.get?_isSome_iff, h]; rfl
    have h2 := hk.1 h1
    rw [← Dict.get?_isSome_iff] at h2
    obtain ⟨v', h3⟩ := Option.isSome_iff_exists.1 h2
    rw [h, h3] at hc
    simp only [Option.getD_some] at hc
    rw [h3, hc]

/-- Figures of the layout are those of any other order of the dictionaries. -/
theorem layoutstats_perm {hf : HandFinger} {L : KeyboardLayout} {s r : SimpleStats} (hb : List.Perm s.buttons r.buttons)
    (wc : s.combinations.WF) (hc : List.Perm s.combinations r.combinations) {a : LayoutStats}
    (h : layoutstats hf L s = .ok a) : ∃ b, layoutstats hf L r = .ok b ∧ SameFigures a b := by
  simp only [layoutstats, bind_ok_iff, Except.ok.injEq] at h
  obtain ⟨q, hq, z, hz, rfl⟩ := h
  obtain ⟨a1, _, _, _, _, a6, a7, _⟩ := Props.C28_totals hf _ q hq
  have hq0 := hq
  unfold layoutHandStats at hq
  simp only [bind_ok_iff] at hq
  obtain ⟨⟨hands, fingers⟩, hl, hq⟩ := hq
  split at hq
  · cases hq
  · rename_i hpos
    simp only [Except.ok.injEq] at hq
    obtain ⟨⟨hands', fingers'⟩, hl'⟩ := (handFingerLoop_exists (hf := hf) (l := r.buttons) (hands := []) (fingers := [])).2
      fun e he => (handFingerLoop_exists.1 ⟨_, hl⟩) e (hb.symm.subset he)
    have hs : (s.buttons.map Prod.snd).sum = (r.buttons.map Prod.snd).sum := (hb.map Prod.snd).sum_eq
    rw [hs] at hpos
    obtain ⟨q', hq'⟩ : ∃ q', layoutHandStats hf r.buttons = .ok q' := by
      unfold layoutHandStats
      simp only [hl', bind, Except.bind]
      rw [if_neg hpos]
      exact ⟨_, rfl⟩
    obtain ⟨b1, _, _, _, _, b6, b7, _⟩ := Props.C28_totals hf _ q' hq'
    have hq1 := hq'
    unfold layoutHandStats at hq1
    simp only [hl', bind, Except.bind] at hq1
    rw [if_neg hpos] at hq1
    simp only [Except.ok.injEq] at hq1
    refine ⟨⟨⟨(q'.hands.bump .left 0).bump .right 0, q'.fingers, q'.buttonPresses, q'.asymmetry⟩, z.1, z.2⟩, ?_, ?_⟩
    · simp only [layoutstats, bind_ok_iff, Except.ok.injEq]
      exact ⟨q', hq', z, by rw [← hamzaStats_perm wc hc]; exact hz, rfl⟩
    · have hcount : ∀ d, q.hands.count d = q'.hands.count d := fun d => by rw [a6, b6, pressesWhere_perm hb]
      have hbp : q.buttonPresses = q'.buttonPresses := by rw [a1, b1, hs]
      refine ⟨fun d => ?_, fun p => ?_, hbp, ?_, rfl, rfl⟩
      · apply get?_of_keys
        · simp only [Dict.bump, Dict.mem_keys_set]
          cases d <;> simp
        · simp only [Dict.count_bump, hcount]
      · apply get?_of_keys
        · rw [← hq, ← hq1]
          rw [handFingerLoop_keys hl p, handFingerLoop_keys hl' p]
          simp only [List.map_nil, List.not_mem_nil, false_or]
          exact ⟨fun ⟨e, he, hp⟩ => ⟨e, hb.subset he, hp⟩, fun ⟨e, he, hp⟩ => ⟨e, hb.symm.subset he, hp⟩⟩
        · obtain ⟨d, f⟩ := p
          change q.fingers.count _ = q'.fingers.count _
          rw [a7, b7, pressesWhere_perm hb]
      · have e1 : q.asymmetry = (q.hands.count .left : Rat) / q.buttonPresses - (q.hands.count .right : Rat) / q.buttonPresses := by
          rw [← hq]
        have e2 : q'.asymmetry = (q'.hands.count .left : Rat) / q'.buttonPresses - (q'.hands.count .right : Rat) / q'.buttonPresses := by
          rw [← hq1]
        change q.asymmetry = q'.asymmetry
        rw [e1, e2, hcount, hcount, hbp]

/-- The table only depends on the figures. -/
theorem fingerHandStats_same {a b : LayoutStats} (h : SameFigures a b) :
    fingerHandStats a.toHandStats = fingerHandStats b.toHandStats := by
  have h1 : ∀ d, templateItem a.hands d = templateItem b.hands d := fun d => by unfold templateItem; rw [h.hands]
  have h2 : ∀ p, templateItem a.fingers p = templateItem b.fingers p := fun p => by unfold templateItem; rw [h.fingers]
  unfold fingerHandStats
  congr 1
  funext d
  unfold handBar
  rw [h1, h.buttonPresses]
  congr 1
  funext n
  congr 1
  funext pct
  congr 1
  congr 1
  funext f
  unfold fingerBar
  rw [h1, h2, h.buttonPresses]

/-- So does a heat map on the order of the buttons, if they have different names. -/
theorem keyHeatmap_perm {name : Button → String} {d d' : Dict Button Nat} (w : d.WF) (h : List.Perm d d')
    (hi : ∀ e ∈ d, ∀ e' ∈ d, name e.1 = name e'.1 → e.1 = e'.1) {n : Nat} {m : Dict String Nat}
    (hm : keyHeatmap name d = .ok (n, m)) : ∃ m', keyHeatmap name d' = .ok (n, m') ∧ List.Perm m m' := by
  have w' : d'.WF := (h.map Prod.fst).nodup_iff.1 w
  have hi' : ∀ e ∈ d', ∀ e' ∈ d', name e.1 = name e'.1 → e.1 = e'.1 := fun e he e' he' =>
    hi e (h.symm.subset he) e' (h.symm.subset he')
  have hok := (Props.C89_works_iff name d w hi).1 ⟨_, hm⟩
  have hp := List.perm_insertionSort (fun a b : Button × Nat => a.2 ≤ b.2) d
  have hp' := List.perm_insertionSort (fun a b : Button × Nat => a.2 ≤ b.2) d'
  unfold keyHeatmap at hm ⊢
  rw [heatLoop_ok _ (fun e he e' he' => hi e (hp.subset he) e' (hp.subset he')) ((hp.map Prod.fst).nodup_iff.2 w) [] (by simp)
    (fun e he => hok e (hp.subset he))] at hm
  rw [heatLoop_ok _ (fun e he e' he' => hi' e (hp'.subset he) e' (hp'.subset he')) ((hp'.map Prod.fst).nodup_iff.2 w') [] (by simp)
    (fun e he => hok e (h.symm.subset (hp'.subset he)))]
  simp only [bind, Except.bind, Except.ok.injEq, Prod.mk.injEq, List.nil_append] at hm
  obtain ⟨rfl, rfl⟩ := hm
  refine ⟨_, by simp only [bind, Except.bind, List.nil_append]; rw [(h.map Prod.snd).sum_eq], ?_⟩
  exact ((hp.trans h).trans hp'.symm).map _

/-- What is counted as a triad was pressed. -/
theorem triadCount_mem {ig : List Button} {evs : List Event} {k : Triad} (h : 0 < triadCount ig evs k) (c : Comb)
    (hc : c = k.1 ∨ c = k.2.1 ∨ c = k.2.2) : c ∈ presses evs ∧ notOn ig c = true := by
  unfold triadCount at h
  rw [sum_pos_iff] at h
  obtain ⟨st, hst, ho⟩ := h
  unfold occurrences at ho
  rw [List.countP_pos_iff] at ho
  obtain ⟨tl, htl, hp⟩ := ho
  simp only [decide_eq_true_eq] at hp
  have hm : c ∈ (presses st).filter (notOn ig) := by
    refine ((List.mem_tails _ _).1 htl).subset (hp.subset ?_)
    rcases hc with rfl | rfl | rfl <;> simp
  obtain ⟨h1, h2⟩ := List.mem_filter.1 hm
  obtain ⟨m, h3⟩ := mem_presses.1 h1
  exact ⟨mem_presses.2 ⟨m, mem_stretches hst h3⟩, h2⟩

end Lulua
