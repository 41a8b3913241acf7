import Verif.Props.Pretty
import Verif.Props.Import
import Verif.Props.Util

/-!
# C107 on shipped layouts
-/

namespace Lulua.Props
open Lulua Lulua.Spec

theorem bump_pos {κ : Type} [DecidableEq κ] {d : Dict κ Nat} (h : ∀ e ∈ d, 0 < e.2) (k : κ) (n : Nat) (hn : 0 < n) :
    ∀ e ∈ d.bump k n, 0 < e.2 := by
  intro e he
  rcases Dict.mem_set he with h' | h'
  · rw [h']; simp only; omega
  · exact h e h'

theorem iter_bump_pos (l : List Button) (d : Dict Button Nat) (h : ∀ e ∈ d, 0 < e.2) :
    ∀ e ∈ l.foldl (fun d b => d.bump b 1) d, 0 < e.2 := by
  induction l generalizing d with
  | nil => exact h
  | cons b l ih => exact ih _ (bump_pos h b 1 (by omega))

theorem simple_pos (evs : List Event) (s : SimpleStats) (h1 : ∀ e ∈ s.buttons, 0 < e.2) (h2 : ∀ e ∈ s.combinations, 0 < e.2) :
    (∀ e ∈ (evs.foldl SimpleStats.process s).buttons, 0 < e.2) ∧ ∀ e ∈ (evs.foldl SimpleStats.process s).combinations, 0 < e.2 := by
  induction evs generalizing s with
  | nil => exact ⟨h1, h2⟩
  | cons ev evs ih =>
    refine ih _ ?_ ?_
    · cases ev with
      | skip c => exact h1
      | typed t c => exact iter_bump_pos _ _ h1
    · cases ev with
      | skip c => exact h2
      | typed t c => exact bump_pos h2 _ _ (by omega)

theorem runlen_pos (hf : HandFinger) (evs : List Event) (s r : RunlenStats) (h : evs.foldlM (RunlenStats.process hf) s = .ok r)
    (hs : ∀ h ∈ s.perHand, ∀ e ∈ h.2, 0 < e.2) : ∀ h ∈ r.perHand, ∀ e ∈ h.2, 0 < e.2 := by
  induction evs generalizing s with
  | nil => simp only [List.foldlM_nil, pure, Except.pure, Except.ok.injEq] at h; subst h; exact hs
  | cons ev evs ih =>
    simp only [List.foldlM_cons, bind_ok_iff] at h
    obtain ⟨s1, h1, h2⟩ := h
    refine ih _ h2 ?_
    cases ev with
    | skip c => simp only [RunlenStats.process, Except.ok.injEq] at h1; subst h1; exact hs
    | typed t c =>
      by_cases hl : c.buttons.length = 1
      swap
      · simp [RunlenStats.process, hl, bind, Except.bind] at h1
      simp only [RunlenStats.process, hl, ne_eq, not_true_eq_false, if_false, pure_bind, bind_ok_iff, Except.ok.injEq] at h1
      obtain ⟨b, _, pos, _, s2, h3, s3, h4, rfl⟩ := h1
      have e1 : s3.perHand = s2.perHand := by
        simp only [RunlenStats.flushFinger] at h4
        split at h4
        · simp only [Except.ok.injEq] at h4; rw [← h4]
        · split at h4
          · simp only [bind_ok_iff, Except.ok.injEq] at h4
            obtain ⟨_, _, rfl⟩ := h4; rfl
          · simp only [Except.ok.injEq] at h4; rw [← h4]
      simp only [e1]
      simp only [RunlenStats.flushHand] at h3
      split at h3
      · simp only [Except.ok.injEq] at h3; rw [← h3]; exact hs
      · split at h3
        · simp only [bind_ok_iff, Except.ok.injEq, bumpNested] at h3
          obtain ⟨_, ⟨inner, h5, rfl⟩, rfl⟩ := h3
          intro x hx
          rcases Dict.mem_set hx with h' | h'
          · rw [h']
            exact bump_pos (hs _ (Dict.mem_of_get? (Dict.getItem_eq_ok.1 h5))) _ _ (by omega)
          · exact hs x h'
        · simp only [Except.ok.injEq] at h3; rw [← h3]; exact hs

theorem words_pos (letter : Char → Bool) (L : KeyboardLayout) (evs : List Event) (s r : WordStats)
    (h : evs.foldlM (WordStats.process letter L) s = .ok r) (hs : ∀ e ∈ s.words, 0 < e.2) : ∀ e ∈ r.words, 0 < e.2 := by
  induction evs generalizing s with
  | nil => simp only [List.foldlM_nil, pure, Except.pure, Except.ok.injEq] at h; subst h; exact hs
  | cons ev evs ih =>
    simp only [List.foldlM_cons, bind_ok_iff] at h
    obtain ⟨s1, h1, h2⟩ := h
    refine ih _ h2 ?_
    cases ev with
    | skip c => simp only [WordStats.process, Except.ok.injEq] at h1; subst h1; exact hs
    | typed t c =>
      simp only [WordStats.process, bind_ok_iff] at h1
      obtain ⟨v, hv, h3⟩ := h1
      clear hv
      cases v with
      | other n => simp [WordStats.processText] at h3
      | str x =>
        simp only [WordStats.processText, Except.ok.injEq] at h3
        subst h3
        clear h2 ih
        induction x generalizing s with
        | nil => exact hs
        | cons ch x ih =>
          refine ih _ ?_
          unfold WordStats.processChar
          split
          · exact hs
          · split
            · exact hs
            · exact bump_pos hs _ _ (by omega)

/-- **C107** (shipped layouts): the statistics of every text without backspaces, typed with any shipped layout, can be
printed with that layout and rated with both models, if the names of formatting characters can be abbreviated. -/
theorem C107_shipped (u : UniData) (hu : ∀ c n, u.format c = true → u.name c = some n → ∃ x, initials u n = .ok x)
    (letter : Char → Bool) (p : ModelParams) (hp : p ∈ Data.models) (names : List String) (t : InternTable)
    (kb : PhysicalKeyboard) (d' : KeyboardData)
    (hk : PhysicalKeyboard.deserialize (tableAfter names) Data.ibmpc105 = .ok (t, kb, d'))
    (d : LayoutData) (hd : d ∈ Data.layouts) (L : KeyboardLayout)
    (hL : (GenericLayout.deserialize d).specialize t kb = .ok L) (text : Text) (hb : '\x08' ∉ text) (fresh s : AllStats)
    (h0 : AllStats.init t kb = .ok fresh)
    (hs : AllStats.processAll (getHandFinger Data.fingermap t) letter L fresh
      (typeText (getHandFinger Data.fingermap t) L none text).1 = .ok s) :
    ∃ r, pretty u L (shippedEnv p t kb) s = .ok r := by
  obtain ⟨tr, ht, hrate, _⟩ := C36_rateable_partial p hp names t kb d' hk d hd L hL text hb
  have h2 := shipped_loaded hk
  have hg := shipped_good d hd
  obtain ⟨ls, h3, h4⟩ := load_layout h2 hg
  rw [hL] at h3
  simp only [Except.ok.injEq] at h3
  subst h3
  simp only [AllStats.init, bind_ok_iff, Except.ok.injEq] at h0
  obtain ⟨tr0, h5, rfl⟩ := h0
  obtain ⟨q1, q2, q3, q4⟩ := (processAll_ok_iff ..).1 hs
  simp only [triadsOfText, h5, bind, Except.bind] at ht
  simp only at q1 q2 q3 q4
  rw [ht, Except.ok.injEq] at q3
  obtain ⟨p1, p2⟩ := simple_pos (typeText (getHandFinger Data.fingermap t) (KeyboardLayout.mk' d.name ls kb) none text).1 .init
    (by simp [SimpleStats.init]) (by simp [SimpleStats.init])
  rw [← q1] at p1 p2
  refine (C107_works u _ (shippedEnv p t kb) s p1 p2 (runlen_pos _ _ _ _ q2 (by decide))
    (words_pos _ _ _ _ _ q4 (by simp [WordStats.init]))).2.2 ⟨?_, by rw [← q3]; exact hrate⟩
  intro e he
  have hc : e.1 ∈ presses (typeText (getHandFinger Data.fingermap t) (KeyboardLayout.mk' d.name ls kb) none text).1 := by
    obtain ⟨⟨_, w, _⟩, hcount, _⟩ := simple_fold
      (typeText (getHandFinger Data.fingermap t) (KeyboardLayout.mk' d.name ls kb) none text).1 .init Dict.wf_nil Dict.wf_nil
      Dict.wf_nil
    have h6 := hcount e.1
    rw [← q1] at h6 w
    have h7 := Dict.get?_of_mem w he
    have h8 := p2 e he
    simp only [Dict.count, h7, Option.getD_some, SimpleStats.init, Dict.get?_nil, Option.getD_none, zero_add] at h6
    rw [h6] at h8
    exact List.count_pos_iff.1 h8
  obtain ⟨m, hm⟩ := mem_presses.1 hc
  have hget := C03_combination_types_match d.name ls kb _ none text m e.1 (h4.unambiguous hg (fun n hn => h2.called hn)) h4.wf hm
  simp only [combinationText, hget, bind_ok_iff, Except.ok.injEq, exists_eq_left', displayVal]
  have hdisp : ∃ r, displayText u (some m) = .ok (some r) := by
    simp only [displayText]
    split
    · exact ⟨_, rfl⟩
    · split
      · next c =>
        split
        · split
          · next hf _ n hn =>
            obtain ⟨x, hx⟩ := hu _ n hf hn
            exact ⟨_, by rw [hx]; rfl⟩
          · exact ⟨_, rfl⟩
        · exact ⟨_, rfl⟩
      · exact ⟨_, rfl⟩
  obtain ⟨r, hr⟩ := hdisp
  exact ⟨r, some r, hr, rfl⟩

example : ((AllStats.processAll demoHf demoLetter demoLayout demoFresh (typeText demoHf demoLayout none "abA ba".toList).1).bind
    (prettyTables demoUni demoLayout)).map (fun p => (p.presses, p.combinations.map fun r => (r.rank, r.text, r.share))) =
    .ok (5, [(4, ['a', 'b'], 25), (3, ['A'], 25), (2, ['\u2423'], 25), (1, ['a'], 25)]) := by decide +kernel

end Lulua.Props
