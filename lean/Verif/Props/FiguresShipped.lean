import Verif.Props.Figures
import Verif.Proofs.FiguresDemo1
import Verif.Proofs.FiguresDemo2
import Verif.Proofs.FiguresDemo3

/-!
# C122: corpora for which there is a page, and corpora for which there is none
-/

namespace Lulua.Props
open Lulua Spec

theorem oneText_built {su : Setup} {layers : List Layer} (hu : Usable su layers) (text : Text) : Built su (oneText text) := by
  have hok : ¬ ¬ ItemOk su (oneText text).extract ['x'] := not_not.2 ((C117_only_filters_fail _ _ hu _ _).2 rfl)
  refine ⟨⟨10, ?_⟩, .inl rfl⟩
  have s0 := Pool.Steps.refl (jobs := 1) (fails := fun l => ¬ ItemOk su (oneText text).extract l) (ints := False) (kills := False)
    (Pool.init 1 [['x']])
  have s1 := s0.tail (.feed (.inr (by decide)))
  have s2 := s1.tail (.take (a := []) (b := []))
  have s3 := s2.tail .checkEmpty
  have s4 := s3.tail .feedEnd
  have s5 := s4.tail (.putNone (.inr (by decide)))
  have s6 := s5.tail (.work (a := []) (b := []) hok)
  have s7 := s6.tail (.takeNone (a := []) (b := []))
  have s8 := s7.tail (.putResult (a := []) (b := []) (by decide))
  have s9 := s8.tail .getOk
  exact s9.tail .finish

theorem eightTimes_shipped {text : Text} {n : String} {l : LayoutRuns} (h : eightTimes text n = some l) :
    ShippedFor n l.setup ∧ l.runs = List.replicate 8 (oneText text) := by
  unfold eightTimes at h
  cases hd : Data.layouts.find? (·.name = n) with
  | none => rw [hd] at h; cases h
  | some d =>
    rw [hd] at h
    dsimp only at h
    cases hk : PhysicalKeyboard.deserialize (tableAfter []) Data.ibmpc105 with
    | error e => rw [hk] at h; cases h
    | ok x =>
      obtain ⟨t, kb, d'⟩ := x
      rw [hk] at h
      dsimp only at h
      cases hL : (GenericLayout.deserialize d).specialize t kb with
      | error e => rw [hL] at h; cases h
      | ok L =>
        rw [hL] at h
        dsimp only at h
        cases hi : AllStats.init t kb with
        | error e => rw [hi] at h; cases h
        | ok fresh =>
          rw [hi] at h
          simp only [Option.some.injEq] at h
          subst h
          exact ⟨⟨_, [], _, _, d', d, _, fresh, hk, List.mem_of_find?_eq_some hd, by simpa using List.find?_some hd, hL, hi, rfl⟩,
            rfl⟩

theorem eightTimes_typed {text : Text} {n : String} (hn : n ∈ genLayouts) {l : LayoutRuns} (h : eightTimes text n = some l) :
    AllTyped l ∧ ∀ t, t ∈ LayoutRuns.texts l ↔ t = text := by
  obtain ⟨h1, h2⟩ := eightTimes_shipped h
  obtain ⟨_, layers, hu, _⟩ := shippedFor_usable hn h1
  refine ⟨⟨fun r hr => ?_, fun r hr => ?_⟩, fun t => ?_⟩
  · rw [h2] at hr
    rw [(List.mem_replicate.1 hr).2]
    exact oneText_built hu text
  · rw [h2] at hr
    rw [(List.mem_replicate.1 hr).2]
    exact ⟨Nat.one_pos, rfl⟩
  · unfold LayoutRuns.texts
    rw [h2]
    simp [corpusTexts, oneText]

theorem demo_varied : ∀ n ∈ genLayouts, (eightTimes demoText n).any (variedCheck demoText) = true := by
  simp only [genLayouts, List.forall_mem_cons]
  exact ⟨varied_lulua, varied_asmo663, varied_linux, varied_malas, varied_phonetic, varied_osman, varied_khorshid, varied_osx, varied_idlebi, varied_alramly, varied_ergoarabic, varied_qtaish, by simp⟩

/-- All texts can be typed on all layouts. -/
theorem eightTimes_all (text : Text) : ∃ layouts, List.Forall₂ (fun n l => eightTimes text n = some l) genLayouts layouts := by
  have hfind : ∀ n ∈ genLayouts, (Data.layouts.find? (·.name = n)).isSome = true := by decide +kernel
  have hsome : ∀ n ∈ genLayouts, ∃ l, eightTimes text n = some l := by
    intro n hn
    obtain ⟨d, hd⟩ := Option.isSome_iff_exists.1 (hfind n hn)
    obtain ⟨t, kb, d', hk, h2⟩ := shipped_keyboard []
    have hmem := List.mem_of_find?_eq_some hd
    obtain ⟨ls, hL, _⟩ := load_layout h2 (shipped_good d hmem)
    obtain ⟨s0, _, hi, _⟩ := shipped_setup (fun _ => true) h2 d hmem _ hL
    simp only [eightTimes, hd, hk, hL, hi]
    exact ⟨_, rfl⟩
  revert hsome
  clear hfind
  generalize genLayouts = gs
  intro hsome
  induction gs with
  | nil => exact ⟨[], .nil⟩
  | cons n gs ih =>
    obtain ⟨l, hl⟩ := hsome n List.mem_cons_self
    obtain ⟨ls, hls⟩ := ih fun m hm => hsome m (List.mem_cons_of_mem _ hm)
    exact ⟨l :: ls, .cons hl hls⟩

/-- **C122** (an instance): corpora for which all conditions of `C122_page` hold. -/
theorem C122_page_demo (lower : Text → Text) : ∃ layouts lulua,
    List.Forall₂ (fun n (l : LayoutRuns) => ShippedFor n l.setup) genLayouts layouts ∧ (∀ l ∈ layouts, AllTyped l) ∧
    (∀ l ∈ layouts, Varied l) ∧ lulua ∈ layouts ∧ lulua.runs.length = 8 ∧
    ∃ p, buildPage lower Data.corpora lulua layouts = .ok p := by
  obtain ⟨layouts, hls⟩ := eightTimes_all demoText
  have hs : List.Forall₂ (fun n (l : LayoutRuns) => ShippedFor n l.setup) genLayouts layouts :=
    hls.imp fun n l h => (eightTimes_shipped h).1
  have ht : ∀ l ∈ layouts, AllTyped l := by
    intro l hl
    obtain ⟨n, hn, h⟩ := forall2_mem_right hls hl
    exact (eightTimes_typed hn h).1
  have hv : ∀ l ∈ layouts, Varied l := by
    intro l hl
    obtain ⟨n, hn, h⟩ := forall2_mem_right hls hl
    have hmem := (eightTimes_typed hn h).2
    have hc := demo_varied n hn
    rw [h, Option.any_some, variedCheck, Bool.and_eq_true, List.any_eq_true, List.all_eq_true] at hc
    obtain ⟨⟨x, hx, he⟩, hf⟩ := hc
    refine ⟨⟨demoText, (hmem _).2 rfl, x, hx, .inl (by simpa using he)⟩, fun d f => ⟨demoText, (hmem _).2 rfl, ?_⟩⟩
    have h1 := List.all_eq_true.1 (hf d (by cases d <;> decide)) f (by cases f <;> decide)
    simpa using h1
  obtain ⟨lulua, hl, h⟩ := forall2_mem_left hls (a := "ar-lulua") (by decide +kernel)
  have hr := (eightTimes_shipped h).2
  have h8 : lulua.runs.length = 8 := by rw [hr, List.length_replicate]
  have hc := demo_small
  rw [h, Option.any_some, decide_eq_true_eq] at hc
  have hover : ∀ f : List Event → Nat, f (typedFor lulua.setup demoText) < 10 ^ 26 → overTexts lulua f < 10 ^ 27 := by
    intro f hf
    have : LayoutRuns.texts lulua = List.replicate 8 demoText := by unfold LayoutRuns.texts; rw [hr]; rfl
    unfold overTexts
    rw [this, List.map_replicate, List.sum_replicate]
    simp only [smul_eq_mul]
    omega
  obtain ⟨p, hp, _⟩ := C122_page lower layouts hs ht hv lulua hl h8 ⟨hover _ hc.1, hover _ hc.2⟩
  exact ⟨layouts, lulua, hs, ht, hv, hl, h8, p, hp⟩

/-- **C122** is false of other corpora: with all letters and spaces nothing fails until there is no page, because the right
thumb has nothing to do on `ar-phonetic`. -/
theorem C122_page_false : ∃ layouts,
    List.Forall₂ (fun n (l : LayoutRuns) => ShippedFor n l.setup) genLayouts layouts ∧ (∀ l ∈ layouts, AllTyped l) ∧
    (∀ l ∈ layouts, ∀ t, t ∈ LayoutRuns.texts l ↔ t = demoLetters) ∧
    ∀ lower metas lulua p, buildPage lower metas lulua layouts ≠ .ok p := by
  obtain ⟨layouts, hls⟩ := eightTimes_all demoLetters
  have hs : List.Forall₂ (fun n (l : LayoutRuns) => ShippedFor n l.setup) genLayouts layouts :=
    hls.imp fun n l h => (eightTimes_shipped h).1
  have ht : ∀ l ∈ layouts, AllTyped l ∧ ∀ t, t ∈ LayoutRuns.texts l ↔ t = demoLetters := by
    intro l hl
    obtain ⟨n, hn, h⟩ := forall2_mem_right hls hl
    exact eightTimes_typed hn h
  refine ⟨layouts, hs, fun l hl => (ht l hl).1, fun l hl => (ht l hl).2, fun lower metas lulua p hp => ?_⟩
  have hv := C122_page_needs lower metas layouts hs (fun l hl => (ht l hl).1) lulua p hp
  obtain ⟨l, hl, h⟩ := forall2_mem_left hls (a := "ar-phonetic") (by decide +kernel)
  obtain ⟨t, ht', hpos⟩ := (hv l hl).fingers .right .thumb
  rw [((ht l hl).2 t).1 ht'] at hpos
  have hc := phonetic_thumb
  rw [h, Option.any_some, decide_eq_true_eq] at hc
  omega

end Lulua.Props
