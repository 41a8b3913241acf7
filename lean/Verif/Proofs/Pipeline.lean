import Verif.Spec.Pipeline
import Verif.Props.Pool
import Verif.Props.Shipped

/-!
# Proofs about the statistics of whole corpora
-/

namespace Lulua
open Spec

/-! ### Lists -/

theorem runs_map {α β : Type} [DecidableEq α] [DecidableEq β] {f : α → β} (hf : Function.Injective f) (l : List α) :
    runs (l.map f) = (runs l).map (List.map f) := by
  unfold runs
  rw [List.splitBy_eq_iff]
  refine ⟨?_, ?_, ?_, ?_⟩
  · rw [← List.map_flatten, List.flatten_splitBy]
  · simp only [List.mem_map, List.map_eq_nil_iff, exists_eq_right]
    exact List.nil_notMem_splitBy _ _
  · intro m hm
    obtain ⟨m', hm', rfl⟩ := List.mem_map.1 hm
    have := List.isChain_of_mem_splitBy hm'
    rw [List.isChain_map]
    exact this.imp (fun a b h => by simpa using congrArg f (by simpa using h))
  · have := List.isChain_getLast_head_splitBy (fun a b => decide (a = b)) l
    rw [List.isChain_map]
    refine this.imp ?_
    rintro a b ⟨ha, hb, h⟩
    refine ⟨by simpa using ha, by simpa using hb, ?_⟩
    simp only [List.getLast_map, List.head_map, decide_eq_false_iff_not] at h ⊢
    exact fun he => h (hf he)

theorem completedRuns_map {α β : Type} [DecidableEq α] [DecidableEq β] {f : α → β} (hf : Function.Injective f)
    (l : List α) (x : α) (n : Nat) :
    (completedRuns (l.map f)).count (List.replicate n (f x)) = (completedRuns l).count (List.replicate n x) := by
  unfold completedRuns
  rw [runs_map hf, ← List.map_dropLast, ← List.map_replicate,
    List.count_map_of_injective _ _ (List.map_injective_iff.2 hf)]

theorem mem_stretches {evs s : List Event} (hs : s ∈ stretches evs) {e : Event} (he : e ∈ s) : e ∈ evs := by
  unfold stretches at hs
  induction evs generalizing s with
  | nil => simp at hs; subst hs; simp at he
  | cons a evs ih =>
    rw [List.splitOnP_cons_eq_if_modifyHead] at hs
    split at hs
    · rcases List.mem_cons.1 hs with rfl | hs
      · simp at he
      · exact List.mem_cons_of_mem _ (ih hs he)
    · cases hsp : evs.splitOnP isSkip with
      | nil => exact absurd hsp (List.splitOnP_ne_nil _ _)
      | cons y ys =>
        rw [hsp] at hs ih
        simp only [List.modifyHead_cons, List.mem_cons] at hs
        rcases hs with rfl | hs
        · rcases List.mem_cons.1 he with rfl | he
          · simp
          · exact List.mem_cons_of_mem _ (ih (by simp) he)
        · exact List.mem_cons_of_mem _ (ih (by simp [hs]) he)

theorem runCount_some {α : Type} [DecidableEq α] {f : Comb → α} {g : Comb → Option α} {evs : List Event}
    (h : ∀ t c, Event.typed t c ∈ evs → g c = some (f c)) (x : α) (n : Nat) :
    runCount g evs (some x) n = runCount f evs x n := by
  unfold runCount
  congr 1
  apply List.map_congr_left
  intro s hs
  rw [← completedRuns_map (Option.some_injective α) ((presses s).map f) x n, List.map_map]
  have : (presses s).map g = (presses s).map (some ∘ f) := ?_
  · rw [this]
  apply List.map_congr_left
  intro c hc
  obtain ⟨e, he, hc⟩ := List.mem_filterMap.1 hc
  cases e with
  | skip _ => simp [press?] at hc
  | typed t c' =>
    simp only [press?, Option.some.injEq] at hc
    subst hc
    exact h t c' (mem_stretches hs he)

theorem sum_flatMap_count {α β : Type} [DecidableEq β] (l : List α) (f : α → List β) (b : β) :
    (l.flatMap f).count b = (l.map fun a => (f a).count b).sum := by
  induction l with
  | nil => rfl
  | cons a l ih => simp [List.count_append, ih]

/-! ### One text -/

/-- Typing any text succeeds, and its statistics are what was typed. -/
theorem textStats_counts {su : Setup} {layers : List Layer} (hu : Usable su layers) (t : Text) :
    ∃ r, textStats su t = .ok r ∧ CountsOf su [t] r := by
  obtain ⟨name, kb, hL⟩ := hu.layout
  have hfin : (typeText su.hf su.layout none (replaceCRLF (mapChars t charMap))).2 = .finished := by
    rw [hL]; exact Props.C05_no_exception _ _ _ _ _ _ hu.unknownButton hu.reachable hu.noEmptyText
  have hev : typedFor su t = (typeText su.hf (KeyboardLayout.mk' name layers kb) none (replaceCRLF (mapChars t charMap))).1 := by
    unfold typedFor; rw [hL]
  obtain ⟨pos, hpos⟩ : ∃ pos, Presses su.hf pos (typedFor su t) := by
    rw [hev]; exact typed_presses hu.fingered name kb none _
  have htx : TextsOf su.layout (typedFor su t) := by
    rw [hev, hL]; exact Props.C21_typed_texts _ _ _ _ _ _ hu.unambiguous hu.dicts
  have hsb : SingleButtons (typedFor su t) := by rw [hev]; exact typed_singleButtons _ _ _ _ _ _
  obtain ⟨rl, r1, _, _, _, r5, _⟩ := runlen_fold su.hf pos _ hpos
  obtain ⟨tr, t1, _, _, _, t5⟩ := triads_fold su.fresh.triads.ignored _ hsb
  obtain ⟨wd, w1, _, _, w4⟩ := words_fold su.letter su.layout _ htx
  have h0 : su.fresh.triads = ⟨[], [], su.fresh.triads.ignored⟩ := by
    rw [← hu.noTriad, ← hu.fresh.triads]
  have hall : AllStats.processAll su.hf su.letter su.layout su.fresh (typedFor su t) =
      .ok ⟨(typedFor su t).foldl SimpleStats.process .init, rl, tr, wd⟩ := by
    rw [processAll_ok_iff]
    exact ⟨by rw [hu.fresh.simple], by rw [hu.fresh.runlen]; exact r1, by rw [h0]; exact t1,
      by rw [hu.fresh.words]; exact w1⟩
  refine ⟨_, (Props.C25_one_text su t _).2 ⟨hfin, hall⟩, ?_⟩
  obtain ⟨_, s2, s3, s4, _⟩ := simple_fold (typedFor su t) .init Dict.wf_nil Dict.wf_nil Dict.wf_nil
  refine ⟨fun b => ?_, fun c => ?_, fun c => ?_, fun h n => ?_, fun k => ?_, fun w => ?_⟩
  · simp only [s3, List.map_cons, List.map_nil, List.sum_cons, List.sum_nil, buttonPresses, sum_flatMap_count, Comb.iter]
    simp [SimpleStats.init]
  · simp only [s2, List.map_cons, List.map_nil, List.sum_cons, List.sum_nil]
    simp [SimpleStats.init]
  · simp only [s4, List.map_cons, List.map_nil, List.sum_cons, List.sum_nil]
    simp [SimpleStats.init]
  · rw [r5]
    simp only [List.map_cons, List.map_nil, List.sum_cons, List.sum_nil, Nat.add_zero]
    refine (runCount_some (f := fun c => (pos c).1) ?_ h n).symm
    intro m c hc
    obtain ⟨b, h1, h2⟩ := hpos m c hc
    simp [handOf, h1, h2]
  · rw [t5]; simp
  · rw [w4]; simp

/-! ### Several texts -/

theorem countsOf_perm {su : Setup} {ts ts' : List Text} {s : AllStats} (h : CountsOf su ts s) (hp : ts.Perm ts') :
    CountsOf su ts' s :=
  ⟨fun b => by rw [h.buttons, (hp.map _).sum_eq], fun b => by rw [h.combinations, (hp.map _).sum_eq],
    fun b => by rw [h.unknown, (hp.map _).sum_eq], fun b n => by rw [h.hands, (hp.map _).sum_eq],
    fun b => by rw [h.triads, (hp.map _).sum_eq], fun b => by rw [h.words, (hp.map _).sum_eq]⟩

theorem sum_map_flatten {α : Type} (l : List (List α)) (f : α → Nat) : (l.flatten.map f).sum = (l.map fun x => (x.map f).sum).sum := by
  induction l with
  | nil => rfl
  | cons x l ih => rw [List.flatten_cons, List.map_append, List.sum_append, ih, List.map_cons, List.sum_cons]

theorem sum_forall2 {α β : Type} {R : α → β → Prop} {as : List α} {bs : List β} (h : List.Forall₂ R as bs) (f : α → Nat)
    (g : β → Nat) (hR : ∀ a b, R a b → g b = f a) : (bs.map g).sum = (as.map f).sum := by
  induction h with
  | nil => rfl
  | cons h1 _ ih => simp [hR _ _ h1, ih]

/-- Combining files combines what they count. -/
theorem countsOf_combine {su : Setup} (hfr : Fresh su.fresh) {tss : List (List Text)} {files : List AllStats}
    (h : List.Forall₂ (fun ts f => StatsOk f ∧ CountsOf su ts f) tss files) :
    StatsOk (AllStats.combine su.fresh files) ∧ CountsOf su tss.flatten (AllStats.combine su.fresh files) := by
  have hok : ∀ f ∈ files, StatsOk f := by
    intro f hf
    obtain ⟨ts, _, h1, _⟩ := forall2_mem_right h hf
    exact h1
  obtain ⟨s1, s2, s3, s4, s5, s6⟩ := Props.C24_sums su.fresh hfr files hok
  refine ⟨(combine_sem hfr hok).1, fun b => ?_, fun b => ?_, fun b => ?_, fun b n => ?_, fun b => ?_, fun b => ?_⟩
  · rw [s1, sum_map_flatten]; exact sum_forall2 h _ _ fun _ _ hr => hr.2.buttons b
  · rw [s2, sum_map_flatten]; exact sum_forall2 h _ _ fun _ _ hr => hr.2.combinations b
  · rw [s3, sum_map_flatten]; exact sum_forall2 h _ _ fun _ _ hr => hr.2.unknown b
  · rw [s4, sum_map_flatten]; exact sum_forall2 h _ _ fun _ _ hr => hr.2.hands b n
  · rw [s5, sum_map_flatten]; exact sum_forall2 h _ _ fun _ _ hr => hr.2.triads b
  · rw [s6, sum_map_flatten]; exact sum_forall2 h _ _ fun _ _ hr => hr.2.words b

/-! ### One corpus -/

theorem countsOf_nil {su : Setup} (hfr : Fresh su.fresh) {s : AllStats} (h : s = AllStats.combine su.fresh []) :
    CountsOf su [] s := by
  subst h
  exact (countsOf_combine hfr (tss := []) .nil).2

/-- What a worker has counted. -/
theorem worker_counts {su : Setup} {layers : List Layer} (hu : Usable su layers) (extract : Text → Gen Text) (p : List Text)
    (h : ∀ i ∈ p, ItemOk su extract i) :
    ∃ o, writeWorker su extract p = .ok o ∧ ((o = none ∧ textsOf extract p = []) ∨
      ∃ s, o = some s ∧ StatsOk s ∧ CountsOf su (textsOf extract p) s) := by
  obtain ⟨rs, a1, a2⟩ := workItems_ok su extract p ⟨su.fresh, 0⟩ h
  refine ⟨if 0 + (textsOf extract p).length > 0 then some (AllStats.combine su.fresh rs) else none,
    by simp only [writeWorker, a2, bind, Except.bind]; rfl, ?_⟩
  by_cases hl : textsOf extract p = []
  · left; exact ⟨by simp [hl], hl⟩
  · right
    refine ⟨_, if_pos (by simpa using List.length_pos_iff.2 hl), ?_⟩
    have h2 : List.Forall₂ (fun ts f => StatsOk f ∧ CountsOf su ts f) ((textsOf extract p).map fun t => [t]) rs := by
      rw [List.forall₂_map_left_iff]
      refine a1.imp ?_
      intro t r hr
      obtain ⟨r', h3, h4⟩ := textStats_counts hu t
      rw [hr] at h3
      simp only [Except.ok.injEq] at h3
      subst h3
      exact ⟨textStats_ok hu.fresh hr, h4⟩
    have := countsOf_combine hu.fresh h2
    have he : ((textsOf extract p).map fun t => [t]).flatten = textsOf extract p := by
      simp [← List.flatMap_def]
    rw [he] at this
    exact this

/-- The file of a corpus has the statistics of the texts of the lines whose results were taken. -/
theorem pickle_counts {su : Setup} {layers : List Layer} (hu : Usable su layers) (r : CorpusRun)
    (h : ∀ p ∈ r.final.results, ∀ i ∈ p, ItemOk su r.extract i) :
    ∃ f, r.pickle su = .ok f ∧ StatsOk f ∧ CountsOf su (textsOf r.extract r.final.results.flatten) f := by
  have key : ∀ ps : List (List Text), (∀ p ∈ ps, ∀ i ∈ p, ItemOk su r.extract i) →
      ∃ os tss, ps.mapM (writeWorker su r.extract) = .ok os ∧ List.Forall₂ (fun ts f => StatsOk f ∧ CountsOf su ts f) tss (os.filterMap id) ∧
        tss.flatten = textsOf r.extract ps.flatten := by
    intro ps hps
    induction ps with
    | nil => exact ⟨[], [], rfl, .nil, rfl⟩
    | cons p ps ih =>
      obtain ⟨os, tss, h1, h2, h3⟩ := ih fun q hq => hps q (by simp [hq])
      obtain ⟨o, h4, h5⟩ := worker_counts hu r.extract p (hps p (by simp))
      have h6 : (p :: ps).mapM (writeWorker su r.extract) = .ok (o :: os) := by
        rw [List.mapM_cons, h4, h1]; rfl
      have h7 : textsOf r.extract (p :: ps).flatten = textsOf r.extract p ++ textsOf r.extract ps.flatten := by
        simp [textsOf]
      rcases h5 with ⟨rfl, h5⟩ | ⟨s, rfl, h8, h9⟩
      · exact ⟨_, tss, h6, by simpa using h2, by rw [h7, h5, h3]; rfl⟩
      · refine ⟨_, textsOf r.extract p :: tss, h6, ?_, by rw [h7, List.flatten_cons, h3]⟩
        simp only [List.filterMap_cons, id]
        exact .cons ⟨h8, h9⟩ h2
  obtain ⟨os, tss, h1, h2, h3⟩ := key r.final.results h
  obtain ⟨h4, h5⟩ := countsOf_combine hu.fresh h2
  exact ⟨_, by simp only [CorpusRun.pickle, CorpusRun.output, h1, bind, Except.bind], h4, h3 ▸ h5⟩

/-- Nothing enters the pool but the input. -/
theorem everything_step {ι : Type} {jobs : Nat} {fails : ι → Prop} {ints kills : Prop} {s t : Pool ι}
    (h : Pool.Step jobs fails ints kills s t) : (t.everything ++ t.main.todo).Subperm (s.everything ++ s.main.todo) := by
  classical
  rw [List.subperm_iff_count]
  intro x
  cases h <;> simp [Pool.everything, MState.todo, WState.items, Res.items, List.count_cons] <;> try omega
  case putResult _ _ _ _ _ r _ _ => cases r <;> simp <;> omega

theorem results_subperm {ι : Type} {jobs : Nat} {items : List ι} {fails : ι → Prop} {ints kills : Prop} {s : Pool ι}
    (h : PoolReachable jobs items fails ints kills s) : s.results.flatten.Subperm items := by
  obtain ⟨n, h⟩ := h
  have key : (s.everything ++ s.main.todo).Subperm items := by
    generalize hs : Pool.init jobs items = s0 at h
    induction h with
    | refl => subst hs; simp only [Pool.everything, Pool.init, MState.todo]; simp [WState.items, List.Subperm.refl]
    | tail _ h2 ih => exact (everything_step h2).trans (ih hs)
  refine List.Subperm.trans ?_ key
  unfold Pool.everything
  rw [List.append_assoc, List.append_assoc, List.append_assoc]
  exact (List.sublist_append_left _ _).subperm

theorem sum_subperm {α : Type} {l l' : List α} (h : l.Subperm l') (f : α → Nat) : (l.map f).sum ≤ (l'.map f).sum := by
  obtain ⟨m, hp, hs⟩ := h
  rw [← (hp.map f).sum_eq]
  exact (hs.map f).sum_le_sum (by simp)

theorem countsOf_atMost {su : Setup} {ts ts' : List Text} {s : AllStats} (h : CountsOf su ts s) (hp : ts.Subperm ts') :
    AtMost su ts' s :=
  ⟨fun b => by rw [h.buttons]; exact sum_subperm hp _, fun b => by rw [h.combinations]; exact sum_subperm hp _,
    fun b => by rw [h.unknown]; exact sum_subperm hp _, fun b n => by rw [h.hands]; exact sum_subperm hp _,
    fun b => by rw [h.triads]; exact sum_subperm hp _, fun b => by rw [h.words]; exact sum_subperm hp _⟩

theorem subperm_flatMap {α β : Type} {l l' : List α} (h : l.Subperm l') (f : α → List β) :
    (l.flatMap f).Subperm (l'.flatMap f) := by
  obtain ⟨m, hp, hs⟩ := h
  exact ⟨m.flatMap f, hp.flatMap_right f, hs.flatMap f⟩

theorem subperm_flatten {α : Type} {l l' : List (List α)} (h : List.Forall₂ List.Subperm l l') :
    l.flatten.Subperm l'.flatten := by
  induction h with
  | nil => exact .refl _
  | cons h1 _ ih => exact h1.append ih

/-- Every file exists, and counts some of the texts of its corpus, all if `lulua-write` returned. -/
theorem built_counts {su : Setup} {layers : List Layer} (hu : Usable su layers) {r : CorpusRun} (hb : Built su r) :
    ∃ f ts, r.pickle su = .ok f ∧ StatsOk f ∧ CountsOf su ts f ∧ ts.Subperm (corpusTexts r) ∧
      (0 < r.jobs → r.final.main = .done → ts.Perm (corpusTexts r)) := by
  classical
  have hfi := failInv_reachable hb.reachable
  obtain ⟨f, h1, h2, h3⟩ := pickle_counts hu r fun p hp i hi => not_not.1 (hfi.fineR p hp i hi)
  refine ⟨f, _, h1, h2, h3, subperm_flatMap (results_subperm hb.reachable) _, fun hj hd => ?_⟩
  exact (Props.C26_exactly_once r.jobs hj r.lines _ r.final hb.reachable hd).1.flatMap_right _

/-- The same for all corpora. -/
theorem all_built_counts {su : Setup} {layers : List Layer} (hu : Usable su layers) {runs : List CorpusRun}
    (hb : ∀ r ∈ runs, Built su r) :
    ∃ files tss, runs.mapM (CorpusRun.pickle su) = .ok files ∧
      List.Forall₂ (fun ts f => StatsOk f ∧ CountsOf su ts f) tss files ∧
      List.Forall₂ (fun ts r => ts.Subperm (corpusTexts r) ∧ (0 < r.jobs → r.final.main = .done → ts.Perm (corpusTexts r)))
        tss runs := by
  induction runs with
  | nil => exact ⟨[], [], rfl, .nil, .nil⟩
  | cons r runs ih =>
    obtain ⟨files, tss, h1, h2, h3⟩ := ih fun x hx => hb x (by simp [hx])
    obtain ⟨f, ts, g1, g2, g3, g4, g5⟩ := built_counts hu (hb r (by simp))
    refine ⟨f :: files, ts :: tss, ?_, .cons ⟨g2, g3⟩ h2, .cons ⟨g4, g5⟩ h3⟩
    rw [List.mapM_cons, g1, h1]; rfl

end Lulua
