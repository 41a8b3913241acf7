import Verif.Spec.Ninja
import Verif.Proofs.Page

/-!
# Lemmas about the build file
-/

namespace Lulua
open Spec

/-- What holds for the statements of every part holds for all. -/
theorem genBuild_cases {w : GenWorld} {P : Build → Prop} (first : ∀ b ∈ firstBuilds, P b)
    (winkbd : ∀ f ∈ w.winkbd, P (winkbdBuild f)) (driver : ∀ b ∈ driverBuilds w, P b)
    (layout : ∀ l ∈ genLayouts, ∀ b ∈ layoutBuilds w l, P b) (xmodmap : P (xmodmapBuild "ar-lulua"))
    (meta_ : ∀ c ∈ w.corpora, P (metaBuild c)) (last : ∀ b ∈ lastBuilds w, P b) : ∀ b ∈ genBuild w, P b := by
  intro b hb
  simp only [genBuild, List.mem_append, List.mem_map, List.mem_flatMap, List.mem_singleton] at hb
  rcases hb with (((((h | ⟨f, hf, rfl⟩) | h) | ⟨l, hl, h⟩) | ⟨_, rfl, rfl⟩) | ⟨c, hc, rfl⟩) | h
  · exact first b h
  · exact winkbd f hf
  · exact driver b h
  · exact layout l hl b h
  · exact xmodmap
  · exact meta_ c hc
  · exact last b h

theorem mem_first {w : GenWorld} {b : Build} (h : b ∈ firstBuilds) : b ∈ genBuild w := by simp [genBuild, h]
theorem mem_winkbd {w : GenWorld} {f : String} (h : f ∈ w.winkbd) : winkbdBuild f ∈ genBuild w := by
  simp only [genBuild, List.mem_append, List.mem_map]; exact .inl <| .inl <| .inl <| .inl <| .inl <| .inr ⟨f, h, rfl⟩
theorem mem_driver {w : GenWorld} {b : Build} (h : b ∈ driverBuilds w) : b ∈ genBuild w := by simp [genBuild, h]
theorem mem_layout {w : GenWorld} {l : String} {b : Build} (hl : l ∈ genLayouts) (h : b ∈ layoutBuilds w l) :
    b ∈ genBuild w := by
  simp only [genBuild, List.mem_append, List.mem_flatMap]; exact .inl <| .inl <| .inl <| .inr ⟨l, hl, h⟩
theorem mem_xmodmap {w : GenWorld} : xmodmapBuild "ar-lulua" ∈ genBuild w := by simp [genBuild]
theorem mem_meta {w : GenWorld} {c : String} (h : c ∈ w.corpora) : metaBuild c ∈ genBuild w := by
  simp only [genBuild, List.mem_append, List.mem_map]; exact .inl <| .inr ⟨c, h, rfl⟩
theorem mem_last {w : GenWorld} {b : Build} (h : b ∈ lastBuilds w) : b ∈ genBuild w := by simp [genBuild, h]

/-! ### Outputs -/

/-- Outputs of the statements that are the same for all directory trees. -/
def fixedOuts : List Path :=
  (firstBuilds ++ driverBuilds ⟨[], [], [], [], [], [], []⟩ ++
    genLayouts.flatMap (layoutBuilds ⟨[], [], [], [], [], [], []⟩) ++ ["ar-lulua"].map xmodmapBuild ++
    lastBuilds ⟨[], [], [], [], [], [], []⟩).flatMap (·.outs)

theorem fixedOuts_nodup : fixedOuts.Nodup := by decide +kernel

theorem outs_perm (w : GenWorld) : ((genBuild w).flatMap (·.outs)).Perm
    (fixedOuts ++ (w.winkbd.map winkbdFile ++ w.corpora.map metaOut)) := by
  have h1 : (w.winkbd.map winkbdBuild).flatMap (·.outs) = w.winkbd.map winkbdFile := by
    induction w.winkbd with
    | nil => rfl
    | cons a l ih => simp_all [winkbdBuild]
  have h2 : (w.corpora.map metaBuild).flatMap (·.outs) = w.corpora.map metaOut := by
    induction w.corpora with
    | nil => rfl
    | cons a l ih => simp_all [metaBuild]
  have h3 : (driverBuilds w).flatMap (·.outs) = (driverBuilds ⟨[], [], [], [], [], [], []⟩).flatMap (·.outs) := rfl
  have h4 : (genLayouts.flatMap (layoutBuilds w)).flatMap (·.outs) =
      (genLayouts.flatMap (layoutBuilds ⟨[], [], [], [], [], [], []⟩)).flatMap (·.outs) := rfl
  have h5 : (lastBuilds w).flatMap (·.outs) = (lastBuilds ⟨[], [], [], [], [], [], []⟩).flatMap (·.outs) := rfl
  simp only [genBuild, fixedOuts, List.flatMap_append, h1, h2, h3, h4, h5]
  generalize firstBuilds.flatMap (·.outs) = a
  generalize (driverBuilds ⟨[], [], [], [], [], [], []⟩).flatMap (·.outs) = b
  generalize (genLayouts.flatMap (layoutBuilds ⟨[], [], [], [], [], [], []⟩)).flatMap (·.outs) = c
  generalize (["ar-lulua"].map xmodmapBuild).flatMap (·.outs) = d
  generalize (lastBuilds ⟨[], [], [], [], [], [], []⟩).flatMap (·.outs) = e
  generalize w.winkbd.map winkbdFile = f
  generalize w.corpora.map metaOut = g
  classical
  rw [List.perm_iff_count]
  intro x
  simp only [List.count_append]
  omega

theorem winkbdFile_inj {f g : String} : winkbdFile f = winkbdFile g ↔ f = g := by simp [winkbdFile, tempdir]

theorem metaOut_inj {c d : String} : metaOut c = metaOut d ↔ c = d := by
  simp only [metaOut, tempdir, List.cons_append, List.nil_append, List.cons.injEq, and_true, true_and]
  constructor
  · intro h
    have h := congrArg String.toList h
    simpa [String.toList_append, String.toList_inj] using h
  · rintro rfl; rfl

theorem mem_fixedOuts_winkbd (f : String) : winkbdFile f ∈ fixedOuts ↔ f = "keyboard.c" := by
  constructor
  · intro h
    have key : ∀ p ∈ fixedOuts, p.take 3 = ["_build", "_temp", "winkbd"] → p.length = 4 → p = winkbdFile "keyboard.c" := by
      decide +kernel
    exact winkbdFile_inj.1 (key _ h rfl rfl)
  · rintro rfl; decide +kernel

theorem metaOut_not_fixed (c : String) : metaOut c ∉ fixedOuts := by
  intro h
  have key : ∀ p ∈ fixedOuts, ∀ n ∈ p.getLast?, n.toList.take 9 ≠ "metadata-".toList := by decide +kernel
  refine key _ h ("metadata-" ++ c ++ ".yaml") (by simp [metaOut, tempdir]) ?_
  simp only [String.toList_append, List.append_assoc]
  rfl

theorem mem_outs_stats {w : GenWorld} (c : String) :
    (∃ b ∈ genBuild w, statsFile "ar-lulua" (c ++ ".pickle") ∈ b.outs) ↔ c = "all" ∨ c ∈ knownCorpora := by
  rw [← List.mem_flatMap, (outs_perm w).mem_iff, List.mem_append, List.mem_append]
  constructor
  · rintro (h | h | h)
    · have key : ∀ p ∈ fixedOuts, p.take 3 = ["_build", "_stats", "ar-lulua"] → p.length = 4 →
          p ∈ ("all" :: knownCorpora).map fun c => statsFile "ar-lulua" (c ++ ".pickle") := by decide +kernel
      obtain ⟨d, hd, he⟩ := List.mem_map.1 (key _ h rfl rfl)
      have : d = c := by simpa [statsFile, statsdir] using he
      rw [← this]
      exact List.mem_cons.1 hd
    · obtain ⟨f, _, hf⟩ := List.mem_map.1 h
      simp [winkbdFile, statsFile, tempdir, statsdir] at hf
    · obtain ⟨f, _, hf⟩ := List.mem_map.1 h
      simp [metaOut, statsFile, tempdir, statsdir] at hf
  · intro h
    have key : ∀ c ∈ "all" :: knownCorpora, statsFile "ar-lulua" (c ++ ".pickle") ∈ fixedOuts := by decide +kernel
    exact .inl (key c (List.mem_cons.2 h))

theorem mem_outs_winkbd {w : GenWorld} (f : String) :
    (∃ b ∈ genBuild w, winkbdFile f ∈ b.outs) ↔ f = "keyboard.c" ∨ f ∈ w.winkbd := by
  rw [← List.mem_flatMap, (outs_perm w).mem_iff, List.mem_append, List.mem_append, mem_fixedOuts_winkbd]
  constructor
  · rintro (h | h | h)
    · exact .inl h
    · obtain ⟨g, hg, he⟩ := List.mem_map.1 h
      exact .inr (winkbdFile_inj.1 he ▸ hg)
    · obtain ⟨g, _, hf⟩ := List.mem_map.1 h
      simp [metaOut, winkbdFile, tempdir] at hf
  · rintro (h | h)
    · exact .inl h
    · exact .inr (.inl (List.mem_map_of_mem h))

theorem oneRule_iff (w : GenWorld) : OneRule (genBuild w) ↔
    w.winkbd.Nodup ∧ "keyboard.c" ∉ w.winkbd ∧ w.corpora.Nodup := by
  rw [OneRule, (outs_perm w).nodup_iff, List.nodup_append, List.nodup_append,
    List.nodup_map_iff fun a b h => winkbdFile_inj.1 h, List.nodup_map_iff fun a b h => metaOut_inj.1 h]
  constructor
  · rintro ⟨_, ⟨h1, h2, _⟩, h3⟩
    refine ⟨h1, fun h => ?_, h2⟩
    exact h3 _ ((mem_fixedOuts_winkbd _).2 rfl) _ (List.mem_append_left _ (List.mem_map_of_mem h)) rfl
  · rintro ⟨h1, h2, h3⟩
    refine ⟨fixedOuts_nodup, ⟨h1, h3, ?_⟩, ?_⟩
    · intro a ha b hb
      obtain ⟨f, _, rfl⟩ := List.mem_map.1 ha
      obtain ⟨c, _, rfl⟩ := List.mem_map.1 hb
      simp [winkbdFile, metaOut, tempdir]
    · rintro a ha b hb rfl
      rcases List.mem_append.1 hb with hb | hb
      · obtain ⟨f, hf, rfl⟩ := List.mem_map.1 hb
        rw [mem_fixedOuts_winkbd] at ha
        exact h2 (ha ▸ hf)
      · obtain ⟨c, _, rfl⟩ := List.mem_map.1 hb
        exact metaOut_not_fixed c ha

theorem outs_head {w : GenWorld} {b : Build} (hb : b ∈ genBuild w) {p : Path} (hp : p ∈ b.outs) :
    p.head? = some "_build" ∨ p = osmconvert ∨ p = ["always"] := by
  have h : p ∈ (genBuild w).flatMap (·.outs) := List.mem_flatMap.2 ⟨b, hb, hp⟩
  rw [(outs_perm w).mem_iff, List.mem_append, List.mem_append] at h
  rcases h with h | h | h
  · have key : ∀ p ∈ fixedOuts, p.head? = some "_build" ∨ p = osmconvert ∨ p = ["always"] := by decide +kernel
    exact key p h
  · obtain ⟨f, _, rfl⟩ := List.mem_map.1 h
    exact .inl rfl
  · obtain ⟨f, _, rfl⟩ := List.mem_map.1 h
    exact .inl rfl

/-! ### Everything can be made -/

theorem Spec.OneRule.uniq {bs : List Build} (h1 : OneRule bs) {b b' : Build} (hb : b ∈ bs) (hb' : b' ∈ bs) {p : Path}
    (hp : p ∈ b.outs) (hp' : p ∈ b'.outs) : b = b' := by
  unfold OneRule at h1
  rw [List.nodup_flatMap] at h1
  by_contra hne
  have hpw := h1.2
  rcases List.mem_iff_getElem.1 hb with ⟨i, hi, rfl⟩
  rcases List.mem_iff_getElem.1 hb' with ⟨j, hj, rfl⟩
  rw [List.pairwise_iff_getElem] at hpw
  rcases Nat.lt_trichotomy i j with hij | hij | hij
  · exact hpw i j hi hj hij hp hp'
  · subst hij; exact hne rfl
  · exact hpw j i hj hi hij hp' hp

/-- What a statement waits for can be made if its output can and is not there already. -/
theorem Spec.Made.deps {src : Path → Prop} {bs : List Build} (h1 : OneRule bs) {b : Build} (hb : b ∈ bs) {p : Path}
    (hp : p ∈ b.outs) (hm : Made src bs p) (hs : ¬ src p) : ∀ d ∈ b.deps, Made src bs d := by
  cases hm with
  | source h => exact absurd h hs
  | built b' hb' hd hp' => rw [h1.uniq hb hb' hp hp']; exact hd

/-- With one rule per file, what can be made does not wait for itself. -/
theorem noCycle_of_made {bs : List Build} (h1 : OneRule bs)
    (h : ∀ b ∈ bs, ∀ p ∈ b.outs, Made (fun q => ∀ b ∈ bs, q ∉ b.outs) bs p) : NoCycle bs := by
  have acc : ∀ p, Made (fun q => ∀ b ∈ bs, q ∉ b.outs) bs p → Acc (fun d p => WaitsFor bs p d) p := by
    intro p hp
    induction hp with
    | source h => exact ⟨_, fun d ⟨b, hb, hp, _⟩ => absurd hp (h b hb)⟩
    | built b hb _ hp ih =>
      refine ⟨_, fun d ⟨b', hb', hp', hd⟩ => ?_⟩
      exact ih d ((h1.uniq hb hb' hp hp') ▸ hd)
  intro p hp
  obtain ⟨d, ⟨b, hb, hpb, _⟩, _⟩ := Relation.TransGen.head'_iff.1 hp
  have irr : ∀ p, Acc (fun d p => WaitsFor bs p d) p → ¬ Relation.TransGen (WaitsFor bs) p p := by
    intro p hp
    induction hp with
    | intro x _ ih =>
      intro hx
      obtain ⟨d, hd, hr⟩ := Relation.TransGen.head'_iff.1 hx
      exact ih d hd (Relation.TransGen.tail' hr hd)
  exact irr p (acc p (h b hb p hpb)) hp

theorem Spec.Made.mono {src src' : Path → Prop} {bs : List Build} (h : ∀ p, src p → src' p) {p : Path}
    (hp : Made src bs p) : Made src' bs p := by
  induction hp with
  | source h' => exact .source (h _ h')
  | built b hb _ hp ih => exact .built b hb ih hp

/-- A path no statement makes is a source. -/
theorem Spec.Made.src {src : Path → Prop} {bs : List Build} {p : Path} (hp : Made src bs p) (h : ∀ b ∈ bs, p ∉ b.outs) :
    src p := by
  cases hp with
  | source h' => exact h'
  | built b hb _ hp => exact absurd hp (h b hb)

section
variable {src : Path → Prop} {w : GenWorld}

theorem made_first {i : Nat} (hi : i < firstBuilds.length) (hd : ∀ d ∈ firstBuilds[i].deps, Made src (genBuild w) d) :
    ∀ p ∈ firstBuilds[i].outs, Made src (genBuild w) p :=
  fun _ hp => .built _ (mem_first (List.getElem_mem hi)) hd hp

theorem made_reportdir : Made src (genBuild w) reportdir :=
  made_first (i := 0) (by decide) (by intro d hd; cases hd) _ (List.mem_singleton.2 rfl)

theorem made_fonts : Made src (genBuild w) (reportdir ++ ["fonts"]) :=
  made_first (i := 1) (by decide) (by intro d hd; cases hd) _ (List.mem_singleton.2 rfl)

theorem made_tempdir : Made src (genBuild w) tempdir :=
  made_first (i := 2) (by decide) (by intro d hd; cases hd) _ (List.mem_singleton.2 rfl)

theorem made_osmconvert (h : Made src (genBuild w) ["3rdparty", "osmctools"]) : Made src (genBuild w) osmconvert :=
  made_first (i := 10) (by decide) (by
    change ∀ d ∈ [_], _
    simpa only [List.forall_mem_singleton] using h) _ (List.mem_singleton.2 rfl)

theorem made_winkbd (h : Made src (genBuild w) ["lulua", "data", "winkbd"]) :
    Made src (genBuild w) (tempdir ++ ["winkbd"]) :=
  made_first (i := 12) (by decide) (by
    change ∀ d ∈ [_], _
    simpa only [List.forall_mem_singleton] using h) _ (List.mem_singleton.2 rfl)

theorem made_statsdir {l : String} (hl : l ∈ genLayouts) : Made src (genBuild w) (statsdir ++ [l]) :=
  .built (mkdirBuild (statsdir ++ [l])) (mem_layout hl (by simp [layoutBuilds])) (by intro d hd; cases hd)
    (List.mem_singleton.2 rfl)

/-- The files of a corpus are needed. -/
theorem corpusSources_needed {c : String × String × List Path} (hc : c ∈ corpusSources w) : ∀ p ∈ c.2.2, p ∈ neededSources w := by
  simp only [corpusSources, List.mem_cons, List.not_mem_nil, or_false] at hc
  rcases hc with rfl | rfl | rfl | rfl | rfl | rfl | rfl | rfl <;>
    simp +contextual [neededSources, corpusdir]

theorem made_corpus (hn : ∀ p ∈ neededSources w, Made src (genBuild w) p) {l : String} (hl : l ∈ genLayouts)
    {c : String × String × List Path} (hc : c ∈ corpusSources w) :
    Made src (genBuild w) (statsFile l (c.1 ++ ".pickle")) := by
  refine .built (corpusBuild l c) (mem_layout hl ?_) ?_ (List.mem_singleton.2 rfl)
  · simp only [layoutBuilds, List.cons_append, List.mem_cons, List.mem_append, List.mem_map]
    exact .inr (.inl ⟨c, hc, rfl⟩)
  · intro d hd
    simp only [Build.deps, corpusBuild, List.append_nil, List.mem_append, List.mem_cons] at hd
    rcases hd with hd | hd | hd
    · exact hn d (corpusSources_needed hc d hd)
    · subst hd; exact made_statsdir hl
    · split at hd
      · rw [List.mem_singleton] at hd
        subst hd
        exact made_osmconvert (hn _ (by simp [neededSources]))
      · cases hd

theorem knownCorpora_sources {c : String} (hc : c ∈ knownCorpora) : ∃ x ∈ corpusSources w, x.1 = c := by
  have key : ∀ c ∈ knownCorpora, c ∈ (corpusSources ⟨[], [], [], [], [], [], []⟩).map (·.1) := by decide +kernel
  have := key c hc
  rw [show (corpusSources ⟨[], [], [], [], [], [], []⟩).map (·.1) = (corpusSources w).map (·.1) from rfl] at this
  obtain ⟨x, hx, rfl⟩ := List.mem_map.1 this
  exact ⟨x, hx, rfl⟩

theorem made_known (hn : ∀ p ∈ neededSources w, Made src (genBuild w) p) {l : String} (hl : l ∈ genLayouts) {c : String}
    (hc : c ∈ knownCorpora) : Made src (genBuild w) (statsFile l (c ++ ".pickle")) := by
  obtain ⟨x, hx, rfl⟩ := knownCorpora_sources hc
  exact made_corpus hn hl hx

theorem made_all (hn : ∀ p ∈ neededSources w, Made src (genBuild w) p) {l : String} (hl : l ∈ genLayouts) :
    Made src (genBuild w) (statsFile l "all.pickle") := by
  refine .built { outs := [statsFile l "all.pickle"], rule := "combine",
                  ins := allInputs.map fun c => statsFile l (c ++ ".pickle"), orderOnly := [statsdir ++ [l]] } (mem_layout hl ?_) ?_
    (List.mem_singleton.2 rfl)
  · simp [layoutBuilds]
  · intro d hd
    simp only [Build.deps, List.append_nil, List.mem_append, List.mem_map, List.mem_singleton] at hd
    rcases hd with ⟨c, hc, rfl⟩ | rfl
    · have : ∀ c ∈ allInputs, c ∈ knownCorpora := by decide +kernel
      exact made_known hn hl (this c hc)
    · exact made_statsdir hl

theorem made_layout (hn : ∀ p ∈ neededSources w, Made src (genBuild w) p) {l : String} (hl : l ∈ genLayouts) :
    ∀ b ∈ layoutBuilds w l, ∀ p ∈ b.outs, Made src (genBuild w) p := by
  intro b hb p hp
  have hb' := hb
  have hT := made_tempdir (src := src) (w := w)
  have hR := made_reportdir (src := src) (w := w)
  have hA := made_all hn hl
  have ofDeps : (∀ d ∈ b.deps, Made src (genBuild w) d) → Made src (genBuild w) p :=
    fun h => .built b (mem_layout hl hb') h hp
  have heat : Made src (genBuild w) (tempdir ++ [l ++ "-heat.yaml"]) :=
    .built { outs := [tempdir ++ [l ++ "-heat.yaml"]], rule := "analyze-heat", ins := [statsFile l "all.pickle"],
             orderOnly := [tempdir], vars := [("layout", l.toList)] } (mem_layout hl (by simp [layoutBuilds]))
      (by simp [Build.deps, hA, hT]) (List.mem_singleton.2 rfl)
  have print : Made src (genBuild w) (tempdir ++ [l ++ "-print.svg"]) :=
    .built { outs := [tempdir ++ [l ++ "-print.svg"]], rule := "render-svg-print", orderOnly := [tempdir],
             vars := [("layout", l.toList)] } (mem_layout hl (by simp [layoutBuilds]))
      (by simp [Build.deps, hT]) (List.mem_singleton.2 rfl)
  simp only [layoutBuilds, List.cons_append, List.mem_cons, List.mem_append, List.mem_map, List.not_mem_nil, or_false] at hb
  rcases hb with rfl | ⟨c, hc, rfl⟩ | rfl | rfl | rfl | rfl | rfl | rfl | rfl | rfl
  · rw [List.mem_singleton.1 hp]; exact made_statsdir hl
  · rw [List.mem_singleton.1 hp]; exact made_corpus hn hl hc
  · rw [List.mem_singleton.1 hp]; exact hA
  all_goals exact ofDeps (by simp [Build.deps, hA, hT, hR, heat, print])

theorem made_winkbdFile (hn : ∀ p ∈ neededSources w, Made src (genBuild w) p) {f : String} (hf : f ∈ w.winkbd) :
    Made src (genBuild w) (winkbdFile f) := by
  refine .built (winkbdBuild f) (mem_winkbd hf) ?_ (List.mem_singleton.2 rfl)
  simp only [Build.deps, winkbdBuild, List.append_nil, List.cons_append, List.nil_append, List.forall_mem_cons,
    List.not_mem_nil, false_implies, implies_true, and_true]
  exact ⟨hn _ (by simp [neededSources, hf]), made_winkbd (hn _ (by simp [neededSources]))⟩

/-- Everything can be made if the sources, the statistics of all corpora and three files of the driver can. -/
theorem made_everything (hn : ∀ p ∈ neededSources w, Made src (genBuild w) p)
    (hc : ∀ c ∈ w.corpora, Made src (genBuild w) (statsFile "ar-lulua" (c ++ ".pickle")))
    (hf : ∀ f ∈ ["README.txt", "lulua.reg", "install.bat"], Made src (genBuild w) (winkbdFile f)) :
    ∀ b ∈ genBuild w, ∀ p ∈ b.outs, Made src (genBuild w) p := by
  have hT := made_tempdir (src := src) (w := w)
  have hR := made_reportdir (src := src) (w := w)
  have hF := made_fonts (src := src) (w := w)
  have hW := made_winkbd (hn _ (by simp [neededSources]))
  have hA : ∀ l ∈ genLayouts, Made src (genBuild w) (statsFile l "all.pickle") := fun l hl => made_all hn hl
  have hL : Made src (genBuild w) (statsdir ++ ["ar-lulua", "all.pickle"]) := hA "ar-lulua" (by decide)
  have hM : ∀ c ∈ w.corpora, Made src (genBuild w) (metaOut c) := fun c h => by
    refine .built (metaBuild c) (mem_meta h) ?_ (List.mem_singleton.2 rfl)
    have := hn (metadataFile c) (by
      simp only [neededSources, List.mem_append, List.mem_map]
      exact .inl <| .inl <| .inl <| .inl <| .inl <| .inr ⟨c, h, rfl⟩)
    simp [Build.deps, metaBuild, hc c h, hT, this]
  have hK : Made src (genBuild w) (winkbdFile "keyboard.c") :=
    .built ((driverBuilds w)[0]'(Nat.lt_of_lt_of_le (by decide : 0 < 9) (le_of_eq rfl))) (mem_driver (List.getElem_mem _))
      (by change ∀ d ∈ [_], _; simpa only [List.forall_mem_singleton] using hW) (List.mem_singleton.2 rfl)
  have hZ : Made src (genBuild w) (tempdir ++ ["ar-lulua-w64"]) :=
    .built ((driverBuilds w)[1]'(Nat.lt_of_lt_of_le (by decide : 1 < 9) (le_of_eq rfl))) (mem_driver (List.getElem_mem _)) (by intro d hd; cases hd)
      (List.mem_singleton.2 rfl)
  have hD : ∀ p ∈ [tempdir ++ ["winkbd", "System32", "kbdarlulua.dll"], tempdir ++ ["winkbd", "SysWOW64", "kbdarlulua.dll"]],
      Made src (genBuild w) p := fun p hp => by
    refine .built ((driverBuilds w)[2]'(Nat.lt_of_lt_of_le (by decide : 2 < 9) (le_of_eq rfl))) (mem_driver (List.getElem_mem _)) ?_ hp
    intro d hd
    simp only [driverBuilds, Build.deps, List.append_nil, List.nil_append, List.cons_append, List.getElem_cons_succ,
      List.getElem_cons_zero, List.mem_append, List.mem_map, List.mem_singleton] at hd
    rcases hd with ⟨f, hf', rfl⟩ | rfl
    · exact made_winkbdFile hn hf'
    · exact hK
  have hI : ∀ f ∈ zipPaths, Made src (genBuild w) (tempdir ++ "winkbd" :: f) := by
    simp only [zipPaths, List.forall_mem_cons, List.not_mem_nil, false_implies, implies_true, and_true]
    exact ⟨hD _ (by simp), hD _ (by simp), hf _ (by simp), hf _ (by simp), hf _ (by simp)⟩
  have hO : ∀ f ∈ zipPaths, Made src (genBuild w) (tempdir ++ "ar-lulua-w64" :: f) := fun f h => by
    refine .built { outs := [tempdir ++ "ar-lulua-w64" :: f], rule := "cp", ins := [tempdir ++ "winkbd" :: f],
                    orderOnly := [tempdir ++ ["ar-lulua-w64"]] } (mem_driver ?_) ?_ (List.mem_singleton.2 rfl)
    · simp only [driverBuilds, List.mem_append, List.mem_map]
      exact .inl (.inr ⟨f, h, rfl⟩)
    · simp only [Build.deps, List.append_nil, List.cons_append, List.nil_append, List.forall_mem_cons, List.not_mem_nil,
        false_implies, implies_true, and_true]
      exact ⟨hI f h, hZ⟩
  have hS : ∀ l ∈ genLayouts, Made src (genBuild w) (layoutstatsFile l) := fun l hl =>
    made_layout hn hl { outs := [tempdir ++ [l ++ "-layoutstats.pickle"]], rule := "analyze-layoutstats",
                        ins := [statsFile l "all.pickle"], orderOnly := [tempdir], vars := [("layout", l.toList)] } (by simp [layoutBuilds]) _
      (List.mem_singleton.2 rfl)
  have hE : ∀ l ∈ genLayouts, Made src (genBuild w) (tempdir ++ [l ++ "-triadeffort.pickle"]) := fun l hl =>
    made_layout hn hl { outs := [tempdir ++ [l ++ "-triadeffort.pickle"]], rule := "analyze-triadeffortdata",
                        ins := [statsFile l "all.pickle"], orderOnly := [tempdir], vars := [("layout", l.toList)] } (by simp [layoutBuilds]) _
      (List.mem_singleton.2 rfl)
  have hC : Made src (genBuild w) (tempdir ++ ["lulua.combined"]) :=
    made_first (i := 6) (by decide) (by
      change ∀ d ∈ [_, _], _
      simp only [List.forall_mem_cons, List.not_mem_nil, false_implies, implies_true, and_true]
      exact ⟨hL, hT⟩) _ (List.mem_singleton.2 rfl)
  have hY : Made src (genBuild w) ["always"] :=
    .built ((lastBuilds w)[1]'(Nat.lt_of_lt_of_le (by decide : 1 < 3) (le_of_eq rfl))) (mem_last (List.getElem_mem _)) (by intro d hd; cases hd) (List.mem_singleton.2 rfl)
  apply genBuild_cases
  · intro b hb p hp
    refine .built b (mem_first hb) ?_ hp
    clear hp
    simp only [firstBuilds, List.mem_cons, List.not_mem_nil, or_false] at hb
    rcases hb with rfl | rfl | rfl | rfl | rfl | rfl | rfl | rfl | rfl | rfl | rfl | rfl | rfl <;>
      simp only [Build.deps, mkdirBuild, List.append_nil, List.nil_append, List.cons_append, List.forall_mem_cons,
        List.not_mem_nil, false_implies, implies_true, and_true, hT, hR, hF, hC, hL]
    · exact hn _ (by simp [neededSources, datadir])
    · exact hn _ (by simp [neededSources, datadir])
    · exact hn _ (by simp [neededSources, fontdir])
    · exact hn _ (by simp [neededSources, fontdir])
    · exact hn _ (by simp [neededSources])
    · exact hn _ (by simp [neededSources])
  · intro f h p hp
    rw [List.mem_singleton.1 hp]
    exact made_winkbdFile hn h
  · intro b hb p hp
    have hb' := hb
    simp only [driverBuilds, List.mem_append, List.mem_cons, List.mem_map, List.not_mem_nil, or_false] at hb
    rcases hb with ((rfl | rfl | rfl) | ⟨f, h, rfl⟩) | rfl
    · rw [List.mem_singleton.1 hp]; exact hK
    · rw [List.mem_singleton.1 hp]; exact hZ
    · exact hD p hp
    · rw [List.mem_singleton.1 hp]; exact hO f h
    · refine .built _ (mem_driver hb') ?_ hp
      intro d hd
      simp only [Build.deps, List.append_nil, List.mem_append, List.mem_singleton, List.mem_map] at hd
      rcases hd with rfl | ⟨f, h, rfl⟩
      · exact hZ
      · exact hO f h
  · intro l hl b hb p hp
    exact made_layout hn hl b hb p hp
  · intro p hp
    exact .built _ mem_xmodmap (by
      simp only [Build.deps, xmodmapBuild, List.nil_append, List.forall_mem_cons, List.not_mem_nil, false_implies,
        implies_true, and_true]
      exact hR) hp
  · intro c h p hp
    rw [List.mem_singleton.1 hp]; exact hM c h
  · intro b hb p hp
    refine .built b (mem_last hb) ?_ hp
    simp only [lastBuilds, List.mem_cons, List.not_mem_nil, or_false] at hb
    rcases hb with rfl | rfl | rfl
    · intro d hd
      simp only [Build.deps, List.append_nil, List.mem_append, List.mem_singleton, List.mem_map] at hd
      rcases hd with ⟨l, hl, rfl⟩ | rfl
      · exact hE l hl
      · exact hR
    · intro d hd; cases hd
    · intro d hd
      simp only [Build.deps, List.nil_append, List.mem_append, List.mem_cons, List.mem_singleton, List.mem_map,
        List.not_mem_nil, or_false] at hd
      rcases hd with rfl | rfl | ⟨c, h, rfl⟩ | ⟨l, hl, rfl⟩
      · exact hY
      · exact hR
      · exact hM c h
      · exact hS l hl

end

end Lulua
