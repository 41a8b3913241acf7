import Verif.Proofs.OptimizeEnergy
import Verif.Proofs.Keyboard

/-!
# Proofs about the emitted layout
-/

namespace Lulua
open Spec Optimizer

/-! ### Targets -/

theorem permutes_value_mem {bm : ButtonMap} (hp : Permutes bm) {p q : Pos} (h : bm.get? p = some q) :
    q ∈ bm.map Prod.fst := by
  have : q ∈ bm.map Prod.snd := List.mem_map.2 ⟨(p, q), Dict.mem_of_get? h, rfl⟩
  exact hp.2.mem_iff.1 this

theorem permutes_inj {bm : ButtonMap} (hp : Permutes bm) {p p' q : Pos} (h : bm.get? p = some q)
    (h' : bm.get? p' = some q) : p = p' := by
  have hn : (bm.map Prod.snd).Nodup := hp.2.nodup_iff.2 hp.1
  have := List.inj_on_of_nodup_map hn (Dict.mem_of_get? h) (Dict.mem_of_get? h') rfl
  exact congrArg Prod.fst this

theorem target_injective {bm : ButtonMap} (hp : Permutes bm) : Function.Injective (target bm) := by
  intro p q h
  unfold target at h
  cases h1 : bm.get? p with
  | none =>
    cases h2 : bm.get? q with
    | none => simpa [h1, h2] using h
    | some y =>
      simp only [h1, h2, Option.getD_none, Option.getD_some] at h
      subst h
      exact absurd (permutes_value_mem hp h2) (Dict.get?_eq_none_iff.1 h1)
  | some x =>
    cases h2 : bm.get? q with
    | none =>
      simp only [h1, h2, Option.getD_none, Option.getD_some] at h
      subst h
      exact absurd (permutes_value_mem hp h1) (Dict.get?_eq_none_iff.1 h2)
    | some y =>
      simp only [h1, h2, Option.getD_some] at h
      subst h
      exact permutes_inj hp h1 h2

/-- Every position is the target of one. -/
theorem target_surjective {bm : ButtonMap} (hp : Permutes bm) : Function.Surjective (target bm) := by
  intro q
  by_cases hq : q ∈ bm.map Prod.fst
  · obtain ⟨e, he, rfl⟩ := List.mem_map.1 (hp.2.mem_iff.2 hq)
    refine ⟨e.1, ?_⟩
    rw [target, Dict.get?_of_mem hp.1 (by simpa using he)]
    rfl
  · exact ⟨q, by rw [target, Dict.get?_eq_none_iff.2 hq]; rfl⟩

/-- A valid position. -/
def Valid (layers : List Layer) (kb : PhysicalKeyboard) (p : Pos) : Prop :=
  p.1 < layers.length ∧ p.2 ∈ kb.keys.map Btn.i

theorem target_valid {bm : ButtonMap} {layers : List Layer} {kb : PhysicalKeyboard} (hp : Permutes bm)
    (ho : OnBoard layers kb bm) {p : Pos} : Valid layers kb (target bm p) ↔ Valid layers kb p := by
  unfold target
  cases h : bm.get? p with
  | none => simp
  | some q =>
    simp only [Option.getD_some]
    constructor
    · intro _; exact ho p (Dict.get?_isSome_iff.1 (by simp [h]))
    · intro _; exact ho q (permutes_value_mem hp h)

/-! ### Emission -/

theorem gTextAt_set {ls : List GLayer} {j : Nat} {g : GLayer} (hg : ls[j]? = some g) (n : String) (v : LVal) (j' : Nat)
    (n' : String) : gTextAt (ls.set j { g with layout := g.layout.set n v }) j' n' =
      if j' = j ∧ n' = n then some v else gTextAt ls j' n' := by
  obtain ⟨hj, _⟩ := List.getElem?_eq_some_iff.1 hg
  unfold gTextAt
  by_cases h : j' = j
  · subst h
    rw [List.getElem?_set_self hj]
    simp only [Option.bind_some, hg, true_and, Dict.get?_set]
    by_cases h2 : n' = n
    · simp [h2]
    · simp [h2, Ne.symm h2]
  · rw [List.getElem?_set_ne (Ne.symm h)]
    simp [h]

section
variable {t : InternTable} {ns : List String} {name : String} {layers : List Layer} {kb : PhysicalKeyboard} {bm : ButtonMap}

theorem emittedEntry_eq (hu : UnambiguousModifiers layers) (hrch : Reachable layers) {i : Nat} {l : Layer}
    (hl : layers[i]? = some l) {k newK : Button} {n : String} (hn : t.nameOf newK = .ok n) :
    emittedEntry t (KeyboardLayout.mk' name layers kb) l k newK =
      match textAt layers (i, k) with
      | some v => .ok (n, v)
      | none => .error .keyError := by
  have hne := hrch l (List.mem_of_getElem? hl)
  cases hm : l.modifier with
  | nil => exact absurd hm hne
  | cons m ms =>
    have h1 : listIndex l.modifier 0 = .ok m := listIndex_ok.2 (by rw [hm]; rfl)
    have h2 : (KeyboardLayout.mk' name layers kb).modifierToLayer m = .ok (i, l) :=
      (modifierToLayer_ok hu).2 ⟨hl, by rw [hm]; simp⟩
    rw [hm] at h1
    simp only [emittedEntry, hm, h1, bind, Except.bind, KeyboardLayout.getText, h2, frozenset_singleton, first, textAt, hl,
      Option.bind_some, Dict.getItem, hn]
    cases l.layout.get? k <;> rfl

/-- What has been written after the positions `P`. -/
def Written (t : InternTable) (layers : List Layer) (bm : ButtonMap) (P : List Pos) (ls : List GLayer) : Prop :=
  ls.length = layers.length ∧ (∀ j n v, gTextAt ls j n = some v ↔
    ∃ p ∈ P, ∃ b, target bm p = (j, b) ∧ t.nameOf b = .ok n ∧ textAt layers p = some v) ∧ ∀ g ∈ ls, g.layout.WF

theorem emitKeys_spec (hr : Represents t ns) (hn : Named t kb.keys) (hu : UnambiguousModifiers layers)
    (hrch : Reachable layers) (hp : Permutes bm) (ho : OnBoard layers kb bm) {i : Nat} {l : Layer} (hl : layers[i]? = some l)
    (ks : List Button) (hks : ∀ k ∈ ks, k ∈ kb.keys.map Btn.i) (P : List Pos) (ls : List GLayer)
    (hw : Written t layers bm P ls) :
    ∃ ls', emitKeys t (KeyboardLayout.mk' name layers kb) bm i l ks ls = .ok ls' ∧
      Written t layers bm (P ++ ks.map fun k => (i, k)) ls' ∧ ls'.map GLayer.modifier = ls.map GLayer.modifier := by
  induction ks generalizing P ls with
  | nil => exact ⟨ls, rfl, by simpa using hw, rfl⟩
  | cons k ks ih =>
    have hi : i < layers.length := (List.getElem?_eq_some_iff.1 hl).1
    have hval : Valid layers kb (target bm (i, k)) := (target_valid hp ho).2 ⟨hi, hks k (by simp)⟩
    obtain ⟨x, hx, hxi⟩ := List.mem_map.1 hval.2
    obtain ⟨n, hname⟩ := hn x hx
    rw [hxi] at hname
    have hj : (target bm (i, k)).1 < ls.length := by rw [hw.1]; exact hval.1
    obtain ⟨g, hg⟩ : ∃ g, ls[(target bm (i, k)).1]? = some g := ⟨_, List.getElem?_eq_getElem hj⟩
    have hidx := listIndex_ok.2 hg
    unfold emitKeys
    simp only [bind, Except.bind]
    rw [show (bm.get? (i, k)).getD (i, k) = target bm (i, k) from rfl]
    rw [hidx]
    simp only [emittedEntry_eq (name := name) (kb := kb) hu hrch hl hname]
    cases htxt : textAt layers (i, k) with
    | none =>
      simp only
      have hw' : Written t layers bm (P ++ [(i, k)]) ls := by
        refine ⟨hw.1, fun j n v => ?_, hw.2.2⟩
        rw [hw.2.1]
        constructor
        · rintro ⟨p, hpP, h⟩; exact ⟨p, by simp [hpP], h⟩
        · rintro ⟨p, hpP, b, h1, h2, h3⟩
          rcases List.mem_append.1 hpP with h | h
          · exact ⟨p, h, b, h1, h2, h3⟩
          · simp only [List.mem_singleton] at h
            subst h
            rw [htxt] at h3
            simp at h3
      obtain ⟨ls', h1, h2, h3⟩ := ih (fun k hk => hks k (by simp [hk])) _ ls hw'
      exact ⟨ls', h1, by simpa using h2, h3⟩
    | some v =>
      simp only
      have hw' : Written t layers bm (P ++ [(i, k)])
          (ls.set (target bm (i, k)).1 { g with layout := g.layout.set n v }) := by
        refine ⟨by rw [List.length_set, hw.1], fun j n' v' => ?_, fun g' hg' => by
          rcases List.mem_or_eq_of_mem_set hg' with h | rfl
          · exact hw.2.2 g' h
          · exact Dict.wf_set (hw.2.2 g (List.mem_of_getElem? hg)) _ _⟩
        rw [gTextAt_set hg]
        split_ifs with hc
        · obtain ⟨rfl, rfl⟩ := hc
          constructor
          · intro h
            refine ⟨(i, k), by simp, (target bm (i, k)).2, rfl, hname, by rw [htxt]; exact h⟩
          · rintro ⟨p, _, b, h1, h2, h3⟩
            have hb := hr.inj h2 hname
            have : p = (i, k) := target_injective hp (by rw [h1, hb])
            rw [this, htxt] at h3
            exact h3
        · rw [hw.2.1]
          constructor
          · rintro ⟨p, hpP, h⟩; exact ⟨p, by simp [hpP], h⟩
          · rintro ⟨p, hpP, b, h1, h2, h3⟩
            rcases List.mem_append.1 hpP with h | h
            · exact ⟨p, h, b, h1, h2, h3⟩
            · simp only [List.mem_singleton] at h
              subst h
              exfalso
              apply hc
              rw [h1]
              refine ⟨rfl, ?_⟩
              rw [h1] at hname
              simp only [h2, Except.ok.injEq] at hname
              exact hname
      obtain ⟨ls', h1, h2, h3⟩ := ih (fun k hk => hks k (by simp [hk])) _ _ hw'
      refine ⟨ls', h1, by simpa using h2, ?_⟩
      rw [h3, List.map_set]
      apply set_self
      rw [List.getElem?_map, hg]
      rfl

theorem written_modifier {P : List Pos} {ls : List GLayer} {i : Nat} {g : GLayer} (hg : ls[i]? = some g)
    (ms : List (List String)) (hw : Written t layers bm P ls) : Written t layers bm P (ls.set i { g with modifier := ms }) := by
  obtain ⟨hi, _⟩ := List.getElem?_eq_some_iff.1 hg
  refine ⟨by rw [List.length_set, hw.1], fun j n v => ?_, fun g' hg' => by
    rcases List.mem_or_eq_of_mem_set hg' with h | rfl
    · exact hw.2.2 g' h
    · exact hw.2.2 g (List.mem_of_getElem? hg)⟩
  rw [← hw.2.1]
  unfold gTextAt
  by_cases h : i = j
  · subst h; rw [List.getElem?_set_self hi, hg]; rfl
  · rw [List.getElem?_set_ne h]

theorem emitLayers_spec (hr : Represents t ns) (hn : Named t kb.keys) (hu : UnambiguousModifiers layers)
    (hrch : Reachable layers) (hmod : ∀ l ∈ layers, ∀ m ∈ l.modifier, ∀ b ∈ m, ∃ n, t.nameOf b = .ok n)
    (hp : Permutes bm) (ho : OnBoard layers kb bm) (rest : List Layer) (i : Nat) (hrest : layers.drop i = rest)
    (P : List Pos) (ls : List GLayer) (hw : Written t layers bm P ls) (hfresh : ∀ j, i ≤ j → ∀ g, ls[j]? = some g → g.modifier = []) :
    ∃ ls', emitLayers t (KeyboardLayout.mk' name layers kb) kb bm i rest ls = .ok ls' ∧
      Written t layers bm (P ++ (List.range' i rest.length).flatMap fun i => kb.keys.map fun k => (i, k.i)) ls' ∧
      (∀ j < i, (ls'[j]?.map GLayer.modifier) = ls[j]?.map GLayer.modifier) ∧
      (∀ j l, i ≤ j → layers[j]? = some l → ∃ g, ls'[j]? = some g ∧
        List.Forall₂ (fun m names => List.Forall₂ (fun b n => t.nameOf b = .ok n) m names) l.modifier g.modifier) := by
  induction rest generalizing i P ls with
  | nil =>
    refine ⟨ls, rfl, by simpa using hw, fun _ _ => rfl, ?_⟩
    intro j l hj hl
    have h1 := (List.getElem?_eq_some_iff.1 hl).1
    rw [List.drop_eq_nil_iff] at hrest
    omega
  | cons l rest ih =>
    have hl : layers[i]? = some l := by
      have := congrArg (fun x => x[0]?) hrest
      simpa [List.getElem?_drop] using this
    have hi : i < layers.length := (List.getElem?_eq_some_iff.1 hl).1
    have hrest' : layers.drop (i + 1) = rest := by
      have := congrArg (List.drop 1) hrest
      simpa [List.drop_drop, Nat.add_comm] using this
    obtain ⟨g, hg⟩ : ∃ g, ls[i]? = some g := ⟨_, List.getElem?_eq_getElem (by rw [hw.1]; exact hi)⟩
    obtain ⟨ms, hms⟩ : ∃ ms, (l.modifier.mapM fun m => m.mapM t.nameOf) = Except.ok ms := by
      rw [mapM_exists_iff]
      intro m hm
      rw [mapM_exists_iff]
      exact hmod l (List.mem_of_getElem? hl) m hm
    have hgm := hfresh i (le_refl _) g hg
    obtain ⟨ls1, h1, h2, h3⟩ := emitKeys_spec (name := name) hr hn hu hrch hp ho hl (kb.keys.map Btn.i) (fun _ h => h) P _
      (written_modifier hg (g.modifier ++ ms) hw)
    have hlen1 : ls1.length = ls.length := by
      have := congrArg List.length h3; simpa using this
    have hmodj : ∀ j, (ls1[j]?.map GLayer.modifier) =
        if j = i then some ms else ls[j]?.map GLayer.modifier := by
      intro j
      have := congrArg (fun x => x[j]?) h3
      simp only [List.getElem?_map] at this
      rw [this]
      split_ifs with hji
      · subst hji
        rw [List.getElem?_set_self (by rw [hw.1]; exact hi)]
        simp [hgm]
      · rw [List.getElem?_set_ne (Ne.symm hji)]
    have hfresh1 : ∀ j, i + 1 ≤ j → ∀ g, ls1[j]? = some g → g.modifier = [] := by
      intro j hj g1 hg1
      have h4 := hmodj j
      rw [if_neg (by omega), hg1] at h4
      simp only [Option.map_some] at h4
      obtain ⟨g2, hg2, e⟩ := Option.map_eq_some_iff.1 h4.symm
      rw [← e]; exact hfresh j (by omega) g2 hg2
    obtain ⟨ls', h5, h6, h7, h8⟩ := ih (i + 1) hrest' _ ls1 h2 hfresh1
    refine ⟨ls', ?_, ?_, ?_, ?_⟩
    · unfold emitLayers
      simp only [bind, Except.bind, listIndex_ok.2 hg]
      have hms' : (List.mapM (fun m => List.mapM t.nameOf m) l.modifier) = Except.ok ms := hms
      simp only [hms', h1]
      exact h5
    · rw [List.length_cons, List.range'_succ, List.flatMap_cons]
      rw [List.map_map, List.append_assoc] at h6
      exact h6
    · intro j hj
      rw [h7 j (by omega), hmodj, if_neg (by omega)]
    · intro j l' hj hl'
      rcases Nat.lt_or_eq_of_le hj with h9 | rfl
      · exact h8 j l' h9 hl'
      · have h9 := h7 i (by omega)
        rw [hmodj, if_pos rfl] at h9
        obtain ⟨g', hg', e⟩ := Option.map_eq_some_iff.1 h9
        refine ⟨g', hg', ?_⟩
        rw [hl] at hl'
        simp only [Option.some.injEq] at hl'
        subst hl'
        rw [e]
        have h10 := (mapM_ok_iff _ _ _).1 hms
        exact h10.imp fun m names hh => (mapM_ok_iff _ _ _).1 hh

theorem emit_spec (hr : Represents t ns) (hn : Named t kb.keys) (hu : UnambiguousModifiers layers)
    (hrch : Reachable layers) (hmod : ∀ l ∈ layers, ∀ m ∈ l.modifier, ∀ b ∈ m, ∃ n, t.nameOf b = .ok n)
    (hp : Permutes bm) (ho : OnBoard layers kb bm) :
    ∃ gs, emit t (KeyboardLayout.mk' name layers kb) kb bm = .ok ⟨name ++ "-new", gs⟩ ∧ gs.length = layers.length ∧
      (∀ g ∈ gs, g.layout.WF) ∧ (∀ j n v, gTextAt gs j n = some v ↔
        ∃ p, Valid layers kb p ∧ ∃ b, target bm p = (j, b) ∧ t.nameOf b = .ok n ∧ textAt layers p = some v) ∧
      ∀ (j : Nat) (l : Layer), layers[j]? = some l → ∃ g : GLayer, gs[j]? = some g ∧
        List.Forall₂ (fun m names => List.Forall₂ (fun b n => t.nameOf b = .ok n) m names) l.modifier g.modifier := by
  have hw0 : Written t layers bm [] (layers.map fun _ => (⟨[], []⟩ : GLayer)) := by
    refine ⟨by simp, fun j n v => ?_, fun g hg => by
      obtain ⟨_, _, rfl⟩ := List.mem_map.1 hg
      exact List.nodup_nil⟩
    simp only [List.not_mem_nil, false_and, exists_false, iff_false]
    unfold gTextAt
    rw [List.getElem?_map]
    cases layers[j]? <;> simp [Dict.get?]
  obtain ⟨gs, h1, h2, _, h4⟩ := emitLayers_spec (name := name) hr hn hu hrch hmod hp ho layers 0 rfl [] _ hw0 (by
    intro j _ g hg
    rw [List.getElem?_map] at hg
    obtain ⟨_, _, rfl⟩ := Option.map_eq_some_iff.1 hg
    rfl)
  refine ⟨gs, ?_, h2.1, h2.2.2, ?_, fun j l hl => h4 j l (Nat.zero_le _) hl⟩
  · unfold emit
    have hL : (KeyboardLayout.mk' name layers kb).layers = layers := rfl
    simp only [hL, h1, bind, Except.bind]
    rfl
  · intro j n v
    rw [h2.2.1]
    have hmem : ∀ p, p ∈ [] ++ (List.range' 0 layers.length).flatMap (fun i => kb.keys.map fun k => (i, k.i)) ↔
        Valid layers kb p := by
      intro p
      simp only [List.nil_append, List.mem_flatMap, List.mem_range'_1, List.mem_map, Valid]
      constructor
      · rintro ⟨i, hi, k, hk, rfl⟩; exact ⟨by simpa using hi.2, ⟨k, hk, rfl⟩⟩
      · rintro ⟨h1, k, hk, h2⟩; exact ⟨p.1, ⟨Nat.zero_le _, by simpa using h1⟩, k, hk, by rw [h2]⟩
    constructor
    · rintro ⟨p, hpm, h⟩; exact ⟨p, (hmem p).1 hpm, h⟩
    · rintro ⟨p, hpm, h⟩; exact ⟨p, (hmem p).2 hpm, h⟩

theorem names_nodup (hr : Represents t ns) {m : List Button} {names : List String} (hm : m.Nodup)
    (h : List.Forall₂ (fun b n => t.nameOf b = .ok n) m names) : names.Nodup := by
  induction h with
  | nil => exact List.nodup_nil
  | cons h1 h2 ih =>
    rw [List.nodup_cons] at hm ⊢
    refine ⟨fun hmem => hm.1 ?_, ih hm.2⟩
    obtain ⟨b, hb, e⟩ := forall2_mem_right h2 hmem
    rw [hr.inj h1 e]
    exact hb

/-- The emitted layout can be used with the keyboard, and has every text where the map sends it. -/
theorem emit_specialize (hr : Represents t ns) (hn : Named t kb.keys) (hu : UnambiguousModifiers layers)
    (hrch : Reachable layers) (hmod : ∀ l ∈ layers, ∀ m ∈ l.modifier, FSet.WF m ∧ ∀ b ∈ m, b ∈ kb.keys.map Btn.i)
    (hp : Permutes bm) (ho : OnBoard layers kb bm) :
    ∃ d ls, emit t (KeyboardLayout.mk' name layers kb) kb bm = .ok d ∧
      (GenericLayout.deserialize d).specialize t kb = .ok (KeyboardLayout.mk' d.name ls kb) ∧ ls.map Layer.modifier = layers.map Layer.modifier ∧
      (∀ p, Valid layers kb p → textAt ls (target bm p) = textAt layers p) ∧
      ∀ q v, textAt ls q = some v → Valid layers kb q := by
  have hname : ∀ b ∈ kb.keys.map Btn.i, ∃ n, Called t kb n b := by
    intro b hb
    obtain ⟨x, hx, rfl⟩ := List.mem_map.1 hb
    obtain ⟨n, h⟩ := hn x hx
    exact ⟨n, ⟨x, hx, rfl⟩, h⟩
  obtain ⟨gs, h1, h2, h3, h4, h5⟩ := emit_spec (name := name) hr hn hu hrch (fun l hl m hm b hb => by
    obtain ⟨n, h⟩ := hname b ((hmod l hl m hm).2 b hb)
    exact ⟨n, h.2⟩) hp ho
  have hget : ∀ g ∈ gs, ∃ (j : Nat) (l : Layer), gs[j]? = some g ∧ layers[j]? = some l := by
    intro g hg
    obtain ⟨j, hj, rfl⟩ := List.mem_iff_getElem.1 hg
    exact ⟨j, layers[j]'(by omega), List.getElem?_eq_getElem hj, List.getElem?_eq_getElem _⟩
  have hall : ∀ g ∈ gs, ∀ n ∈ layerNames g, HasButton t kb n := by
    intro g hg n hnm
    obtain ⟨j, l, hj, hl⟩ := hget g hg
    rcases List.mem_append.1 hnm with h | h
    · obtain ⟨v, hv⟩ := Option.isSome_iff_exists.1 (Dict.get?_isSome_iff.2 h)
      obtain ⟨p, hpv, b, e1, e2, _⟩ := (h4 j n v).1 (by rw [gTextAt, hj]; exact hv)
      have := ((target_valid hp ho).2 hpv).2
      rw [e1] at this
      obtain ⟨x, hx, rfl⟩ := List.mem_map.1 this
      exact ⟨x, hx, e2⟩
    · obtain ⟨ns', h6, h7⟩ := List.mem_flatten.1 h
      obtain ⟨g', hg', hfa⟩ := h5 j l hl
      rw [hj] at hg'
      simp only [Option.some.injEq] at hg'
      subst hg'
      obtain ⟨m, hm, h8⟩ := forall2_mem_right hfa h6
      obtain ⟨b, hb, h9⟩ := forall2_mem_right h8 h7
      obtain ⟨x, hx, rfl⟩ := List.mem_map.1 ((hmod l (List.mem_of_getElem? hl) m hm).2 b hb)
      exact ⟨x, hx, h9⟩
  rcases specLayers_iff hn gs with ⟨⟨ls, hls⟩, _⟩ | ⟨_, g, hg, n, hnm, hb⟩
  swap
  · exact absurd (hall g hg n hnm) hb
  have htr := specLayers_translates hr hn h3 hls
  have hlen : ls.length = gs.length := htr.length_eq.symm
  have hat : ∀ (j : Nat) (g : GLayer) (l : Layer), gs[j]? = some g → ls[j]? = some l → Translates t kb g l := by
    intro j g l hg hl
    obtain ⟨a, rfl⟩ := List.getElem?_eq_some_iff.1 hg
    obtain ⟨b, rfl⟩ := List.getElem?_eq_some_iff.1 hl
    exact List.forall₂_iff_get.1 htr |>.2 j a b
  -- texts of the specialized layout, by name
  have htext : ∀ j n b, j < layers.length → Called t kb n b → textAt ls (j, b) = gTextAt gs j n := by
    intro j n b hj hc
    have hg := List.getElem?_eq_getElem (l := gs) (i := j) (by omega)
    have hl := List.getElem?_eq_getElem (l := ls) (i := j) (by omega)
    simp only [textAt, gTextAt, hg, hl, Option.bind_some]
    exact (hat j _ _ hg hl).texts n b hc
  have hdes : (GenericLayout.deserialize ⟨name ++ "-new", gs⟩).layers = gs := by
    simp only [GenericLayout.deserialize]
    conv_rhs => rw [← List.map_id gs]
    apply List.map_congr_left
    intro g hg
    obtain ⟨j, l, hj, hl⟩ := hget g hg
    obtain ⟨g', hg', hfa⟩ := h5 j l hl
    rw [hj] at hg'
    simp only [Option.some.injEq] at hg'
    subst hg'
    have : g.modifier.map nameSet = g.modifier := by
      conv_rhs => rw [← List.map_id g.modifier]
      apply List.map_congr_left
      intro names hnames
      obtain ⟨m, hm, hfa'⟩ := forall2_mem_right hfa hnames
      exact nameSet_of_nodup (names_nodup hr (hmod l (List.mem_of_getElem? hl) m hm).1.nodup hfa')
    rw [this]; rfl
  refine ⟨_, ls, h1, by simp only [GenericLayout.specialize, hdes, hls, bind, Except.bind]; rfl, ?_, ?_, ?_⟩
  · apply List.ext_getElem?
    intro j
    rw [List.getElem?_map, List.getElem?_map]
    cases hl : layers[j]? with
    | none =>
      have : ls[j]? = none := by
        rw [List.getElem?_eq_none_iff] at hl ⊢; omega
      rw [this]
    | some l =>
      obtain ⟨g, hg, hfa⟩ := h5 j l hl
      have hj := (List.getElem?_eq_some_iff.1 hl).1
      have hl' := List.getElem?_eq_getElem (l := ls) (i := j) (by omega)
      have hm := (hat j _ _ hg hl').modifiers
      rw [hl']
      simp only [Option.map_some, Option.some.injEq]
      apply List.ext_getElem
      · rw [← hm.length_eq, hfa.length_eq]
      · intro k hk1 hk2
        have hk3 : k < g.modifier.length := by rw [hm.length_eq]; exact hk1
        have a := (List.forall₂_iff_get.1 hm).2 k hk3 hk1
        have b := (List.forall₂_iff_get.1 hfa).2 k hk2 hk3
        simp only [List.get_eq_getElem] at a b
        have hw := hmod l (List.mem_of_getElem? hl) _ (List.getElem_mem hk2)
        refine FSet.ext a.1 hw.1 fun x => ?_
        rw [a.2]
        constructor
        · rintro ⟨n, hnm, hc⟩
          obtain ⟨y, hy, hyn⟩ := forall2_mem_right b hnm
          rw [hr.inj hc.2 hyn]; exact hy
        · intro hx
          obtain ⟨n, hnm, hxn⟩ := forall2_mem_left b hx
          obtain ⟨z, hz, hz'⟩ := List.mem_map.1 (hw.2 x hx)
          exact ⟨n, hnm, ⟨z, hz, hz'⟩, hxn⟩
  · intro p hv
    have hv' := (target_valid hp ho).2 hv
    obtain ⟨n, hc⟩ := hname _ hv'.2
    rw [show target bm p = ((target bm p).1, (target bm p).2) from rfl, htext _ n _ hv'.1 hc]
    apply Option.ext
    intro v
    rw [h4]
    constructor
    · rintro ⟨q, _, b, e1, e2, e3⟩
      have hb := hr.inj e2 hc.2
      have : q = p := target_injective hp (by rw [e1, hb])
      rw [← this]; exact e3
    · intro h; exact ⟨p, hv, _, rfl, hc.2, h⟩
  · rintro ⟨j, b⟩ v h
    simp only [textAt] at h
    obtain ⟨l, hl, hb⟩ := Option.bind_eq_some_iff.1 h
    have hj := (List.getElem?_eq_some_iff.1 hl).1
    have hg := List.getElem?_eq_getElem (l := gs) (i := j) (by omega)
    obtain ⟨n, ⟨x, hx, e⟩, _⟩ := (hat j _ _ hg hl).nothingElse b v hb
    exact ⟨by change j < _; omega, List.mem_map.2 ⟨x, hx, e⟩⟩

/-- Typing the moved combination on the emitted layout gives what the original combination gave. -/
theorem moved_text {ls : List Layer} (hmods : ls.map Layer.modifier = layers.map Layer.modifier)
    (hat : ∀ p, Valid layers kb p → textAt ls (target bm p) = textAt layers p) (ho : OnBoard layers kb bm)
    {c c' : Comb} (h : Moves layers bm c c') :
    ∃ (i : Nat) (l : Layer) (b : Button) (j : Nat) (l' : Layer) (b' : Button), layers[i]? = some l ∧ c.modifier ∈ l.modifier ∧ c.buttons = [b] ∧ ls[j]? = some l' ∧
      c'.modifier ∈ l'.modifier ∧ c'.buttons = [b'] ∧ l'.layout.get? b' = l.layout.get? b := by
  obtain ⟨i, l, b, j, l', b', m, h1, h2, h3, h4, h5, h6, rfl⟩ := h
  have h7 : (ls.map Layer.modifier)[j]? = some l'.modifier := by rw [hmods, List.getElem?_map, h5]; rfl
  rw [List.getElem?_map] at h7
  obtain ⟨l2, h8, h9⟩ := Option.map_eq_some_iff.1 h7
  have hv := ho (i, b) (Dict.get?_isSome_iff.1 (by simp [h4]))
  have := hat (i, b) hv
  rw [target, h4] at this
  simp only [Option.getD_some, textAt, h8, h1, Option.bind_some] at this
  exact ⟨i, l, b, j, l2, b', h1, h2, h3, h8, by rw [h9]; exact List.mem_of_mem_head? (by simp [h6]), rfl, this⟩

end
end Lulua
