import Verif.Props.Layout
import Verif.Props.Shipped

/-!
# C108: comparing generic layouts
-/

namespace Lulua.Props
open Lulua Spec

/-- Two layers say the same: the same modifier sets in the same order, and the same value for every name. -/
def SameGLayer (l m : GLayer) : Prop :=
  List.Forall₂ SameSet l.modifier m.modifier ∧ ∀ n, l.layout.get? n = m.layout.get? n

theorem eqDict_get? {κ : Type} [DecidableEq κ] {a b : Dict κ LVal} (ha : a.WF) (hb : b.WF) :
    eqDict a b = true ↔ ∀ k, a.get? k = b.get? k := by
  simp only [eqDict, Bool.and_eq_true, beq_iff_eq, List.all_eq_true]
  have hna : a.Nodup := List.Nodup.of_map _ ha
  have hnb : b.Nodup := List.Nodup.of_map _ hb
  constructor
  · rintro ⟨hlen, hall⟩ k
    have hsub : a ⊆ b := fun e he => Dict.mem_of_get? (hall e he)
    have hperm := (List.subperm_of_subset hna hsub).perm_of_length_le hlen.ge
    apply Option.ext
    intro v
    rw [Dict.get?_eq_some_iff ha, Dict.get?_eq_some_iff hb, hperm.mem_iff]
  · intro h
    have hmem : ∀ e, e ∈ a ↔ e ∈ b := fun e => by
      have := h e.1
      rw [show e = (e.1, e.2) from rfl, ← Dict.get?_eq_some_iff ha, ← Dict.get?_eq_some_iff hb, this]
    have hperm := (List.perm_ext_iff_of_nodup hna hnb).2 hmem
    exact ⟨hperm.length_eq, fun e he => Dict.get?_of_mem hb ((hmem e).1 he)⟩

theorem eqSets_iff (a b : List (List String)) : GenericLayout.eqSets a b = true ↔ List.Forall₂ SameSet a b := by
  induction a generalizing b with
  | nil => cases b <;> simp [GenericLayout.eqSets]
  | cons x a ih =>
    cases b with
    | nil => simp [GenericLayout.eqSets]
    | cons y b =>
      simp only [GenericLayout.eqSets, Bool.and_eq_true, List.all_eq_true, decide_eq_true_eq, ih, List.forall₂_cons]
      refine and_congr_left' ?_
      exact ⟨fun h n => ⟨h.1 n, h.2 n⟩, fun h => ⟨fun n => (h n).1, fun n => (h n).2⟩⟩

/-- **C108** (meaning of `==`): generic layouts are equal exactly if they have the same modifiers and texts, layer by
layer. The name, the order of entries and the order within sets do not matter. -/
theorem C108_eq_iff (g h : GenericLayout) (hg : ∀ l ∈ g.layers, Dict.WF l.layout) (hh : ∀ l ∈ h.layers, Dict.WF l.layout) :
    g.eq h = true ↔ List.Forall₂ SameGLayer g.layers h.layers := by
  obtain ⟨gn, gs⟩ := g
  obtain ⟨hn, hs⟩ := h
  show GenericLayout.eqGLayers gs hs = true ↔ List.Forall₂ SameGLayer gs hs
  simp only at hg hh
  induction gs generalizing hs with
  | nil => cases hs <;> simp [GenericLayout.eqGLayers]
  | cons l ls ih =>
    cases hs with
    | nil => simp [GenericLayout.eqGLayers]
    | cons m ms =>
      rw [GenericLayout.eqGLayers, Bool.and_eq_true, Bool.and_eq_true, eqSets_iff,
        eqDict_get? (hg l (by simp)) (hh m (by simp)), List.forall₂_cons,
        ih (fun x hx => hg x (by simp [hx])) ms (fun x hx => hh x (by simp [hx]))]
      rfl

theorem get?_keys {κ ν : Type} [DecidableEq κ] {a b : Dict κ ν} (h : ∀ k, a.get? k = b.get? k) (n : κ) :
    n ∈ a.map Prod.fst ↔ n ∈ b.map Prod.fst := by
  have key : ∀ d : Dict κ ν, n ∈ d.map Prod.fst ↔ ∃ v, d.get? n = some v := by
    intro d
    induction d with
    | nil => simp [Dict.get?]
    | cons e d ih =>
      simp only [List.map_cons, List.mem_cons, Dict.get?, ih]
      by_cases hc : n = e.1
      · simp [hc]
      · have : ¬ e.1 = n := fun h => hc h.symm
        simp [hc, this]
  rw [key, key, h]

theorem sameSets_flatten {a b : List (List String)} (h : List.Forall₂ SameSet a b) (n : String) :
    n ∈ a.flatten ↔ n ∈ b.flatten := by
  induction h with
  | nil => rfl
  | cons h _ ih => rw [List.flatten_cons, List.flatten_cons, List.mem_append, List.mem_append, ih, h n]

theorem SameGLayer.names {l m : GLayer} (h : SameGLayer l m) (n : String) : n ∈ layerNames l ↔ n ∈ layerNames m := by
  simp only [layerNames, List.mem_append, get?_keys h.2 n, sameSets_flatten h.1 n]

theorem Translates.modifiers_eq {t : InternTable} {kb : PhysicalKeyboard} {a b : List (List String)} {s r : List FSet}
    (hs : List.Forall₂ (fun (m : List String) (s : FSet) => FSet.WF s ∧ ∀ b, b ∈ s ↔ ∃ n ∈ m, Called t kb n b) a s)
    (hr : List.Forall₂ (fun (m : List String) (s : FSet) => FSet.WF s ∧ ∀ b, b ∈ s ↔ ∃ n ∈ m, Called t kb n b) b r)
    (h : List.Forall₂ SameSet a b) : s = r := by
  induction h generalizing s r with
  | nil => cases hs; cases hr; rfl
  | cons h _ ih =>
    cases hs with
    | cons h1 h2 =>
      cases hr with
      | cons h3 h4 =>
        rw [ih h2 h4]
        congr 1
        refine FSet.ext h1.1 h3.1 fun x => ?_
        rw [h1.2, h3.2]
        exact exists_congr fun n => and_congr_left' (h n)

theorem Translates.sameSets {t : InternTable} {kb : PhysicalKeyboard} {a b : List (List String)} {s : List FSet}
    (hs : List.Forall₂ (fun (m : List String) (s : FSet) => FSet.WF s ∧ ∀ b, b ∈ s ↔ ∃ n ∈ m, Called t kb n b) a s)
    (hr : List.Forall₂ (fun (m : List String) (s : FSet) => FSet.WF s ∧ ∀ b, b ∈ s ↔ ∃ n ∈ m, Called t kb n b) b s)
    (ha : ∀ n ∈ a.flatten, HasButton t kb n) (hb : ∀ n ∈ b.flatten, HasButton t kb n) : List.Forall₂ SameSet a b := by
  induction hs generalizing b with
  | nil => cases hr; exact .nil
  | @cons x s a ss h1 _ ih =>
    cases hr with
    | @cons y _ b _ h3 h4 =>
      refine .cons ?_ (ih h4 (fun n hn => ha n (by simp [hn])) (fun n hn => hb n (by simp [hn])))
      have dir : ∀ (x y : List String), (∀ n ∈ x, HasButton t kb n) → (∀ b, b ∈ s ↔ ∃ n ∈ x, Called t kb n b) →
          (∀ b, b ∈ s ↔ ∃ n ∈ y, Called t kb n b) → ∀ n ∈ x, n ∈ y := by
        intro x y hx h1 h2 n hn
        obtain ⟨k, hk, hkn⟩ := hx n hn
        obtain ⟨n', hn', hc⟩ := (h2 k.i).1 ((h1 k.i).2 ⟨n, hn, ⟨k, hk, rfl⟩, hkn⟩)
        have : n = n' := by
          have := hc.2
          rw [hkn] at this
          simpa using this
        exact this ▸ hn'
      intro n
      exact ⟨dir x y (fun n hn => ha n (by simp [hn])) h1.2 h3.2 n,
        dir y x (fun n hn => hb n (by simp [hn])) h3.2 h1.2 n⟩

/-- Translations of layers that say the same are equal, and the other way round. -/
theorem translates_same_iff {t : InternTable} {kb : PhysicalKeyboard} {g h : GLayer} {l m : Layer}
    (hl : Translates t kb g l) (hm : Translates t kb h m) (hg : ∀ n ∈ layerNames g, HasButton t kb n)
    (hh : ∀ n ∈ layerNames h, HasButton t kb n) :
    SameGLayer g h ↔ (l.modifier = m.modifier ∧ ∀ b, l.layout.get? b = m.layout.get? b) := by
  constructor
  · rintro ⟨h1, h2⟩
    refine ⟨Translates.modifiers_eq hl.modifiers hm.modifiers h1, fun b => ?_⟩
    by_cases hc : ∃ n, Called t kb n b
    · obtain ⟨n, hc⟩ := hc
      rw [hl.texts n b hc, hm.texts n b hc, h2]
    · have e1 : l.layout.get? b = none := by
        by_contra hne
        obtain ⟨v, hv⟩ := Option.ne_none_iff_exists'.1 hne
        exact hc (hl.nothingElse b v hv)
      have e2 : m.layout.get? b = none := by
        by_contra hne
        obtain ⟨v, hv⟩ := Option.ne_none_iff_exists'.1 hne
        exact hc (hm.nothingElse b v hv)
      rw [e1, e2]
  · rintro ⟨h1, h2⟩
    refine ⟨Translates.sameSets (h1 ▸ hl.modifiers) hm.modifiers (fun n hn => hg n (List.mem_append_right _ hn))
      (fun n hn => hh n (List.mem_append_right _ hn)), fun n => ?_⟩
    by_cases hn : HasButton t kb n
    · obtain ⟨k, hk, hkn⟩ := hn
      have hc : Called t kb n k.i := ⟨⟨k, hk, rfl⟩, hkn⟩
      rw [← hl.texts n _ hc, ← hm.texts n _ hc, h2]
    · have out : ∀ d : Dict String LVal, n ∉ d.map Prod.fst → d.get? n = none := by
        intro d hd
        by_contra hne
        obtain ⟨v, hv⟩ := Option.ne_none_iff_exists'.1 hne
        exact hd (List.mem_map.2 ⟨(n, v), Dict.mem_of_get? hv, rfl⟩)
      rw [out _ fun hx => hn (hg n (List.mem_append_left _ hx)), out _ fun hx => hn (hh n (List.mem_append_left _ hx))]

/-- **C108** (specialization): two layouts that can be adapted to a keyboard are equal exactly if the adapted ones are. -/
theorem C108_specialize_iff (names : List String) (g h : GenericLayout) (kb : PhysicalKeyboard)
    (hn : Named (tableAfter names) kb.keys) (hg : ∀ l ∈ g.layers, Dict.WF l.layout)
    (hh : ∀ l ∈ h.layers, Dict.WF l.layout) (L M : KeyboardLayout) (hL : g.specialize (tableAfter names) kb = .ok L)
    (hM : h.specialize (tableAfter names) kb = .ok M) : g.eq h = true ↔ L.eq M = true := by
  rw [C108_eq_iff g h hg hh]
  have h1 := ((C16_specialize_succeeds_iff _ g kb hn).1.1 ⟨L, hL⟩)
  have h2 := ((C16_specialize_succeeds_iff _ h kb hn).1.1 ⟨M, hM⟩)
  simp only [GenericLayout.specialize, bind_ok_iff, Except.ok.injEq] at hL hM
  obtain ⟨ls, hls, rfl⟩ := hL
  obtain ⟨ms, hms, rfl⟩ := hM
  have t1 := specLayers_translates (represents_tableAfter names) hn hg hls
  have t2 := specLayers_translates (represents_tableAfter names) hn hh hms
  have w1 := specLayers_wf hls
  have w2 := specLayers_wf hms
  show _ ↔ eqLayers ls ms = true
  clear hls hms hg hh
  obtain ⟨gn, gs⟩ := g
  obtain ⟨hnm, hs⟩ := h
  simp only at t1 t2 h1 h2 ⊢
  induction t1 generalizing hs ms with
  | nil => cases t2 <;> simp [eqLayers]
  | @cons g l gs ls a1 _ ih =>
    cases t2 with
    | nil => simp [eqLayers]
    | @cons h m hs ms b1 b2 =>
      rw [List.forall₂_cons, eqLayers, Bool.and_eq_true, Bool.and_eq_true, beq_iff_eq,
        eqDict_get? (w1 l (by simp)) (w2 m (by simp)),
        translates_same_iff a1 b1 (h1 g (by simp)) (h2 h (by simp)),
        ih ms (fun x hx => w1 x (by simp [hx])) (fun x hx => w2 x (by simp [hx])) (fun x hx => h1 x (by simp [hx])) hs
          (fun x hx => h2 x (by simp [hx])) b2]

/-- **C108** (exceptions): of two equal layouts both or none can be adapted to a keyboard. -/
theorem C108_specialize_together (t : InternTable) (g h : GenericLayout) (kb : PhysicalKeyboard) (hn : Named t kb.keys)
    (hg : ∀ l ∈ g.layers, Dict.WF l.layout) (hh : ∀ l ∈ h.layers, Dict.WF l.layout) (heq : g.eq h = true) :
    (∃ L, g.specialize t kb = .ok L) ↔ ∃ M, h.specialize t kb = .ok M := by
  rw [(C16_specialize_succeeds_iff t g kb hn).1, (C16_specialize_succeeds_iff t h kb hn).1]
  have hs := (C108_eq_iff g h hg hh).1 heq
  constructor
  · intro H m hm n hnm
    obtain ⟨l, hl, hlm⟩ := forall2_mem_right hs hm
    exact H l hl n ((hlm.names n).2 hnm)
  · intro H l hl n hnl
    obtain ⟨m, hm, hlm⟩ := forall2_mem_left hs hl
    exact H m hm n ((hlm.names n).1 hnl)

/-- **C108** (round trip): writing and reading a layout gives an equal one. -/
theorem C108_roundtrip (order : List String → List String) (ho : ∀ s, (order s).Perm s) (g : GenericLayout)
    (hg : ∀ l ∈ g.layers, Dict.WF l.layout) : (GenericLayout.deserialize (g.serialize order)).eq g = true := by
  obtain ⟨_, h⟩ := C15_layout_roundtrip order ho g
  refine (C108_eq_iff _ _ ?_ hg).2 (h.imp fun a b hab => ⟨hab.2, fun n => by rw [hab.1]⟩)
  intro l hl
  obtain ⟨m, hm, hlm⟩ := forall2_mem_left h hl
  exact hlm.1 ▸ hg m hm

/-- Positions of layouts that differ pairwise. -/
def distinctFrom : List LayoutData → Bool
  | [] => true
  | d :: ds => (ds.all fun e => !(GenericLayout.deserialize d).eq (GenericLayout.deserialize e)) && distinctFrom ds

/-- **C108** (shipped layouts): no two of them are equal. -/
theorem C108_shipped : Data.layouts.Pairwise fun d e => (GenericLayout.deserialize d).eq (GenericLayout.deserialize e) = false := by
  have h : distinctFrom Data.layouts = true := by decide +kernel
  have key : ∀ ls, distinctFrom ls = true →
      ls.Pairwise fun d e => (GenericLayout.deserialize d).eq (GenericLayout.deserialize e) = false := by
    intro ls
    induction ls with
    | nil => exact fun _ => .nil
    | cons d ds ih =>
      intro h
      simp only [distinctFrom, Bool.and_eq_true, List.all_eq_true, Bool.not_eq_true'] at h
      exact .cons h.1 (ih h.2)
  exact key _ h

/-- Entries in another order, and members of a set in another order. -/
def demoOther : GenericLayout :=
  { name := "other",
    layers := [{ modifier := [[]], layout := [("Bl1", .str ['a'])] },
               { modifier := [["Cr1", "Br1"], ["Cr1"]], layout := [("Bl1", .str ['A', 'b'])] }] }

example : demoGeneric.eq demoOther = true ∧ demoGeneric ≠ demoOther ∧
    (∀ l ∈ demoOther.layers, Dict.WF l.layout) ∧ ∃ L, demoOther.specialize demoTable demoKb = .ok L := by
  refine ⟨by decide +kernel, by decide +kernel, by decide +kernel, _, rfl⟩

example : demoGeneric.eq ⟨"demo", demoGeneric.layers.take 1⟩ = false := by decide +kernel

end Lulua.Props
