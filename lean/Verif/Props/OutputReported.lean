import Verif.Props.Output

/-!
# C130: Commands that fail say so
-/

namespace Lulua.Props
open Lulua Spec

theorem writePieces_result (t : Text) (ps : List (Py Text)) : (writePieces t ps).result = .ok () ↔ ∀ p ∈ ps, ∃ s, p = .ok s := by
  induction ps generalizing t with
  | nil => simp [writePieces]
  | cons p ps ih =>
    cases p with
    | error e => simp [writePieces]
    | ok s => simp [writePieces, ih]

theorem mapM_works {α β : Type} {f : α → Py β} {l : List α} : (∃ r, l.mapM f = .ok r) ↔ ∀ x ∈ l, ∃ y, f x = .ok y := by
  constructor
  · rintro ⟨r, h⟩ x hx
    obtain ⟨y, -, hy⟩ := forall₂_left_mem ((mapM_ok_iff _ _ _).1 h) hx
    exact ⟨y, hy⟩
  · intro h
    induction l with
    | nil => exact ⟨[], rfl⟩
    | cons a l ih =>
      obtain ⟨y, hy⟩ := h a List.mem_cons_self
      obtain ⟨r, hr⟩ := ih fun x hx => h x (List.mem_cons_of_mem _ hx)
      exact ⟨y :: r, (mapM_ok_iff _ _ _).2 (.cons hy ((mapM_ok_iff _ _ _).1 hr))⟩

theorem map_works {α β : Type} {f : α → β} {x : Py α} : (∃ s, x.map f = .ok s) ↔ ∃ y, x = .ok y := by
  cases x <;> simp [Except.map]

theorem keymanPieces_works {order : FSet → List Button} {kb : PhysicalKeyboard} {l : Layer} {m : FSet} :
    (∀ p ∈ keymanPieces order kb l m, ∃ s, p = .ok s) ↔ ∃ r, keymanModifier order kb l m = .ok r := by
  unfold keymanPieces keymanModifier
  cases h1 : (order m).mapM kb.object with
  | error e => simp [bind, Except.bind]
  | ok bs =>
    simp only [List.forall_mem_cons, List.forall_mem_map, map_works]
    rw [← mapM_works]
    constructor
    · rintro ⟨⟨w, h2⟩, rules, h3⟩
      exact ⟨(w, rules), by simp [bind, Except.bind, h2, h3]⟩
    · rintro ⟨r, h⟩
      simp only [bind_ok_iff, Except.ok.injEq] at h
      obtain ⟨bs', rfl, w, h2, rules, h3, -⟩ := h
      exact ⟨⟨w, h2⟩, rules, h3⟩

/-- **C130** (failures are reported): a command ends without an exception exactly if every part of the file can be computed. -/
theorem C130_reported :
    (∀ ct now truthy t L kb, (xmodmapFile ct now truthy t L kb).result = .ok () ↔ ∃ lines, xmodmap truthy t L kb = .ok lines) ∧
    (∀ now order L kb, (keymanFile now order L kb).result = .ok () ↔ ∃ out, keyman order L kb = .ok out) ∧
    (∀ nfc fmt L kb, (askFile nfc fmt L kb).result = .ok () ↔ ∃ x, ask nfc L kb = .ok x) ∧
    (∀ nfc L kb, (klavaroFile nfc L kb).result = .ok () ↔ ∃ x, klavaro nfc L kb = .ok x) ∧
    (∀ ct name L kb, (keylayoutFile ct name L kb).result = .ok () ↔
      (∀ l ∈ L.layers, ∀ x ∈ l.layout, ∃ c, macKey kb x = .ok c) ∧ ∃ maps, keylayout name L kb = .ok maps) ∧
    ∀ printable order m L kb, (winKbdFile printable order m "ar-lulua".toList L kb).result = .ok () ↔
      ∃ x, winKbdSources printable order m L kb = .ok x := by
  refine ⟨?_, ?_, ?_, ?_, ?_, ?_⟩
  · intro ct now truthy t L kb
    unfold xmodmapFile
    rw [writePieces_result, xmodmap_eq]
    cases xmodmapCodes truthy L kb with
    | error e => simp [Except.bind]
    | ok d =>
      simp only [Except.bind]
      rw [mapM_works, List.forall_mem_append, List.forall_mem_map]
      simp only [map_works, List.forall_mem_singleton, Except.ok.injEq, exists_eq', and_true]
  · intro now order L kb
    unfold keymanFile keyman
    rw [writePieces_result, mapM_works]
    simp only [List.mem_flatMap, mapM_works, ← keymanPieces_works]
    exact ⟨fun h l hl m hm p hp => h p ⟨l, hl, m, hm, hp⟩, fun h p ⟨l, hl, m, hm, hp⟩ => h l hl m hm p hp⟩
  · intro nfc fmt L kb
    unfold askFile
    cases ask nfc L kb <;> simp
  · intro nfc L kb
    unfold klavaroFile
    cases klavaro nfc L kb <;> simp
  · intro ct name L kb
    have hm : (∀ l ∈ L.layers, ∀ x ∈ l.layout, ∃ c, macKey kb x = .ok c) ↔
        ∃ r, (L.layers.mapM fun l => l.layout.mapM (macKey kb)) = .ok r := by
      simp only [mapM_works]
    rw [hm]
    unfold keylayoutFile
    cases L.layers.mapM fun l => l.layout.mapM (macKey kb) with
    | error e => simp
    | ok r =>
      dsimp only
      rw [writePieces_result]
      simp [map_works]
  · intro printable order m L kb
    unfold winKbdFile
    rw [if_neg (by simp)]
    cases winKbdSources printable order m L kb <;> simp

/-- An unknown modifier: the rules of Keyman cannot be computed. -/
example : ∃ L kb, ∀ now, (keymanFile now id L kb).result ≠ .ok () := by
  refine ⟨KeyboardLayout.mk' "" [⟨[[999]], []⟩] askKb, askKb, fun now h => ?_⟩
  obtain ⟨out, h⟩ := (C130_reported.2.1 _ _ _ _).1 h
  have h' : (keyman id (KeyboardLayout.mk' "" [⟨[[999]], []⟩] askKb) askKb).isOk = false := by decide +kernel
  rw [h] at h'
  cases h'

end Lulua.Props
