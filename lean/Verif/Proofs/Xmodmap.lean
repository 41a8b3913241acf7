import Verif.Proofs.Render
import Verif.Proofs.Plot
import Verif.Spec.Xmodmap
import Mathlib.Data.Nat.Digits.Lemmas

/-!
# Lemmas about the xmodmap file
-/

namespace Lulua
open Spec

/-! ### Hexadecimal numbers -/

theorem hexDigit_mem {n : Nat} (h : n < 16) : hexDigit n ∈ hexDigits ∧ hexDigits.idxOf (hexDigit n) = n := by
  have : ∀ n < 16, hexDigit n ∈ hexDigits ∧ hexDigits.idxOf (hexDigit n) = n := by decide +kernel
  exact this n h

theorem hexDigit_ne_zero {n : Nat} (h : n < 16) (h0 : n ≠ 0) : hexDigit n ≠ '0' := by
  have : ∀ n < 16, n ≠ 0 → hexDigit n ≠ '0' := by decide +kernel
  exact this n h h0

theorem hexValue_append (a b : Text) : hexValue (a ++ b) = b.foldl (fun n c => 16 * n + hexDigits.idxOf c) (hexValue a) := by
  unfold hexValue; rw [List.foldl_append]

theorem hexValue_zeros (k : Nat) : hexValue (List.replicate k '0') = 0 := by
  induction k with
  | zero => rfl
  | succ k ih =>
    rw [List.replicate_succ', hexValue_append, ih]
    decide +kernel

theorem foldl_hex (ds : List Nat) (h : ∀ d ∈ ds, d < 16) :
    (ds.reverse.map hexDigit).foldl (fun n c => 16 * n + hexDigits.idxOf c) 0 = Nat.ofDigits 16 ds := by
  induction ds with
  | nil => rfl
  | cons d ds ih =>
    simp only [List.reverse_cons, List.map_append, List.foldl_append, List.map_cons, List.map_nil, List.foldl_cons,
      List.foldl_nil]
    rw [ih (fun x hx => h x (by simp [hx])), (hexDigit_mem (h d (by simp))).2, Nat.ofDigits_cons]
    omega

theorem hex4_spec (n : Nat) : IsHex4 (hex4 n) n := by
  have hlt : ∀ d ∈ Nat.digits 16 n, d < 16 := fun d hd => Nat.digits_lt_base (by norm_num) hd
  refine ⟨?_, ?_, ?_, ?_⟩
  · intro c hc
    unfold hex4 at hc
    rcases List.mem_append.1 hc with hc | hc
    · rw [(List.mem_replicate.1 hc).2]; decide
    · obtain ⟨d, hd, rfl⟩ := List.mem_map.1 hc
      exact (hexDigit_mem (hlt d (List.mem_reverse.1 hd))).1
  · unfold hex4
    simp only
    rw [hexValue_append, hexValue_zeros, foldl_hex _ hlt, Nat.ofDigits_digits]
  · unfold hex4
    simp only [List.length_append, List.length_replicate]
    omega
  · unfold hex4
    simp only [List.length_append, List.length_replicate]
    intro h
    have h0 : 4 - ((Nat.digits 16 n).reverse.map hexDigit).length = 0 := by omega
    rw [h0, List.replicate_zero, List.nil_append]
    have hne : Nat.digits 16 n ≠ [] := by
      intro he
      rw [he] at h
      simp at h
    rw [List.head?_map, List.head?_reverse, List.getLast?_eq_some_getLast hne]
    simp only [Option.map_some, ne_eq, Option.some.injEq]
    refine hexDigit_ne_zero (hlt _ (List.getLast_mem hne)) ?_
    apply Nat.getLast_digit_ne_zero
    rintro rfl
    simp at hne

theorem symbolOf_char (truthy : Nat → Bool) (c : Char) : ∃ s, symbolOf truthy (some (.str [c])) = .ok s ∧ KeySym c s := by
  refine ⟨_, rfl, ?_⟩
  unfold KeySym
  by_cases h1 : c = '\t'
  · subst h1; exact .inl ⟨rfl, rfl⟩
  by_cases h2 : c = '\n'
  · subst h2; exact .inr (.inl ⟨rfl, rfl⟩)
  by_cases h3 : c = ' '
  · subst h3; exact .inr (.inr (.inl ⟨rfl, rfl⟩))
  by_cases h4 : c = '\x08'
  · subst h4; exact .inr (.inr (.inr (.inl ⟨rfl, rfl⟩)))
  have hn : specialMap.get? c = none := by
    rw [Dict.get?_eq_none_iff]
    have : specialMap.map Prod.fst = ['\t', '\n', ' ', '\x08'] := rfl
    rw [this]
    simp only [List.mem_cons, List.not_mem_nil, or_false, not_or]
    exact ⟨h1, h2, h3, h4⟩
  rw [hn]
  exact .inr (.inr (.inr (.inr ⟨h1, h2, h3, h4, _, rfl, hex4_spec _⟩)))

/-! ### Loops whose errors do not depend on the state -/

theorem foldlM_map_ok {σ β γ : Type} {f : β → Py γ} {g : σ → β → γ → σ} : ∀ {l : List β} {d d' : σ},
    l.foldlM (fun d b => (f b).map (g d b)) d = (.ok d' : Py σ) ↔
      ∃ os, List.Forall₂ (fun b o => f b = .ok o) l os ∧ d' = (l.zip os).foldl (fun d p => g d p.1 p.2) d
  | [], d, d' => by
    simp only [List.foldlM_nil, List.forall₂_nil_left_iff, exists_eq_left, List.zip_nil_left, List.foldl_nil]
    constructor
    · intro h; cases h; rfl
    · rintro rfl; rfl
  | b :: l, d, d' => by
    rw [List.foldlM_cons]
    constructor
    · intro h
      cases hf : f b with
      | error e => rw [hf] at h; cases h
      | ok o =>
        rw [hf] at h
        obtain ⟨os, h1, h2⟩ := foldlM_map_ok.1 h
        exact ⟨o :: os, .cons hf h1, h2⟩
    · rintro ⟨os, h1, h2⟩
      cases h1 with
      | cons hf h1 =>
        rw [hf]
        exact foldlM_map_ok.2 ⟨_, h1, h2⟩

theorem foldlM_map_exists {σ β γ : Type} {f : β → Py γ} {g : σ → β → γ → σ} (l : List β) (d : σ) :
    (∃ d', l.foldlM (fun d b => (f b).map (g d b)) d = (.ok d' : Py σ)) ↔ ∀ b ∈ l, ∃ o, f b = .ok o := by
  constructor
  · rintro ⟨d', h⟩ b hb
    obtain ⟨os, h1, _⟩ := foldlM_map_ok.1 h
    obtain ⟨o, _, ho⟩ := forall₂_left_mem h1 hb
    exact ⟨o, ho⟩
  · intro h
    have : ∃ os, List.Forall₂ (fun b o => f b = .ok o) l os := by
      induction l with
      | nil => exact ⟨[], .nil⟩
      | cons b l ih =>
        obtain ⟨o, ho⟩ := h b (by simp)
        obtain ⟨os, hos⟩ := ih (fun b hb => h b (by simp [hb]))
        exact ⟨o :: os, .cons ho hos⟩
    obtain ⟨os, hos⟩ := this
    exact ⟨_, foldlM_map_ok.2 ⟨os, hos, rfl⟩⟩

/-! ### The columns -/

/-- What is appended for a button, if anything. -/
def colSym (truthy : Nat → Bool) (L : KeyboardLayout) (layer : Option Layer) (b : Btn) : Py (Option Text) :=
  match layer with
  | none => .ok (some noSymbol)
  | some l => if L.isModifier (frozenset [b.i]) then .ok none else (symbolOf truthy (l.layout.get? b.i)).map some

def appendOpt (d : KeycodeMap) (b : Btn) (o : Option Text) : KeycodeMap :=
  match o with
  | none => d
  | some s => d.append b s

theorem xmodmapButton_eq (truthy : Nat → Bool) (L : KeyboardLayout) (layer : Option Layer) :
    xmodmapButton truthy L layer = fun d b => (colSym truthy L layer b).map (appendOpt d b) := by
  funext d b
  unfold xmodmapButton colSym
  cases layer with
  | none => rfl
  | some l =>
    simp only
    split
    · rfl
    · cases symbolOf truthy (l.layout.get? b.i) <;> rfl

def addSym (p : Option (Btn × List Text)) (b : Btn) (o : Option Text) : Option (Btn × List Text) :=
  match o with
  | none => p
  | some s =>
    match p with
    | none => some (b, [s])
    | some (q, l) => some (q, l ++ [s])

theorem get?_appendOpt (d : KeycodeMap) (b : Btn) (o : Option Text) (k : Button) :
    (appendOpt d b o).get? k = if b.i = k then addSym (d.get? b.i) b o else d.get? k := by
  unfold appendOpt addSym
  cases o with
  | none =>
    simp only
    split
    · next h => rw [h]
    · rfl
  | some s =>
    simp only [KeycodeMap.append]
    cases hg : d.get? b.i with
    | none =>
      simp only [Dict.get?_set]
    | some p =>
      simp only [Dict.get?_set]

theorem wf_appendOpt {d : KeycodeMap} (wf : Dict.WF d) (b : Btn) (o : Option Text) : Dict.WF (appendOpt d b o) := by
  unfold appendOpt
  cases o with
  | none => exact wf
  | some s =>
    simp only [KeycodeMap.append]
    cases d.get? b.i <;> exact Dict.wf_set wf _ _

theorem wf_foldl_appendOpt (l : List (Btn × Option Text)) : ∀ {d : KeycodeMap}, Dict.WF d →
    Dict.WF (l.foldl (fun d p => appendOpt d p.1 p.2) d) := by
  induction l with
  | nil => intro d wf; exact wf
  | cons p l ih => intro d wf; exact ih (wf_appendOpt wf _ _)

/-- The buttons `unique` keeps, `reps`, each get the symbol of the column. -/
theorem column_get? {f : Btn → Py (Option Text)} : ∀ {reps : List Btn} {os : List (Option Text)} {d : KeycodeMap},
    List.Forall₂ (fun b o => f b = .ok o) reps os → (reps.map Btn.i).Nodup →
    (∀ b ∈ reps, ∃ o, f b = .ok o ∧
      ((reps.zip os).foldl (fun d p => appendOpt d p.1 p.2) d).get? b.i = addSym (d.get? b.i) b o) ∧
    (∀ k, k ∉ reps.map Btn.i → ((reps.zip os).foldl (fun d p => appendOpt d p.1 p.2) d).get? k = d.get? k) := by
  intro reps os d h
  induction h generalizing d with
  | nil => intro _; exact ⟨by simp, by intro k _; rfl⟩
  | @cons b o reps os hb h ih =>
    intro hnd
    rw [List.map_cons, List.nodup_cons] at hnd
    obtain ⟨h1, h2⟩ := ih (d := appendOpt d b o) hnd.2
    simp only [List.zip_cons_cons, List.foldl_cons]
    constructor
    · intro b' hb'
      rcases List.mem_cons.1 hb' with rfl | hb'
      · refine ⟨o, hb, ?_⟩
        rw [h2 _ hnd.1, get?_appendOpt, if_pos rfl]
      · obtain ⟨o', ho', hg⟩ := h1 b' hb'
        refine ⟨o', ho', ?_⟩
        rw [hg, get?_appendOpt, if_neg]
        intro he
        exact hnd.1 (he ▸ List.mem_map.2 ⟨b', hb', rfl⟩)
    · intro k hk
      rw [List.map_cons, List.mem_cons, not_or] at hk
      rw [h2 k hk.2, get?_appendOpt, if_neg (Ne.symm hk.1)]

/-- All columns together. -/
theorem columns_ok {truthy : Nat → Bool} {L : KeyboardLayout} {kb : PhysicalKeyboard} {reps : List Btn}
    (hu : unique (scancodeKey "xorg") kb.keys = .ok reps) (hnd : (reps.map Btn.i).Nodup) :
    ∀ {cols : List Nat} {d d' : KeycodeMap}, Dict.WF d → cols.foldlM (xmodmapColumn truthy L kb) d = .ok d' →
    Dict.WF d' ∧
    (∀ b ∈ reps, ∃ os, List.Forall₂ (fun i o => colSym truthy L L.layers[i]? b = .ok o) cols os ∧
      d'.get? b.i = os.foldl (fun p o => addSym p b o) (d.get? b.i)) ∧
    (∀ k, k ∉ reps.map Btn.i → d'.get? k = d.get? k) := by
  intro cols
  induction cols with
  | nil =>
    intro d d' wf h
    cases h
    exact ⟨wf, fun b _ => ⟨[], .nil, rfl⟩, fun _ _ => rfl⟩
  | cons i cols ih =>
    intro d d' wf h
    rw [foldlM_cons_ok] at h
    obtain ⟨d1, h1, h2⟩ := h
    simp only [xmodmapColumn, hu, bind_ok_iff, Except.ok.injEq] at h1
    obtain ⟨_, rfl, h1⟩ := h1
    rw [xmodmapButton_eq, foldlM_map_ok] at h1
    obtain ⟨os, h3, rfl⟩ := h1
    obtain ⟨g1, g2⟩ := column_get? (d := d) h3 hnd
    obtain ⟨w, k1, k2⟩ := ih (wf_foldl_appendOpt _ wf) h2
    refine ⟨w, ?_, ?_⟩
    · intro b hb
      obtain ⟨os', h4, h5⟩ := k1 b hb
      obtain ⟨o, ho, hg⟩ := g1 b hb
      refine ⟨o :: os', .cons ho h4, ?_⟩
      rw [h5, hg]
      rfl
    · intro k hk
      rw [k2 k hk, g2 k hk]

theorem columns_exists {truthy : Nat → Bool} {L : KeyboardLayout} {kb : PhysicalKeyboard} {reps : List Btn}
    (hu : unique (scancodeKey "xorg") kb.keys = .ok reps) (cols : List Nat) (d : KeycodeMap) :
    (∃ d', cols.foldlM (xmodmapColumn truthy L kb) d = .ok d') ↔
      ∀ i ∈ cols, ∀ b ∈ reps, ∃ o, colSym truthy L L.layers[i]? b = .ok o := by
  induction cols generalizing d with
  | nil => simp [pure, Except.pure]
  | cons i cols ih =>
    have hstep : ∀ d, (∃ d', xmodmapColumn truthy L kb d i = .ok d') ↔ ∀ b ∈ reps, ∃ o, colSym truthy L L.layers[i]? b = .ok o := by
      intro d
      rw [← foldlM_map_exists (g := appendOpt) reps d, ← xmodmapButton_eq]
      simp only [xmodmapColumn, hu, bind_ok_iff, Except.ok.injEq, exists_eq_left']
    constructor
    · rintro ⟨d', h⟩
      rw [foldlM_cons_ok] at h
      obtain ⟨d1, h1, h2⟩ := h
      intro j hj
      rcases List.mem_cons.1 hj with rfl | hj
      · exact (hstep d).1 ⟨_, h1⟩
      · exact (ih d1).1 ⟨_, h2⟩ j hj
    · intro h
      obtain ⟨d1, h1⟩ := (hstep d).2 (h i (by simp))
      obtain ⟨d2, h2⟩ := (ih d1).2 (fun j hj => h j (by simp [hj]))
      exact ⟨d2, foldlM_cons_ok.2 ⟨d1, h1, h2⟩⟩

theorem foldl_addSym_some {b : Btn} : ∀ {os : List (Option Text)} {ss : List Text} {q : Btn} {l : List Text},
    os = ss.map some → os.foldl (fun p o => addSym p b o) (some (q, l)) = some (q, l ++ ss)
  | _, [], q, l, h => by subst h; simp
  | _, s :: ss, q, l, h => by
    subst h
    simp only [List.map_cons, List.foldl_cons]
    rw [show addSym (some (q, l)) b (some s) = some (q, l ++ [s]) from rfl, foldl_addSym_some rfl]
    simp

theorem foldl_addSym_none {b : Btn} {os : List (Option Text)} {ss : List Text} (h : os = ss.map some) (hne : ss ≠ []) :
    os.foldl (fun p o => addSym p b o) none = some (b, ss) := by
  subst h
  cases ss with
  | nil => exact absurd rfl hne
  | cons s ss =>
    simp only [List.map_cons, List.foldl_cons]
    rw [show addSym none b (some s) = some (b, [s]) from rfl, foldl_addSym_some rfl]
    simp

theorem foldl_addSym_obj {b : Btn} : ∀ {os : List (Option Text)} {p : Option (Btn × List Text)} {o : Btn} {l : List Text},
    (∀ o l, p = some (o, l) → o = b) → os.foldl (fun p o => addSym p b o) p = some (o, l) → o = b
  | [], p, o, l, hp, h => hp o l h
  | x :: os, p, o, l, hp, h => by
    refine foldl_addSym_obj (p := addSym p b x) ?_ h
    intro o' l' he
    unfold addSym at he
    match x, p, he with
    | none, p, he => exact hp _ _ he
    | some s, none, he => cases he; rfl
    | some s, some (q, m), he => cases he; exact hp _ _ rfl

/-! ### Modifiers -/

theorem leadsTo_cons_succ {l : Layer} {ls : List Layer} {b : Button} {j : Nat} :
    LeadsTo (l :: ls) b (j + 1) ↔ LeadsTo ls b j := by
  unfold LeadsTo
  constructor
  · rintro ⟨⟨x, h1, h2⟩, h3⟩
    exact ⟨⟨x, h1, h2⟩, fun k y hk hy => h3 (k + 1) y (by omega) hy⟩
  · rintro ⟨⟨x, h1, h2⟩, h3⟩
    refine ⟨⟨x, h1, h2⟩, ?_⟩
    intro k y hk hy
    match k with
    | 0 => omega
    | k + 1 => exact h3 k y (by omega) hy

theorem leadsTo_cons_zero {l : Layer} {ls : List Layer} {b : Button} :
    LeadsTo (l :: ls) b 0 ↔ [b] ∈ l.modifier ∧ NoModifier ls b := by
  unfold LeadsTo NoModifier
  constructor
  · rintro ⟨⟨x, h1, h2⟩, h3⟩
    simp only [List.getElem?_cons_zero, Option.some.injEq] at h1
    subst h1
    refine ⟨h2, ?_⟩
    intro y hy
    obtain ⟨k, hk⟩ := List.mem_iff_getElem?.1 hy
    exact h3 (k + 1) y (by omega) hk
  · rintro ⟨h1, h2⟩
    refine ⟨⟨l, rfl, h1⟩, ?_⟩
    intro k y hk hy
    match k with
    | 0 => omega
    | k + 1 => exact h2 y (List.mem_of_getElem? hy)

theorem noModifier_or_leadsTo (layers : List Layer) (b : Button) : NoModifier layers b ∨ ∃ i, LeadsTo layers b i := by
  by_cases h : ∃ l ∈ layers, [b] ∈ l.modifier
  · obtain ⟨i, hi, h1, h2⟩ := exists_last_layer h
    exact .inr ⟨i, leadsTo_of hi h1 h2⟩
  · left
    push Not at h
    exact h

/-- Objects in the map are those of the keyboard. -/
def ObjOk (kb : PhysicalKeyboard) (d : KeycodeMap) : Prop := ∀ k o s, d.get? k = some (o, s) → o.i = k ∧ o ∈ kb.keys

theorem object_ok {kb : PhysicalKeyboard} {b : Button} {o : Btn} (h : kb.object b = .ok o) : o.i = b ∧ o ∈ kb.keys := by
  unfold PhysicalKeyboard.object at h
  cases hf : kb.keys.find? (fun k => k.i = b) with
  | none => rw [hf] at h; cases h
  | some k =>
    rw [hf] at h
    cases h
    exact ⟨by simpa using List.find?_some hf, List.mem_of_find?_eq_some hf⟩

theorem object_exists {kb : PhysicalKeyboard} {b : Button} : (∃ o, kb.object b = .ok o) ↔ b ∈ kb.keys.map Btn.i := by
  constructor
  · rintro ⟨o, h⟩
    obtain ⟨h1, h2⟩ := object_ok h
    exact List.mem_map.2 ⟨o, h2, h1⟩
  · intro h
    obtain ⟨o, h1, h2⟩ := List.mem_map.1 h
    unfold PhysicalKeyboard.object
    cases hf : kb.keys.find? (fun k => k.i = b) with
    | none =>
      rw [List.find?_eq_none] at hf
      exact absurd h2 (by simpa using hf o h1)
    | some k => exact ⟨k, rfl⟩

theorem layerSymbols_ok {i : Nat} {s : List Text} : layerSymbols i = .ok s ↔ (i, s) ∈ modifierSymbols := by
  match i with
  | 0 => simp [layerSymbols, layerMap, modifierSymbols, eq_comm]
  | 1 => simp [layerSymbols, layerMap, modifierSymbols, eq_comm]
  | 2 => simp [layerSymbols, layerMap, modifierSymbols, eq_comm]
  | 3 => simp [layerSymbols, layerMap, modifierSymbols, eq_comm]
  | i + 4 => simp [layerSymbols, layerMap, modifierSymbols]

theorem xmodmapModifier_ok {kb : PhysicalKeyboard} {i : Nat} {d d' : KeycodeMap} {m : FSet} (ho : ObjOk kb d)
    (h : xmodmapModifier kb i d m = .ok d') :
    ObjOk kb d' ∧ (Dict.WF d → Dict.WF d') ∧
    (m = [] ∧ d' = d ∨ ∃ b s o, m = [b] ∧ (i, s) ∈ modifierSymbols ∧ b ∈ kb.keys.map Btn.i ∧ d' = d.set b (o, s)) := by
  unfold xmodmapModifier at h
  match m, h with
  | [], h => cases h; exact ⟨ho, id, .inl ⟨rfl, rfl⟩⟩
  | _ :: _ :: _, h => cases h
  | [b], h =>
    simp only [bind_ok_iff, Except.ok.injEq] at h
    obtain ⟨o, h1, s, h2, rfl⟩ := h
    have hob : o.i = b ∧ o ∈ kb.keys := by
      cases hg : d.get? b with
      | none => rw [hg] at h1; exact object_ok h1
      | some p =>
        rw [hg] at h1
        cases h1
        exact ho b p.1 p.2 hg
    refine ⟨?_, fun wf => Dict.wf_set wf _ _, .inr ⟨b, s, o, rfl, layerSymbols_ok.1 h2, List.mem_map.2 ⟨o, hob.2, hob.1⟩, rfl⟩⟩
    intro k o' s' hg
    rw [Dict.get?_set] at hg
    split at hg
    · next hk => cases hg; exact ⟨hob.1.trans hk, hob.2⟩
    · exact ho k o' s' hg

theorem xmodmapModifier_exists {kb : PhysicalKeyboard} {i : Nat} {d : KeycodeMap} {m : FSet} (ho : ObjOk kb d) :
    (∃ d', xmodmapModifier kb i d m = .ok d') ↔ m = [] ∨ ∃ b, m = [b] ∧ i < 4 ∧ b ∈ kb.keys.map Btn.i := by
  constructor
  · rintro ⟨d', h⟩
    rcases (xmodmapModifier_ok ho h).2.2 with ⟨rfl, _⟩ | ⟨b, s, o, rfl, hs, hb, _⟩
    · exact .inl rfl
    · refine .inr ⟨b, rfl, ?_, hb⟩
      simp only [modifierSymbols, List.mem_cons, Prod.mk.injEq, List.not_mem_nil, or_false] at hs
      omega
  · rintro (rfl | ⟨b, rfl, hi, hb⟩)
    · exact ⟨d, rfl⟩
    · obtain ⟨s, hs⟩ : ∃ s, layerSymbols i = .ok s := by
        match i, hi with
        | 0, _ => exact ⟨_, rfl⟩
        | 1, _ => exact ⟨_, rfl⟩
        | 2, _ => exact ⟨_, rfl⟩
        | 3, _ => exact ⟨_, rfl⟩
      unfold xmodmapModifier
      cases hg : d.get? b with
      | none =>
        obtain ⟨o, h1⟩ := object_exists.2 hb
        simp only [h1, hs, hg, bind, Except.bind]
        exact ⟨_, rfl⟩
      | some p =>
        simp only [hs, hg, bind, Except.bind]
        exact ⟨_, rfl⟩

/-- One layer. -/
theorem layerModifiers_ok {kb : PhysicalKeyboard} {i : Nat} : ∀ {ms : List FSet} {d d' : KeycodeMap}, ObjOk kb d → Dict.WF d →
    ms.foldlM (xmodmapModifier kb i) d = .ok d' →
    ObjOk kb d' ∧ Dict.WF d' ∧ ∀ b, ([b] ∈ ms → ∃ o s, d'.get? b = some (o, s) ∧ (i, s) ∈ modifierSymbols) ∧
      ([b] ∉ ms → d'.get? b = d.get? b) := by
  intro ms
  induction ms with
  | nil => intro d d' ho wf h; cases h; exact ⟨ho, wf, by simp⟩
  | cons m ms ih =>
    intro d d' ho wf h
    rw [foldlM_cons_ok] at h
    obtain ⟨d1, h1, h2⟩ := h
    obtain ⟨k1, k2, k3⟩ := xmodmapModifier_ok ho h1
    obtain ⟨g1, g2, g3⟩ := ih k1 (k2 wf) h2
    refine ⟨g1, g2, ?_⟩
    intro b
    obtain ⟨e1, e2⟩ := g3 b
    constructor
    · intro hb
      by_cases hbs : [b] ∈ ms
      · exact e1 hbs
      · rw [e2 hbs]
        rcases List.mem_cons.1 hb with rfl | hb
        · rcases k3 with ⟨h, _⟩ | ⟨b', s, o, hb', hs, _, rfl⟩
          · cases h
          · cases hb'
            exact ⟨o, s, by simp, hs⟩
        · exact absurd hb hbs
    · intro hb
      rw [List.mem_cons, not_or] at hb
      rw [e2 hb.2]
      rcases k3 with ⟨_, rfl⟩ | ⟨b', s, o, rfl, hs, _, rfl⟩
      · rfl
      · rw [Dict.get?_set, if_neg]
        rintro rfl
        exact hb.1 rfl

theorem layerModifiers_exists {kb : PhysicalKeyboard} {i : Nat} (ms : List FSet) : ∀ {d : KeycodeMap}, ObjOk kb d →
    ((∃ d', ms.foldlM (xmodmapModifier kb i) d = .ok d') ↔
      ∀ m ∈ ms, m = [] ∨ ∃ b, m = [b] ∧ i < 4 ∧ b ∈ kb.keys.map Btn.i) := by
  induction ms with
  | nil => intro d _; simp [pure, Except.pure]
  | cons m ms ih =>
    intro d ho
    constructor
    · rintro ⟨d', h⟩
      rw [foldlM_cons_ok] at h
      obtain ⟨d1, h1, h2⟩ := h
      intro x hx
      rcases List.mem_cons.1 hx with rfl | hx
      · exact (xmodmapModifier_exists ho).1 ⟨_, h1⟩
      · exact (ih (xmodmapModifier_ok ho h1).1).1 ⟨_, h2⟩ x hx
    · intro h
      obtain ⟨d1, h1⟩ := (xmodmapModifier_exists ho).2 (h m (by simp))
      obtain ⟨d2, h2⟩ := (ih (xmodmapModifier_ok ho h1).1).2 (fun x hx => h x (by simp [hx]))
      exact ⟨d2, foldlM_cons_ok.2 ⟨d1, h1, h2⟩⟩

theorem xmodmapModifiers_ok {kb : PhysicalKeyboard} : ∀ {ls : List Layer} {i : Nat} {d d' : KeycodeMap}, ObjOk kb d → Dict.WF d →
    xmodmapModifiers kb i d ls = .ok d' →
    ObjOk kb d' ∧ Dict.WF d' ∧ ∀ b, (∀ j, LeadsTo ls b j → ∃ o s, d'.get? b = some (o, s) ∧ (i + j, s) ∈ modifierSymbols) ∧
      (NoModifier ls b → d'.get? b = d.get? b) := by
  intro ls
  induction ls with
  | nil =>
    intro i d d' ho wf h
    cases h
    refine ⟨ho, wf, fun b => ⟨?_, fun _ => rfl⟩⟩
    rintro j ⟨⟨l, hl, _⟩, _⟩
    simp at hl
  | cons l ls ih =>
    intro i d d' ho wf h
    simp only [xmodmapModifiers, bind_ok_iff] at h
    obtain ⟨d1, h1, h2⟩ := h
    obtain ⟨k1, k2, k3⟩ := layerModifiers_ok ho wf h1
    obtain ⟨g1, g2, g3⟩ := ih k1 k2 h2
    refine ⟨g1, g2, fun b => ⟨?_, ?_⟩⟩
    · intro j hj
      match j, hj with
      | 0, hj =>
        obtain ⟨h3, h4⟩ := leadsTo_cons_zero.1 hj
        rw [(g3 b).2 h4]
        exact (k3 b).1 h3
      | j + 1, hj =>
        obtain ⟨o, s, h3, h4⟩ := (g3 b).1 j (leadsTo_cons_succ.1 hj)
        exact ⟨o, s, h3, by rw [show i + (j + 1) = i + 1 + j by omega]; exact h4⟩
    · intro hb
      rw [(g3 b).2 (fun x hx => hb x (by simp [hx])), (k3 b).2 (hb l (by simp))]

theorem xmodmapModifiers_exists {kb : PhysicalKeyboard} (ls : List Layer) : ∀ {i : Nat} {d : KeycodeMap}, ObjOk kb d → Dict.WF d →
    ((∃ d', xmodmapModifiers kb i d ls = .ok d') ↔
      ∀ (j : Nat) (l : Layer), ls[j]? = some l → ∀ m ∈ l.modifier, m = [] ∨ ∃ b, m = [b] ∧ i + j < 4 ∧ b ∈ kb.keys.map Btn.i) := by
  induction ls with
  | nil => intro i d _ _; simp [xmodmapModifiers]
  | cons l ls ih =>
    intro i d ho wf
    simp only [xmodmapModifiers, bind_ok_iff]
    constructor
    · rintro ⟨d', d1, h1, h2⟩ j l' hl m hm
      obtain ⟨k1, k2, _⟩ := layerModifiers_ok ho wf h1
      match j, hl with
      | 0, hl =>
        simp only [List.getElem?_cons_zero, Option.some.injEq] at hl
        subst hl
        exact (layerModifiers_exists _ ho).1 ⟨_, h1⟩ m hm
      | j + 1, hl =>
        have := (ih k1 k2).1 ⟨_, h2⟩ j l' hl m hm
        rwa [show i + (j + 1) = i + 1 + j by omega]
    · intro h
      obtain ⟨d1, h1⟩ := (layerModifiers_exists l.modifier ho).2 (h 0 l rfl)
      obtain ⟨k1, k2, _⟩ := layerModifiers_ok ho wf h1
      obtain ⟨d2, h2⟩ := (ih (i := i + 1) k1 k2).2 (by
        intro j l' hl m hm
        have := h (j + 1) l' hl m hm
        rwa [show i + (j + 1) = i + 1 + j by omega] at this)
      exact ⟨d2, d1, h1, h2⟩

theorem scancodeKey_ok {key : String} {b : Btn} {k : ScVal} : scancodeKey key b = .ok k ↔ codeOf key b = some k ∧ ∀ l, k ≠ .list l := by
  unfold scancodeKey Btn.scancodeAt codeOf
  cases b.scancode with
  | none => simp [bind, Except.bind]
  | some d =>
    simp only [bind_ok_iff, Dict.getItem_eq_ok, Option.bind_some]
    constructor
    · rintro ⟨v, h1, h2⟩
      cases v with
      | list l => cases h2
      | _ => cases h2; exact ⟨h1, by simp⟩
    · rintro ⟨h1, h2⟩
      refine ⟨k, h1, ?_⟩
      cases k with
      | list l => exact absurd rfl (h2 l)
      | _ => rfl

theorem unique_reps {key : String} {kb : PhysicalKeyboard} (hnd : (kb.keys.map Btn.i).Nodup) {reps : List Btn}
    (hu : unique (scancodeKey key) kb.keys = .ok reps) :
    (reps.map Btn.i).Nodup ∧ (∀ b ∈ reps, b ∈ kb.keys) ∧ (∀ b, b ∈ reps ↔ LastOfCode key kb b) ∧
      (∀ b ∈ kb.keys, ∃ k, codeOf key b = some k ∧ ∀ l, k ≠ .list l) := by
  obtain ⟨h1, h2, h3, h4, h5⟩ := unique_ok hu
  have hkey : ∀ b ∈ kb.keys, ∃ k, scancodeKey key b = .ok k ∧ codeOf key b = some k ∧ ∀ l, k ≠ .list l := by
    intro b hb
    obtain ⟨k, hk⟩ := h1 b hb
    exact ⟨k, hk, scancodeKey_ok.1 hk⟩
  have heq : ∀ a ∈ kb.keys, ∀ b ∈ kb.keys, (scancodeKey key a = scancodeKey key b ↔ codeOf key a = codeOf key b) := by
    intro a ha b hb
    obtain ⟨k, e1, e2, _⟩ := hkey a ha
    obtain ⟨k', e3, e4, _⟩ := hkey b hb
    rw [e1, e2, e3, e4]
    simp
  refine ⟨?_, h2, ?_, fun b hb => (hkey b hb).imp fun k hk => hk.2⟩
  · refine List.Nodup.map_on ?_ ?_
    · intro a ha b hb he
      exact List.inj_on_of_nodup_map hnd (h2 a ha) (h2 b hb) he
    · exact h4.imp fun {a b} h => by rintro rfl; exact h rfl
  · have hlast : ∀ b ∈ reps, LastOfCode key kb b := by
      intro b hb
      obtain ⟨pre, post, e1, e2⟩ := h5 b hb
      refine ⟨pre, post, e1, ?_⟩
      intro w hw he
      exact e2 w hw ((heq w (by rw [e1]; simp [hw]) b (h2 b hb)).2 he)
    intro b
    refine ⟨hlast b, ?_⟩
    rintro ⟨pre, post, e1, e2⟩
    have hbm : b ∈ kb.keys := by rw [e1]; simp
    obtain ⟨w, hw, e3⟩ := h3 b hbm
    rw [heq w (h2 w hw) b hbm] at e3
    obtain ⟨pre', post', e4, e5⟩ := hlast w hw
    have hwm := h2 w hw
    rw [e1] at hwm
    rcases List.mem_append.1 hwm with hwp | hwp
    · -- `w` comes before `b`
      exfalso
      obtain ⟨p1, p2, rfl⟩ := List.append_of_mem hwp
      have hk : p1 ++ w :: (p2 ++ b :: post) = pre' ++ w :: post' := by rw [← e4, e1]; simp
      have hnk : (p1 ++ w :: (p2 ++ b :: post)).Nodup := by
        have := hnd.of_map
        rw [e1] at this
        simpa using this
      have hnk' : (pre' ++ w :: post').Nodup := hk ▸ hnk
      have hp : post' = p2 ++ b :: post := by
        rw [List.append_eq_append_iff] at hk
        rcases hk with ⟨as, q1, q2⟩ | ⟨bs, q1, q2⟩
        · cases as with
          | nil => simpa using q2.symm
          | cons x as =>
            simp only [List.cons_append, List.cons.injEq] at q2
            obtain ⟨rfl, q2⟩ := q2
            rw [q1] at hnk'
            simp [List.nodup_append] at hnk'
        · cases bs with
          | nil => simpa using q2
          | cons x bs =>
            simp only [List.cons_append, List.cons.injEq] at q2
            obtain ⟨rfl, q2⟩ := q2
            rw [q1] at hnk
            simp [List.nodup_append] at hnk
      exact e5 b (by rw [hp]; simp) e3.symm
    · rcases List.mem_cons.1 hwp with rfl | hwp
      · exact hw
      · exact absurd e3 (e2 w hwp)

theorem isModifier_noModifier {name : String} {layers : List Layer} {kb : PhysicalKeyboard} {b : Button} :
    (KeyboardLayout.mk' name layers kb).isModifier (frozenset [b]) = false ↔ NoModifier layers b := by
  rw [frozenset_singleton]
  rcases modifierToLayer_spec name layers kb [b] with ⟨i, hi, _, h1, h2, _⟩ | ⟨h1, h2, _⟩
  · rw [h1]
    simp only [Bool.true_eq_false, false_iff]
    intro h
    exact h _ (List.getElem_mem hi) h2
  · rw [h2]
    simp only [true_iff]
    exact h1

theorem colSym_noModifier {truthy : Nat → Bool} {name : String} {layers : List Layer} {kb : PhysicalKeyboard} {b : Btn} {i : Nat}
    {o : Option Text} (hm : NoModifier layers b.i)
    (h : colSym truthy (KeyboardLayout.mk' name layers kb) (KeyboardLayout.mk' name layers kb).layers[i]? b = .ok o) :
    ∃ s, o = some s ∧ SymbolAt layers b.i i s := by
  have hl : (KeyboardLayout.mk' name layers kb).layers = layers := rfl
  rw [hl] at h
  unfold colSym at h
  unfold SymbolAt TextAt
  cases hi : layers[i]? with
  | none =>
    rw [hi] at h
    cases h
    exact ⟨_, rfl, .inr ⟨by simp, rfl⟩⟩
  | some l =>
    rw [hi] at h
    simp only [isModifier_noModifier.2 hm, Bool.false_eq_true, if_false] at h
    cases hg : l.layout.get? b.i with
    | none =>
      rw [hg] at h
      cases h
      exact ⟨_, rfl, .inr ⟨by simp [hg], rfl⟩⟩
    | some v =>
      rw [hg] at h
      match v, hg, h with
      | .other n, hg, h =>
        simp only [symbolOf] at h
        split at h
        · cases h
          exact ⟨_, rfl, .inr ⟨by simp [hg], rfl⟩⟩
        · cases h
      | .str [], hg, h =>
        cases h
        exact ⟨_, rfl, .inr ⟨by simp [hg], rfl⟩⟩
      | .str [c], hg, h =>
        obtain ⟨s, h1, h2⟩ := symbolOf_char truthy c
        rw [h1] at h
        cases h
        exact ⟨s, rfl, .inl ⟨c, ⟨l, rfl, hg, by simp⟩, h2⟩⟩
      | .str (_ :: _ :: _), hg, h => cases h

end Lulua
