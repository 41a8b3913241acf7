import Verif.Proofs.Export
import Verif.Data.Composed
import Verif.Props.Shipped

/-!
# Properties of the Keyman, AnySoftKeyboard, macOS and Klavaro files
-/

namespace Lulua.Props
open Lulua Spec

/-! ### Keyman -/

/-- **C83**: for each layer and each of its modifiers there is one rule per entry of the layer, and a complaint if and only
if the modifier is not one of Keyman's. A layer without modifiers gets no rules. -/
theorem C83_rules (order : FSet → List Button) (ho : ∀ m, (order m).Perm m) (L : KeyboardLayout) (kb : PhysicalKeyboard)
    (hnd : (kb.keys.map Btn.i).Nodup) (out : List (List (Bool × List KeymanRule))) (h : keyman order L kb = .ok out) :
    List.Forall₂ (fun (l : Layer) rs => List.Forall₂ (fun m (r : Bool × List KeymanRule) =>
      (r.1 = true ↔ ∃ b ∈ m, ∃ c, HasCode "keyman" kb b (.str c) ∧ CustomModifier c) ∧
        List.Forall₂ (IsRule kb m) l.layout r.2) l.modifier rs) L.layers out := by
  refine ((mapM_ok_iff _ _ _).1 h).imp fun l rs h1 => ?_
  refine ((mapM_ok_iff _ _ _).1 h1).imp fun m r h2 => ?_
  exact keymanModifier_ok ho hnd h2

/-- **C83**: when it works, for layouts without empty layers. -/
theorem C83_works (order : FSet → List Button) (ho : ∀ m, (order m).Perm m) (L : KeyboardLayout) (kb : PhysicalKeyboard)
    (hnd : (kb.keys.map Btn.i).Nodup) (hne : ∀ l ∈ L.layers, l.layout ≠ []) :
    (∃ out, keyman order L kb = .ok out) ↔ ∀ l ∈ L.layers, ∀ m ∈ l.modifier,
      (∀ b ∈ m, ∃ c, HasCode "keyman" kb b (.str c)) ∧
      ∀ e ∈ l.layout, (∃ c, HasCode "keyman" kb e.1 (.str c)) ∧ ∃ t, e.2 = .str t := by
  unfold keyman
  rw [mapM_exists_iff]
  refine forall_congr' fun l => forall_congr' fun hl => ?_
  rw [mapM_exists_iff]
  refine forall_congr' fun m => forall_congr' fun hm => ?_
  constructor
  · rintro ⟨p, h⟩
    obtain ⟨_, h1⟩ := keymanModifier_ok ho hnd h
    have h2 : ∀ e ∈ l.layout, ∃ r, IsRule kb m e r := by
      intro e he
      obtain ⟨r, _, hr⟩ := forall₂_left_mem h1 he
      exact ⟨r, hr⟩
    refine ⟨?_, ?_⟩
    · obtain ⟨e, he⟩ := List.exists_mem_of_ne_nil _ (hne l hl)
      obtain ⟨r, ⟨bs, cs, c, h3, h4, _⟩, _⟩ := h2 e he
      intro b hb
      obtain ⟨c, _, hc⟩ := forall₂_left_mem h4 (h3.symm.subset hb)
      exact ⟨c, hc⟩
    · intro e he
      obtain ⟨r, ⟨_, _, c, _, _, h5, _⟩, t, h6, _⟩ := h2 e he
      exact ⟨⟨c, h5⟩, t, h6⟩
  · rintro ⟨h1, h2⟩
    have h3 : ∀ b ∈ order m, ∃ o, kb.object b = .ok o := by
      intro b hb
      obtain ⟨c, h⟩ := h1 b ((ho m).subset hb)
      obtain ⟨o, h, _⟩ := (object_code hnd).2 h
      exact ⟨o, h⟩
    obtain ⟨bs, hbs⟩ := (mapM_exists_iff _ _).2 h3
    have hbs' := (mapM_ok_iff _ _ _).1 hbs
    have h4 : ∀ o ∈ bs, ∃ c, codeOf "keyman" o = some (.str c) := by
      intro o ho'
      obtain ⟨b, hb, h5⟩ := forall₂_right_mem hbs' ho'
      obtain ⟨c, h⟩ := h1 b ((ho m).subset hb)
      obtain ⟨o', h6, h7⟩ := (object_code hnd).2 h
      rw [h5] at h6
      cases h6
      exact ⟨c, scancodeAt_ok.1 h7⟩
    obtain ⟨w, hw⟩ := keymanCheck_exists h4
    have h5 : ∀ e ∈ l.layout, ∃ r, keymanRule kb bs e = .ok r := by
      intro e he
      obtain ⟨⟨c, h6⟩, t, h7⟩ := h2 e he
      obtain ⟨o, h8, h9⟩ := (object_code hnd).2 h6
      have h10 : ∀ x ∈ bs ++ [o], ∃ c, x.scancodeAt "keyman" = .ok (.str c) := by
        intro x hx
        rcases List.mem_append.1 hx with hx | hx
        · obtain ⟨c, h⟩ := h4 x hx
          exact ⟨c, scancodeAt_ok.2 h⟩
        · rw [List.mem_singleton.1 hx]
          exact ⟨c, h9⟩
      obtain ⟨codes, h11⟩ := (mapM_exists_iff (fun x : Btn => x.scancodeAt "keyman") (bs ++ [o])).2
        fun x hx => by obtain ⟨c, h⟩ := h10 x hx; exact ⟨_, h⟩
      obtain ⟨comb, h12⟩ := (mapM_exists_iff joinable codes).2 fun v hv => by
        obtain ⟨x, hx, h⟩ := forall₂_right_mem ((mapM_ok_iff _ _ _).1 h11) hv
        obtain ⟨c, h'⟩ := h10 x hx
        rw [h] at h'
        cases h'
        exact ⟨c, rfl⟩
      refine ⟨⟨comb, t.map fun c => 'U' :: '+' :: hex4 c.toNat⟩, ?_⟩
      simp only [keymanRule, bind_ok_iff, Except.ok.injEq]
      exact ⟨o, h8, codes, h11, comb, h12, _, keymanText_ok.2 ⟨t, h7, rfl⟩, rfl⟩
    obtain ⟨rules, hr⟩ := (mapM_exists_iff _ _).2 h5
    refine ⟨(w, rules), ?_⟩
    simp only [keymanModifier, bind_ok_iff, Except.ok.injEq]
    exact ⟨bs, hbs, w, hw, rules, hr, rfl⟩

/-- Codes of the buttons of a set. -/
def keyCodesOf (kb : PhysicalKeyboard) (m : FSet) (c : String) : Prop := ∃ b ∈ m, HasCode "keyman" kb b (.str c)

/-- **C83**: rules never contradict each other if, within a layer, buttons with the same code have the same text and modifiers
of different layers have different codes. -/
theorem C83_consistent (order : FSet → List Button) (ho : ∀ m, (order m).Perm m) (L : KeyboardLayout) (kb : PhysicalKeyboard)
    (hnd : (kb.keys.map Btn.i).Nodup)
    (h1 : ∀ l ∈ L.layers, ∀ e ∈ l.layout, ∀ e' ∈ l.layout, ∀ c, HasCode "keyman" kb e.1 (.str c) → HasCode "keyman" kb e'.1 (.str c) →
      e.2 = e'.2)
    (h2 : ∀ (i j : Nat) (l l' : Layer) (m m' : FSet), L.layers[i]? = some l → L.layers[j]? = some l' → m ∈ l.modifier → m' ∈ l'.modifier →
      (∀ c, keyCodesOf kb m c ↔ keyCodesOf kb m' c) → i = j)
    (out : List (List (Bool × List KeymanRule))) (h : keyman order L kb = .ok out) :
    ∀ rs ∈ out, ∀ p ∈ rs, ∀ r ∈ p.2, ∀ rs' ∈ out, ∀ p' ∈ rs', ∀ r' ∈ p'.2, SameInput r r' → r.text = r'.text := by
  have key : ∀ rs ∈ out, ∀ p ∈ rs, ∀ r ∈ p.2, ∃ (i : Nat) (l : Layer) (m : FSet) (e : Button × LVal), L.layers[i]? = some l ∧ m ∈ l.modifier ∧ e ∈ l.layout ∧
      (∃ c, r.codes.getLast? = some c ∧ HasCode "keyman" kb e.1 (.str c)) ∧ (∀ c, c ∈ r.codes.dropLast ↔ keyCodesOf kb m c) ∧
      keymanText e.2 = .ok r.text := by
    intro rs hrs p hp r hr
    obtain ⟨l, hl, h3⟩ := forall₂_right_mem ((mapM_ok_iff _ _ _).1 h) hrs
    obtain ⟨m, hm, h4⟩ := forall₂_right_mem ((mapM_ok_iff _ _ _).1 h3) hp
    obtain ⟨e, he, ⟨⟨bs, cs, c, h5, h6, h7, h8⟩, _⟩, h9⟩ := keymanModifier_rule ho h4 r hr
    obtain ⟨i, hi⟩ := List.mem_iff_getElem?.1 hl
    refine ⟨i, l, m, e, hi, hm, he, ⟨c, by rw [h8]; simp, h7⟩, ?_, h9⟩
    intro c'
    rw [h8, List.dropLast_concat]
    constructor
    · intro hc
      obtain ⟨b, hb, h10⟩ := forall₂_right_mem h6 hc
      exact ⟨b, h5.subset hb, h10⟩
    · rintro ⟨b, hb, h10⟩
      obtain ⟨c'', hc, h11⟩ := forall₂_left_mem h6 (h5.symm.subset hb)
      cases hasCode_unique hnd h10 h11
      exact hc
  intro rs hrs p hp r hr rs' hrs' p' hp' r' hr' ⟨hs1, hs2⟩
  obtain ⟨i, l, m, e, a1, a2, a3, ⟨c, a4, a5⟩, a6, a7⟩ := key rs hrs p hp r hr
  obtain ⟨j, l', m', e', b1, b2, b3, ⟨c', b4, b5⟩, b6, b7⟩ := key rs' hrs' p' hp' r' hr'
  have hij := h2 i j l l' m m' a1 b1 a2 b2 fun c => by rw [← a6, ← b6, hs2]
  subst hij
  rw [a1] at b1
  cases b1
  rw [a4, b4] at hs1
  cases hs1
  rw [h1 l (List.mem_of_getElem? a1) e a3 e' b3 c a5 b5, b7] at a7
  exact Except.ok.inj a7.symm

/-- The two shift buttons share a code, so do the two space buttons. -/
def keymanClass (b : Button) : Nat := if b = 53 then 41 else if b = 58 then 57 else b

/-- What the shipped layouts need for Keyman, as a computation. -/
def keymanFine (x : InternTable × PhysicalKeyboard × KeyboardLayout) : Bool :=
  x.2.2.layers.all (fun l => l.layout ≠ [] ∧
    l.layout.all (fun e => x.2.1.keys.any (·.i = e.1) && (match e.2 with | .str _ => true | .other _ => false) &&
      l.layout.all fun e' => keymanClass e.1 = keymanClass e'.1 → e.2 = e'.2) ∧
    l.modifier.all fun m => m.all fun b => x.2.1.keys.any (·.i = b)) &&
  (x.2.2.layers.zipIdx.all fun p => x.2.2.layers.zipIdx.all fun p' => p.2 = p'.2 ∨
    p.1.modifier.all fun m => p'.1.modifier.all fun m' =>
      (m.any fun b => m'.all fun b' => keymanClass b ≠ keymanClass b') || m'.any fun b => m.all fun b' => keymanClass b ≠ keymanClass b')

def keymanBoard (kb : PhysicalKeyboard) : Bool :=
  decide (kb.keys.map Btn.i).Nodup && kb.keys.all fun a =>
    (match codeOf "keyman" a with | some (.str _) => true | _ => false) &&
    kb.keys.all fun b => codeOf "keyman" a = codeOf "keyman" b → keymanClass a.i = keymanClass b.i

def keymanShipped (d : LayoutData) : Bool :=
  match loadFirst d with
  | .ok x => keymanBoard x.2.1 && keymanFine x
  | .error _ => false

theorem keymanShipped_all : ∀ d ∈ Data.layouts, keymanShipped d = true := by decide +kernel

/-- **C83**: all shipped layouts can be written, and the rules do not contradict each other. -/
theorem C83_shipped (order : FSet → List Button) (ho : ∀ m, (order m).Perm m) : ∀ d ∈ Data.layouts,
    ∃ t kb L out, loadFirst d = .ok (t, kb, L) ∧ keyman order L kb = .ok out ∧
      ∀ rs ∈ out, ∀ p ∈ rs, ∀ r ∈ p.2, ∀ rs' ∈ out, ∀ p' ∈ rs', ∀ r' ∈ p'.2, SameInput r r' → r.text = r'.text := by
  intro d hd
  have h := keymanShipped_all d hd
  unfold keymanShipped at h
  cases hx : loadFirst d with
  | error e => rw [hx] at h; cases h
  | ok x =>
    obtain ⟨t, kb, L⟩ := x
    rw [hx] at h
    simp only [Bool.and_eq_true, keymanBoard, keymanFine, decide_eq_true_eq, List.all_eq_true, Bool.or_eq_true, List.any_eq_true] at h
    obtain ⟨⟨hnd, hcode⟩, hl, hm⟩ := h
    have hstr : ∀ o ∈ kb.keys, ∃ c, HasCode "keyman" kb o.i (.str c) := by
      intro o ho
      have h1 := (hcode o ho).1
      split at h1
      · rename_i c hc
        exact ⟨c, o, ho, rfl, hc⟩
      · cases h1
    have hclass : ∀ {b b' : Button} {c : String}, HasCode "keyman" kb b (.str c) → HasCode "keyman" kb b' (.str c) →
        keymanClass b = keymanClass b' := by
      rintro _ _ c ⟨o, h1, rfl, h2⟩ ⟨o', h3, rfl, h4⟩
      exact (hcode o h1).2 o' h3 (by rw [h2, h4])
    have hmod : ∀ l ∈ L.layers, ∀ m ∈ l.modifier, ∀ b ∈ m, ∃ c, HasCode "keyman" kb b (.str c) := by
      intro l hl' m hm b hb
      obtain ⟨o, h1, h2⟩ := (hl l hl').2.2 m hm b hb
      rw [← h2]
      exact hstr o h1
    obtain ⟨out, hout⟩ := (C83_works order ho L kb hnd fun l hl' => (hl l hl').1).2 fun l hl' m hm => by
      refine ⟨hmod l hl' m hm, fun e he => ?_⟩
      obtain ⟨⟨⟨o, h1, h2⟩, h3⟩, _⟩ := (hl l hl').2.1 e he
      refine ⟨?_, ?_⟩
      · rw [← h2]
        exact hstr o h1
      · split at h3
        · rename_i t ht
          exact ⟨t, ht⟩
        · cases h3
    refine ⟨t, kb, L, out, rfl, hout, C83_consistent order ho L kb hnd ?_ ?_ out hout⟩
    · intro l hl' e he e' he' c h1 h2
      exact ((hl l hl').2.1 e he).2 e' he' (hclass h1 h2)
    · intro i j l l' m m' hi hj h1 h2 h3
      rcases hm (l, i) (List.mem_zipIdx_iff_getElem?.2 hi) (l', j) (List.mem_zipIdx_iff_getElem?.2 hj) with h4 | h4
      · exact h4
      · exfalso
        rcases h4 m h1 m' h2 with ⟨b, hb, h5⟩ | ⟨b, hb, h5⟩
        · obtain ⟨c, hc⟩ := hmod l (List.mem_of_getElem? hi) m h1 b hb
          obtain ⟨b', hb', h6⟩ := (h3 c).1 ⟨b, hb, hc⟩
          exact h5 b' hb' (hclass hc h6)
        · obtain ⟨c, hc⟩ := hmod l' (List.mem_of_getElem? hj) m' h2 b hb
          obtain ⟨b', hb', h6⟩ := (h3 c).2 ⟨b, hb, hc⟩
          exact h5 b' hb' (hclass hc h6)

/-- Two letters, two shifts with one code and a modifier unknown to Keyman. -/
def keymanBtn (i : Nat) (code : String) : Btn := ⟨i, .letter, 1, false, some [("keyman", .str code), ("macos", .num i)], none⟩

def keymanKb : PhysicalKeyboard :=
  PhysicalKeyboard.mk' "" "" [([keymanBtn 0 "K_A", keymanBtn 1 "K_B"], [keymanBtn 2 "SHIFT"]),
    ([keymanBtn 3 "SHIFT"], [keymanBtn 4 "RALT", keymanBtn 5 "CAPS"])]

def keymanLayers : List Layer :=
  [⟨[[]], [(0, .str ['a']), (1, .str ['x', '𝄞'])]⟩, ⟨[[2], [3]], [(0, .str ['A'])]⟩, ⟨[[2, 4], [5]], [(1, .str ['\u0634'])]⟩]

example : keyman id (KeyboardLayout.mk' "" keymanLayers keymanKb) keymanKb = .ok [
      [(false, [⟨["K_A"], ["U+0061".toList]⟩, ⟨["K_B"], ["U+0078".toList, "U+1D11E".toList]⟩])],
      [(false, [⟨["SHIFT", "K_A"], ["U+0041".toList]⟩]), (false, [⟨["SHIFT", "K_A"], ["U+0041".toList]⟩])],
      [(false, [⟨["SHIFT", "RALT", "K_B"], ["U+0634".toList]⟩]), (true, [⟨["CAPS", "K_B"], ["U+0634".toList]⟩])]] ∧
    (keymanKb.keys.map Btn.i).Nodup := by decide +kernel

/-! ### macOS -/

/-- **C84**: one map per layer and one key per entry of it. -/
theorem C84_maps (name : Option String) (L : KeyboardLayout) (kb : PhysicalKeyboard) (out : List (List (ScVal × Text)))
    (h : keylayout name L kb = .ok out) :
    List.Forall₂ (fun (l : Layer) ks => List.Forall₂ (fun (e : Button × LVal) (k : ScVal × Text) =>
      HasCode "macos" kb e.1 k.1 ∧ e.2 = .str k.2) l.layout ks) L.layers out := by
  simp only [keylayout, bind_ok_iff] at h
  obtain ⟨maps, h1, h2⟩ := h
  cases name with
  | none => cases h2
  | some n =>
    simp only at h2
    refine (forall₂_comp ((mapM_ok_iff _ _ _).1 h1) ((mapM_ok_iff _ _ _).1 h2)).imp ?_
    rintro l ks ⟨es, h3, h4⟩
    refine (forall₂_comp ((mapM_ok_iff _ _ _).1 h3) ((mapM_ok_iff _ _ _).1 h4)).imp ?_
    rintro e k ⟨x, h5, h6⟩
    simp only [macKey, bind_ok_iff, Except.ok.injEq] at h5
    obtain ⟨o, h7, c, h8, rfl⟩ := h5
    obtain ⟨h9, h10⟩ := object_ok h7
    cases hv : e.2 with
    | str t =>
      rw [hv] at h6
      cases h6
      exact ⟨⟨o, h10, h9, scancodeAt_ok.1 h8⟩, rfl⟩
    | other n => rw [hv] at h6; cases h6

/-- **C84**: when it works. -/
theorem C84_partial (name : Option String) (L : KeyboardLayout) (kb : PhysicalKeyboard) (hnd : (kb.keys.map Btn.i).Nodup) :
    (∃ out, keylayout name L kb = .ok out) ↔ name ≠ none ∧
      ∀ l ∈ L.layers, ∀ e ∈ l.layout, (∃ v, HasCode "macos" kb e.1 v) ∧ ∃ t, e.2 = .str t := by
  constructor
  · rintro ⟨out, h⟩
    refine ⟨?_, ?_⟩
    · rintro rfl
      simp only [keylayout, bind_ok_iff] at h
      obtain ⟨_, _, h⟩ := h
      cases h
    · intro l hl e he
      obtain ⟨ks, _, h1⟩ := forall₂_left_mem (C84_maps name L kb out h) hl
      obtain ⟨k, _, h2, h3⟩ := forall₂_left_mem h1 he
      exact ⟨⟨_, h2⟩, _, h3⟩
  · rintro ⟨hn, h⟩
    obtain ⟨n, rfl⟩ := Option.ne_none_iff_exists'.1 hn
    have h1 : ∀ l ∈ L.layers, ∃ m, l.layout.mapM (macKey kb) = .ok m := by
      intro l hl
      rw [mapM_exists_iff]
      intro e he
      obtain ⟨⟨v, h2⟩, _⟩ := h l hl e he
      obtain ⟨o, h3, h4⟩ := (object_code hnd).2 h2
      refine ⟨(v, e.2), ?_⟩
      simp only [macKey, bind_ok_iff, Except.ok.injEq]
      exact ⟨o, h3, v, h4, rfl⟩
    obtain ⟨maps, h2⟩ := (mapM_exists_iff _ _).2 h1
    have h3 : ∀ m ∈ maps, ∃ ks, m.mapM (fun e : ScVal × LVal => (xmlAttrib e.2).map fun t => (e.1, t)) = .ok ks := by
      intro m hm
      obtain ⟨l, hl, h4⟩ := forall₂_right_mem ((mapM_ok_iff _ _ _).1 h2) hm
      rw [mapM_exists_iff]
      intro x hx
      obtain ⟨e, he, h5⟩ := forall₂_right_mem ((mapM_ok_iff _ _ _).1 h4) hx
      simp only [macKey, bind_ok_iff, Except.ok.injEq] at h5
      obtain ⟨_, _, c, _, rfl⟩ := h5
      obtain ⟨_, t, h6⟩ := h l hl e he
      exact ⟨(c, t), by rw [h6]; rfl⟩
    obtain ⟨out, h4⟩ := (mapM_exists_iff _ _).2 h3
    refine ⟨out, ?_⟩
    simp only [keylayout, bind_ok_iff]
    exact ⟨maps, h2, h4⟩

example : keylayout (some "") (KeyboardLayout.mk' "" keymanLayers keymanKb) keymanKb = .ok
    [[(.num 0, ['a']), (.num 1, ['x', '𝄞'])], [(.num 0, ['A'])], [(.num 1, ['\u0634'])]] := by decide +kernel

/-- What happens for a shipped layout; the name of the empty one is no text. -/
def keylayoutShipped (d : LayoutData) : Py (List (List (ScVal × Text))) :=
  (loadFirst d).bind fun x => keylayout (if d.name = "None" then none else some d.name) x.2.2 x.2.1

def keylayoutError (d : LayoutData) : Option PyErr :=
  match keylayoutShipped d with
  | .ok _ => none
  | .error e => some e

/-- **C84** is false: of the shipped layouts only four can be written. The others use a button that has no code. -/
theorem C84_false : ∀ d ∈ Data.layouts, (∃ out, keylayoutShipped d = .ok out) ↔
    d.name ∈ ["ar-khorshid", "ar-lulua", "ar-osman", "ar-qtaish"] := by
  have h : ∀ d ∈ Data.layouts, keylayoutError d = none ↔ d.name ∈ ["ar-khorshid", "ar-lulua", "ar-osman", "ar-qtaish"] := by
    decide +kernel
  intro d hd
  rw [← h d hd]
  unfold keylayoutError
  cases keylayoutShipped d with
  | ok l => simp
  | error e => simp

/-! ### AnySoftKeyboard -/

theorem inRow_unique {kname description : String} {rows : List (Row Btn)}
    (hnd : ((PhysicalKeyboard.mk' kname description rows).keys.map Btn.i).Nodup) {i j : Nat} (hi : i < rows.length)
    (hj : j < rows.length) {b : Button} (h : InRow rows[i] b) (h' : InRow rows[j] b) : i = j := by
  obtain ⟨x, hx, rfl⟩ := h
  obtain ⟨y, hy, he⟩ := h'
  rw [← List.mem_append] at hx hy
  have h1 : ((PhysicalKeyboard.mk' kname description rows).keys.map Btn.i) = rows.flatMap fun r => (r.1 ++ r.2).map Btn.i := by
    rw [PhysicalKeyboard.keys, List.map_flatMap]
    rfl
  rw [h1, List.nodup_flatMap, List.pairwise_iff_getElem] at hnd
  rcases Nat.lt_trichotomy i j with hlt | rfl | hlt
  · exact absurd (List.mem_map.2 ⟨y, hy, he⟩) (hnd.2 i j hi hj hlt (List.mem_map.2 ⟨x, hx, rfl⟩))
  · rfl
  · exact absurd (List.mem_map.2 ⟨x, hx, rfl⟩) (hnd.2 j i hj hi hlt (List.mem_map.2 ⟨y, hy, he⟩))

/-- What is left of a row. -/
def typing (L : KeyboardLayout) (r : Row Btn) : List Btn :=
  (r.1 ++ r.2).filter fun x => x.kind = .letter ∧ L.isModifier (frozenset [x.i]) = false

theorem mem_typing {name : String} {layers : List Layer} {kb : PhysicalKeyboard} {r : Row Btn} {b : Btn} :
    b ∈ typing (KeyboardLayout.mk' name layers kb) r ↔ b ∈ r.1 ++ r.2 ∧ b.kind = .letter ∧ NoModifier layers b.i := by
  unfold typing
  rw [List.mem_filter, decide_eq_true_eq, isModifier_noModifier]

theorem askRow_cases {nfc : Text → Text} {kname description : String} {L : KeyboardLayout} {rows : List (Row Btn)}
    (hnd : ((PhysicalKeyboard.mk' kname description rows).keys.map Btn.i).Nodup) {i : Nat} {r : Row Btn} (hr : rows[i]? = some r) :
    askRow nfc L (PhysicalKeyboard.mk' kname description rows) r =
      if typing L r = [] ∨ i + 1 = rows.length then .ok none
      else ((typing L r).mapM (askKey nfc L)).bind fun keys => .ok (some ⟨100 / (typing L r).length, i = 0, keys⟩) := by
  unfold askRow
  rw [show ((r.1 ++ r.2).filter fun x => x.kind = .letter ∧ L.isModifier (frozenset [x.i]) = false) = typing L r from rfl]
  obtain ⟨hi, hri⟩ := List.getElem?_eq_some_iff.1 hr
  cases ht : typing L r with
  | nil => rw [if_pos (.inl rfl)]
  | cons b bs =>
    have hb : b ∈ r.1 ++ r.2 := (List.filter_sublist (p := fun x : Btn => x.kind = .letter ∧ L.isModifier (frozenset [x.i]) = false)).subset
      (show b ∈ typing L r by rw [ht]; exact List.mem_cons_self)
    have hin : InRow rows[i] b.i := by rw [hri]; exact ⟨b, List.mem_append.1 hb, rfl⟩
    have hrow := C12_getRow_unique kname description rows b.i i hi hin fun j hj h => inRow_unique hnd hj hi h hin
    simp only [hrow]
    have hlen : (PhysicalKeyboard.mk' kname description rows).rows.length = rows.length := rfl
    by_cases he : i + 1 = rows.length
    · rw [if_pos (.inr he)]
      simp only [bind, Except.bind, hlen]
      rw [if_pos he]
    · rw [if_neg (by simp [he])]
      simp only [bind, Except.bind, hlen]
      rw [if_neg he]

/-- **C86**: apart from the bottom row, the rows are those of the keyboard without the last one and without rows that have no typing buttons. -/
theorem C86_partial (nfc : Text → Text) (name kname description : String) (layers : List Layer) (rows : List (Row Btn))
    (hnd : ((PhysicalKeyboard.mk' kname description rows).keys.map Btn.i).Nodup) (out : List AskRow) (bottom : List (Dict String String))
    (h : ask nfc (KeyboardLayout.mk' name layers (PhysicalKeyboard.mk' kname description rows))
      (PhysicalKeyboard.mk' kname description rows) = .ok (out, bottom)) :
    ∃ is : List Nat, is.Pairwise (· < ·) ∧ List.Forall₂ (IsAskRow nfc layers rows) is out ∧
      ∀ i, i ∈ is ↔ i + 1 < rows.length ∧ ∃ r, rows[i]? = some r ∧ ∃ b ∈ r.1 ++ r.2, b.kind = .letter ∧ NoModifier layers b.i := by
  simp only [ask, bind_ok_iff, Except.ok.injEq, Prod.mk.injEq] at h
  obtain ⟨as, h1, rfl, _⟩ := h
  have h2 := forall₂_range ((mapM_ok_iff _ _ _).1 h1)
  obtain ⟨is, h3, h4, h5⟩ := filterMap_id_forall₂ h2
  have key : ∀ i a, (∃ x, rows[i]? = some x ∧ askRow nfc (KeyboardLayout.mk' name layers (PhysicalKeyboard.mk' kname description rows))
      (PhysicalKeyboard.mk' kname description rows) x = .ok (some a)) → i + 1 < rows.length ∧ IsAskRow nfc layers rows i a := by
    rintro i a ⟨r, hr, h6⟩
    obtain ⟨hi, _⟩ := List.getElem?_eq_some_iff.1 hr
    rw [askRow_cases hnd hr] at h6
    split at h6
    · cases h6
    · rename_i hc
      rw [not_or] at hc
      rw [show ∀ (x : Py (List AskKey)) f, x.bind f = (x >>= f : Py (Option AskRow)) from fun _ _ => rfl] at h6
      simp only [bind_ok_iff, Except.ok.injEq, Option.some.injEq] at h6
      obtain ⟨keys, h7, rfl⟩ := h6
      have h8 := (mapM_ok_iff _ _ _).1 h7
      refine ⟨by omega, ⟨r, _, hr, ⟨List.filter_sublist, ?_⟩, hc.1, h8.imp fun _ _ h => askKey_ok h⟩, ?_, ?_⟩
      · intro b hb
        rw [show b ∈ List.filter _ (r.1 ++ r.2) ↔ _ from mem_typing]
        exact ⟨fun h => h.2, fun h => ⟨hb, h⟩⟩
      · rw [h8.length_eq]
        have : (keys.length : ℚ) ≠ 0 := by
          rw [← h8.length_eq]
          simpa using hc.1
        field_simp
      · simp
  refine ⟨is, List.pairwise_lt_range.sublist h3, h4.imp fun i a h => (key i a h).2, ?_⟩
  intro i
  constructor
  · intro hi
    obtain ⟨a, _, h6⟩ := forall₂_left_mem h4 hi
    obtain ⟨h7, ⟨⟨r, bs, h8, ⟨h9, h10⟩, h11, _⟩, _, _⟩⟩ := key i a h6
    obtain ⟨b, hb⟩ := List.exists_mem_of_ne_nil _ h11
    exact ⟨h7, r, h8, b, h9.subset hb, (h10 b (h9.subset hb)).1 hb⟩
  · rintro ⟨h6, r, hr, b, hb, h7⟩
    rcases h5 i (List.mem_range.2 (show i < rows.length by omega)) with h8 | ⟨r', hr', h8⟩
    · exact h8
    · have hr'' : rows[i]? = some r' := hr'
      rw [hr] at hr''
      cases hr''
      rw [askRow_cases hnd hr, if_neg] at h8
      · rw [show ∀ (x : Py (List AskKey)) f, x.bind f = (x >>= f : Py (Option AskRow)) from fun _ _ => rfl] at h8
        simp [bind_ok_iff] at h8
      · rintro (h9 | h9)
        · have h10 := (mem_typing (name := name) (kb := PhysicalKeyboard.mk' kname description rows)).2 ⟨hb, h7⟩
          rw [h9] at h10
          cases h10
        · omega

/-- **C86**: when it works. -/
theorem C86_works (nfc : Text → Text) (name kname description : String) (layers : List Layer) (rows : List (Row Btn))
    (hnd : ((PhysicalKeyboard.mk' kname description rows).keys.map Btn.i).Nodup) :
    (∃ out, ask nfc (KeyboardLayout.mk' name layers (PhysicalKeyboard.mk' kname description rows))
      (PhysicalKeyboard.mk' kname description rows) = .ok out) ↔
      ∀ i r, rows[i]? = some r → i + 1 < rows.length → ∀ b ∈ r.1 ++ r.2, b.kind = .letter → NoModifier layers b.i →
        layers ≠ [] ∧ ∀ l ∈ layers, Composable (l.layout.get? b.i) := by
  have h0 : (∃ out, ask nfc (KeyboardLayout.mk' name layers (PhysicalKeyboard.mk' kname description rows))
      (PhysicalKeyboard.mk' kname description rows) = .ok out) ↔ ∃ as, rows.mapM (askRow nfc
        (KeyboardLayout.mk' name layers (PhysicalKeyboard.mk' kname description rows)) (PhysicalKeyboard.mk' kname description rows)) = .ok as := by
    simp only [ask, bind_ok_iff, Except.ok.injEq]
    exact ⟨fun ⟨_, as, h, _⟩ => ⟨as, h⟩, fun ⟨as, h⟩ => ⟨_, as, h, rfl⟩⟩
  rw [h0, mapM_exists_iff]
  have h1 : ∀ i r, rows[i]? = some r → ((∃ a, askRow nfc (KeyboardLayout.mk' name layers (PhysicalKeyboard.mk' kname description rows))
      (PhysicalKeyboard.mk' kname description rows) r = .ok a) ↔ (i + 1 < rows.length → ∀ b ∈ r.1 ++ r.2, b.kind = .letter →
        NoModifier layers b.i → layers ≠ [] ∧ ∀ l ∈ layers, Composable (l.layout.get? b.i))) := by
    intro i r hr
    obtain ⟨hi, _⟩ := List.getElem?_eq_some_iff.1 hr
    rw [askRow_cases hnd hr]
    split
    · rename_i hc
      refine ⟨fun _ h2 b hb h3 h4 => ?_, fun _ => ⟨_, rfl⟩⟩
      rcases hc with hc | hc
      · have h10 := (mem_typing (name := name) (kb := PhysicalKeyboard.mk' kname description rows)).2 ⟨hb, h3, h4⟩
        rw [hc] at h10
        cases h10
      · omega
    · rename_i hc
      rw [not_or] at hc
      have h2 : ∀ (x : Py (List AskKey)) (f : List AskKey → Option AskRow), (∃ a, (x.bind fun k => .ok (f k)) = .ok a) ↔ ∃ k, x = .ok k := by
        intro x f
        cases x <;> simp [Except.bind]
      rw [h2, mapM_exists_iff]
      constructor
      · intro h3 _ b hb h4 h5
        exact askKey_exists.1 (h3 b (mem_typing.2 ⟨hb, h4, h5⟩))
      · intro h3 b hb
        obtain ⟨h4, h5, h6⟩ := mem_typing.1 hb
        exact askKey_exists.2 (h3 (by omega) b h4 h5 h6)
  constructor
  · intro h i r hr
    exact (h1 i r hr).1 (h r (List.mem_of_getElem? hr))
  · intro h r hr
    obtain ⟨i, hi⟩ := List.mem_iff_getElem?.1 hr
    exact (h1 i r hi).2 (h i r hi)

/-- **C86** is false: none of the keys of the bottom row does anything or has a width. -/
theorem C86_false (nfc : Text → Text) (L : KeyboardLayout) (kb : PhysicalKeyboard) (out : List AskRow)
    (bottom : List (Dict String String)) (h : ask nfc L kb = .ok (out, bottom)) :
    bottom.length = 3 ∧ ∀ k ∈ bottom, ∀ a, k.get? a = none := by
  simp only [ask, bind_ok_iff, Except.ok.injEq, Prod.mk.injEq] at h
  obtain ⟨_, _, _, rfl⟩ := h
  refine ⟨rfl, ?_⟩
  intro k hk a
  simp only [askBottomRow, askBottomAttribs, List.map_cons, List.map_nil, List.mem_cons, List.not_mem_nil, or_false, or_self] at hk
  rw [hk]
  rfl

/-- Two rows and a bottom row; button 2 is a modifier. -/
def askKb : PhysicalKeyboard :=
  PhysicalKeyboard.mk' "" "" [([keymanBtn 0 "", keymanBtn 1 ""], []), ([keymanBtn 2 ""], [keymanBtn 3 ""]), ([], [keymanBtn 4 ""])]

def askLayers : List Layer :=
  [⟨[[]], [(0, .str ['a']), (3, .str ['x', 'y'])]⟩, ⟨[[2]], [(0, .str ['A']), (1, .other 0)]⟩, ⟨[[4]], [(0, .str ['b'])]⟩,
    ⟨[[2, 4]], [(0, .str ['c'])]⟩]

example : ask id (KeyboardLayout.mk' "" askLayers askKb) askKb = .ok ([
      ⟨50, true, [⟨[97], ['a'], ['A', 'b', 'c'], ['A', 'b']⟩, ⟨[], [], [], []⟩]⟩, ⟨100, false, [⟨[120, 121], ['x', 'y'], [], []⟩]⟩],
      [[], [], []]) ∧ (askKb.keys.map Btn.i).Nodup := by decide +kernel

/-! ### Klavaro -/

/-- The text written for a button. -/
def Written (nfc : Text → Text) (layers : List Layer) (i : Nat) (b : Btn) (t : Text) : Prop :=
  ∃ u, IsCell nfc layers i b u ∧ t = if u = [] then [' '] else u

theorem klavaroButton_ok {nfc : Text → Text} {L : KeyboardLayout} {b : Btn} {p : Text × Text} (h : klavaroButton nfc L b = .ok p) :
    Written nfc L.layers 0 b p.1 ∧ Written nfc L.layers 1 b p.2 := by
  simp only [klavaroButton, bind_ok_iff] at h
  obtain ⟨ts, h1, h2⟩ := h
  rw [texts_ok] at h1
  match ts, h1, h2 with
  | t :: u :: _, h1, h2 =>
    cases h2
    match hl : L.layers, h1 with
    | l :: m :: _, .cons h3 (.cons h4 _) => exact ⟨⟨t, ⟨l, rfl, h3⟩, rfl⟩, u, ⟨m, rfl, h4⟩, rfl⟩

theorem klavaroButton_exists {nfc : Text → Text} {L : KeyboardLayout} {b : Btn} :
    (∃ p, klavaroButton nfc L b = .ok p) ↔ 2 ≤ L.layers.length ∧ ∀ l ∈ L.layers, Composable (l.layout.get? b.i) := by
  rw [← texts_exists (nfc := nfc)]
  simp only [klavaroButton, bind_ok_iff]
  constructor
  · rintro ⟨p, ts, h1, h2⟩
    refine ⟨?_, ts, h1⟩
    rw [(texts_ok.1 h1).length_eq]
    match ts, h2 with
    | t :: u :: _, _ => simp
  · rintro ⟨hn, ts, h1⟩
    rw [(texts_ok.1 h1).length_eq] at hn
    match ts, hn, h1 with
    | t :: u :: _, _, h1 => exact ⟨_, _, h1, rfl⟩

theorem forall₂_fst {α β γ : Type} {R : α → β → Prop} {S : α → γ → Prop} {l : List α} {ps : List (β × γ)}
    (h : List.Forall₂ (fun a p => R a p.1 ∧ S a p.2) l ps) :
    List.Forall₂ R l (ps.map Prod.fst) ∧ List.Forall₂ S l (ps.map Prod.snd) := by
  induction h with
  | nil => exact ⟨.nil, .nil⟩
  | cons h1 _ ih => exact ⟨.cons h1.1 ih.1, .cons h1.2 ih.2⟩

theorem klavaro_rows {nfc : Text → Text} {L : KeyboardLayout} {rows : List (Row Btn)} {ps : List (Text × Text)}
    (h : List.Forall₂ (fun r p => klavaroRow nfc L r = .ok p) rows ps) :
    ∃ f s : List (List Text), List.Forall₂ (List.Forall₂ (Written nfc L.layers 0)) (typingRows rows) f ∧
      List.Forall₂ (List.Forall₂ (Written nfc L.layers 1)) (typingRows rows) s ∧
      (ps.map Prod.fst).flatten = (f.map List.flatten).flatMap (· ++ ['\n']) ∧
      (ps.map Prod.snd).flatten = (s.map List.flatten).flatMap (· ++ ['\n']) := by
  induction h with
  | nil => exact ⟨[], [], .nil, .nil, rfl, rfl⟩
  | @cons r p rows ps h1 _ ih =>
    obtain ⟨f, s, h2, h3, h4, h5⟩ := ih
    unfold klavaroRow at h1
    cases hl : (r.1 ++ r.2).filter fun x => x.kind = .letter with
    | nil =>
      rw [hl] at h1
      cases h1
      have : typingRows (r :: rows) = typingRows rows := by
        unfold typingRows
        rw [List.map_cons, hl]
        rfl
      rw [this]
      exact ⟨f, s, h2, h3, by simpa using h4, by simpa using h5⟩
    | cons b bs =>
      rw [hl] at h1
      simp only [bind_ok_iff, Except.ok.injEq] at h1
      obtain ⟨ts, h6, rfl⟩ := h1
      obtain ⟨h7, h8⟩ := forall₂_fst (((mapM_ok_iff _ _ _).1 h6).imp fun _ _ h => klavaroButton_ok h)
      have : typingRows (r :: rows) = (b :: bs) :: typingRows rows := by
        unfold typingRows
        rw [List.map_cons, hl]
        rfl
      rw [this]
      refine ⟨ts.map Prod.fst :: f, ts.map Prod.snd :: s, .cons h7 h2, .cons h8 h3, ?_, ?_⟩
      · simp only [List.map_cons, List.flatten_cons, List.flatMap_cons, h4]
      · simp only [List.map_cons, List.flatten_cons, List.flatMap_cons, h5]

/-- **C85**: when it works. -/
theorem C85_works (nfc : Text → Text) (L : KeyboardLayout) (kb : PhysicalKeyboard) :
    (∃ out, klavaro nfc L kb = .ok out) ↔ ∀ bs ∈ typingRows kb.rows, ∀ b ∈ bs,
      2 ≤ L.layers.length ∧ ∀ l ∈ L.layers, Composable (l.layout.get? b.i) := by
  have h0 : (∃ out, klavaro nfc L kb = .ok out) ↔ ∃ ps, kb.rows.mapM (klavaroRow nfc L) = .ok ps := by
    simp only [klavaro, bind_ok_iff, Except.ok.injEq]
    exact ⟨fun ⟨_, as, h, _⟩ => ⟨as, h⟩, fun ⟨as, h⟩ => ⟨_, as, h, rfl⟩⟩
  rw [h0, mapM_exists_iff]
  unfold typingRows
  simp only [List.mem_filter, List.mem_map, decide_eq_true_eq, and_imp, forall_exists_index, forall_apply_eq_imp_iff₂]
  refine forall_congr' fun r => forall_congr' fun _ => ?_
  unfold klavaroRow
  cases hl : (r.1 ++ r.2).filter fun x => x.kind = .letter with
  | nil => simp
  | cons b bs =>
    have h2 : ∀ (x : Py (List (Text × Text))) (f : List (Text × Text) → Text × Text),
        (∃ a, (x >>= fun k => .ok (f k)) = .ok a) ↔ ∃ k, x = .ok k := by
      intro x f
      cases x <;> simp [bind, Except.bind]
    simp only
    rw [h2, mapM_exists_iff]
    have h3 : ∀ x, x ∈ b :: bs ↔ x ∈ r.1 ++ r.2 ∧ x.kind = .letter := by
      intro x
      rw [← hl, List.mem_filter, decide_eq_true_eq]
    simp only [klavaroButton_exists, ne_eq, reduceCtorEq, not_false_eq_true, forall_const, h3, and_imp]

/-- **C85**: the file has one character per button if and only if the composed texts of the first two layers have at most
one character, which is not a newline. -/
theorem C85_partial (nfc : Text → Text) (L : KeyboardLayout) (kb : PhysicalKeyboard) (hl : typingRows kb.rows ≠ []) (out : Text)
    (h : klavaro nfc L kb = .ok out) :
    KlavaroFile nfc L.layers kb.rows out ↔
      ∀ bs ∈ typingRows kb.rows, ∀ b ∈ bs, ∀ i ≤ 1, ∀ t, IsCell nfc L.layers i b t → t.length ≤ 1 ∧ '\n' ∉ t := by
  have huniq : ∀ {i : Nat} {b : Btn} {t u : Text}, IsCell nfc L.layers i b t → IsCell nfc L.layers i b u → t = u := by
    rintro i b t u ⟨l, h1, h2⟩ ⟨l', h3, h4⟩
    rw [h1] at h3
    cases h3
    exact isComposed_unique h2 h4
  constructor
  · rintro ⟨first, second, h1, h2, _⟩ bs hbs b hb i hi t ht
    have key : ∀ lines, List.Forall₂ (IsLine nfc L.layers i) (typingRows kb.rows) lines → t.length ≤ 1 ∧ '\n' ∉ t := by
      intro lines h3
      obtain ⟨line, _, h4⟩ := forall₂_left_mem h3 hbs
      obtain ⟨c, _, h5, h6⟩ := forall₂_left_mem h4 hb
      rcases h6 with h6 | ⟨h6, _⟩
      · rw [huniq ht h6]
        exact ⟨by simp, by simpa using h5.symm⟩
      · rw [huniq ht h6]
        simp
    match i, hi with
    | 0, _ => exact key first h1
    | 1, _ => exact key second h2
  · intro hs
    simp only [klavaro, bind_ok_iff, Except.ok.injEq] at h
    obtain ⟨ps, h1, rfl⟩ := h
    obtain ⟨f, s, h2, h3, h4, h5⟩ := klavaro_rows ((mapM_ok_iff _ _ _).1 h1)
    have key : ∀ i ≤ 1, ∀ f : List (List Text), List.Forall₂ (List.Forall₂ (Written nfc L.layers i)) (typingRows kb.rows) f →
        List.Forall₂ (IsLine nfc L.layers i) (typingRows kb.rows) (f.map List.flatten) ∧ f.map List.flatten ≠ [] ∧
          ∀ l ∈ f.map List.flatten, l ≠ [] ∧ '\n' ∉ l := by
      intro i hi f hf
      have hline : ∀ bs ∈ typingRows kb.rows, ∀ cells, List.Forall₂ (Written nfc L.layers i) bs cells → IsLine nfc L.layers i bs cells.flatten := by
        intro bs hbs cells hc
        have hb' : ∀ b ∈ bs, ∀ t, IsCell nfc L.layers i b t → t.length ≤ 1 ∧ '\n' ∉ t := fun b hb t => hs bs hbs b hb i hi t
        clear hbs
        induction hc with
        | nil => exact .nil
        | @cons b w bs cells h6 _ ih =>
          obtain ⟨u, h7, rfl⟩ := h6
          obtain ⟨h8, h9⟩ := hb' b (by simp) u h7
          have ih := ih fun b hb => hb' b (by simp [hb])
          match u, h7, h8, h9 with
          | [], h7, _, _ => exact .cons ⟨by decide, .inr ⟨h7, rfl⟩⟩ ih
          | [c], h7, _, h9 => exact .cons ⟨by simpa using Ne.symm (by simpa using h9), .inl h7⟩ ih
      have hlines : List.Forall₂ (IsLine nfc L.layers i) (typingRows kb.rows) (f.map List.flatten) := by
        rw [List.forall₂_map_right_iff]
        rw [List.forall₂_iff_get] at hf ⊢
        exact ⟨hf.1, fun k h1 h2 => hline _ (List.get_mem _ _) _ (hf.2 k h1 h2)⟩
      refine ⟨hlines, ?_, ?_⟩
      · intro h6
        rw [h6] at hlines
        cases hlines' : typingRows kb.rows with
        | nil => exact hl hlines'
        | cons a b => rw [hlines'] at hlines; cases hlines
      · intro line hline'
        obtain ⟨bs, hbs, h6⟩ := forall₂_right_mem hlines hline'
        refine ⟨?_, ?_⟩
        · rintro rfl
          cases h6
          unfold typingRows at hbs
          simp at hbs
        · intro h7
          obtain ⟨b, _, h8, _⟩ := forall₂_right_mem h6 h7
          exact h8 rfl
    obtain ⟨a1, a2, a3⟩ := key 0 (by omega) f h2
    obtain ⟨b1, b2, b3⟩ := key 1 (by omega) s h3
    refine ⟨_, _, a1, b1, ?_⟩
    rw [h4, h5, List.flatMap_append, stripNewlines_lines b2 b3]
    conv_rhs => rw [← stripNewlines_lines a2 a3, List.append_assoc]
    rfl

example : klavaro id (KeyboardLayout.mk' "" keymanLayers askKb) askKb = .ok "ax𝄞\n  \n \nA \n  \n \n".toList := by decide +kernel

example : klavaro id (KeyboardLayout.mk' "" [⟨[[]], [(0, .str ['a']), (3, .str ['b'])]⟩, ⟨[[2]], [(1, .str ['A'])]⟩] askKb) askKb =
    .ok "a \n b\n \n A\n  \n \n".toList := by decide +kernel

example : klavaro id (KeyboardLayout.mk' "" [⟨[[]], []⟩] askKb) askKb = .error .indexError := by decide +kernel

/-- What Klavaro needs, as a computation. -/
def klavaroFine (nfc : Text → Text) (L : KeyboardLayout) (kb : PhysicalKeyboard) : Bool :=
  decide (2 ≤ L.layers.length) && (typingRows kb.rows).all fun bs => bs.all fun b =>
    (L.layers.all fun l => match l.layout.get? b.i with
      | none => true
      | some (.str _) => true
      | some (.other n) => n = 0) &&
    (L.layers.take 2).all fun l => match l.layout.get? b.i with
      | some (.str s) => decide ((nfc s).length ≤ 1 ∧ '\n' ∉ nfc s)
      | _ => true

theorem klavaroFine_iff {nfc : Text → Text} {L : KeyboardLayout} {kb : PhysicalKeyboard} (hl : typingRows kb.rows ≠ [])
    (hne : ∀ bs ∈ typingRows kb.rows, bs ≠ []) :
    klavaroFine nfc L kb = true ↔ ∃ out, klavaro nfc L kb = .ok out ∧ KlavaroFile nfc L.layers kb.rows out := by
  have hc : ∀ v : Option LVal, (match v with
      | none => true
      | some (.str _) => true
      | some (.other n) => decide (n = 0)) = true ↔ Composable v := by
    intro v
    unfold Composable
    match v with
    | none => simp
    | some (.str s) => simp
    | some (.other n) => simp
  have h1 : klavaroFine nfc L kb = true ↔ (2 ≤ L.layers.length ∧ ∀ bs ∈ typingRows kb.rows, ∀ b ∈ bs,
      (∀ l ∈ L.layers, Composable (l.layout.get? b.i)) ∧
      ∀ i ≤ 1, ∀ t, IsCell nfc L.layers i b t → t.length ≤ 1 ∧ '\n' ∉ t) := by
    unfold klavaroFine
    rw [Bool.and_eq_true, decide_eq_true_eq, List.all_eq_true]
    refine and_congr_right fun h2 => forall_congr' fun bs => forall_congr' fun _ => ?_
    rw [List.all_eq_true]
    refine forall_congr' fun b => forall_congr' fun _ => ?_
    rw [Bool.and_eq_true, List.all_eq_true, List.all_eq_true]
    refine and_congr (forall_congr' fun l => forall_congr' fun _ => hc _) ?_
    constructor
    · rintro h i hi t ⟨l, hl, ht⟩
      have hmem : l ∈ L.layers.take 2 := by
        refine List.mem_iff_getElem?.2 ⟨i, ?_⟩
        rw [List.getElem?_take, if_pos (by omega), hl]
      have h3 := h l hmem
      rcases ht with ⟨s, h4, rfl⟩ | ⟨_, rfl⟩
      · rw [h4] at h3
        simpa using h3
      · simp
    · intro h l hl
      obtain ⟨i, hi⟩ := List.mem_iff_getElem?.1 hl
      rw [List.getElem?_take] at hi
      split at hi
      · split
        · rename_i s hs
          rw [decide_eq_true_eq]
          exact h i (by omega) _ ⟨l, hi, .inl ⟨s, hs, rfl⟩⟩
        · rfl
      · cases hi
  rw [h1]
  constructor
  · rintro ⟨h2, h3⟩
    obtain ⟨out, hout⟩ := (C85_works nfc L kb).2 fun bs hbs b hb => ⟨h2, (h3 bs hbs b hb).1⟩
    exact ⟨out, hout, (C85_partial nfc L kb hl out hout).2 fun bs hbs b hb => (h3 bs hbs b hb).2⟩
  · rintro ⟨out, hout, h2⟩
    have h3 := (C85_works nfc L kb).1 ⟨out, hout⟩
    have h4 := (C85_partial nfc L kb hl out hout).1 h2
    refine ⟨?_, fun bs hbs b hb => ⟨(h3 bs hbs b hb).2, h4 bs hbs b hb⟩⟩
    obtain ⟨bs, hbs⟩ := List.exists_mem_of_ne_nil _ hl
    obtain ⟨b, hb⟩ := List.exists_mem_of_ne_nil _ (hne bs hbs)
    exact (h3 bs hbs b hb).1

theorem typingRows_ne_nil {rows : List (Row Btn)} : ∀ bs ∈ typingRows rows, bs ≠ [] := by
  intro bs hbs
  unfold typingRows at hbs
  simpa using (List.mem_filter.1 hbs).2

/-- The table of composed texts as a function. -/
def tableNfc (t : Text) : Text := (Data.composedTexts.get? t).getD t

theorem klavaroFine_congr {nfc nfc' : Text → Text} {L : KeyboardLayout} {kb : PhysicalKeyboard}
    (h : ∀ l ∈ L.layers, ∀ e ∈ l.layout, ∀ s, e.2 = .str s → nfc s = nfc' s) : klavaroFine nfc L kb = klavaroFine nfc' L kb := by
  unfold klavaroFine
  congr 1
  refine congrArg (fun f => (typingRows kb.rows).all f) (funext fun bs => ?_)
  refine congrArg (fun f => bs.all f) (funext fun b => ?_)
  congr 1
  rw [Bool.eq_iff_iff, List.all_eq_true, List.all_eq_true]
  refine forall_congr' fun l => forall_congr' fun hl => ?_
  cases hv : l.layout.get? b.i with
  | none => rfl
  | some v =>
    cases v with
    | other n => rfl
    | str s => simp only [h l (List.mem_of_mem_take hl) _ (Dict.mem_of_get? hv) s rfl]

def klavaroShipped (d : LayoutData) : Option Bool :=
  match loadFirst d with
  | .ok x =>
    if (typingRows x.2.1.rows ≠ []) ∧ (x.2.2.layers.all fun l => l.layout.all fun e => match e.2 with
      | .str s => Data.composedTexts.any fun p => p.1 = s
      | .other _ => true) then some (klavaroFine tableNfc x.2.2 x.2.1) else none
  | .error _ => none

theorem klavaroShipped_all : ∀ d ∈ Data.layouts, klavaroShipped d = some (decide (d.name ∉
    ["ar-idlebi", "ar-khorshid", "ar-linux", "ar-osman", "None"])) := by decide +kernel

/-- **C85** is false for five of the shipped layouts, and true for the others. -/
theorem C85_false (nfc : Text → Text) (hn : ∀ p ∈ Data.composedTexts, nfc p.1 = p.2) : ∀ d ∈ Data.layouts,
    ∃ t kb L, loadFirst d = .ok (t, kb, L) ∧ ((∃ out, klavaro nfc L kb = .ok out ∧ KlavaroFile nfc L.layers kb.rows out) ↔
      d.name ∉ ["ar-idlebi", "ar-khorshid", "ar-linux", "ar-osman", "None"]) := by
  intro d hd
  have h := klavaroShipped_all d hd
  unfold klavaroShipped at h
  cases hx : loadFirst d with
  | error e => rw [hx] at h; cases h
  | ok x =>
    obtain ⟨t, kb, L⟩ := x
    rw [hx] at h
    simp only at h
    split at h
    · rename_i hc
      refine ⟨t, kb, L, rfl, ?_⟩
      have hwf : Dict.WF Data.composedTexts := by decide +kernel
      rw [← klavaroFine_iff hc.1 typingRows_ne_nil, klavaroFine_congr (nfc' := tableNfc), Option.some.inj h, decide_eq_true_eq]
      intro l hl e he s hs
      have h2 := List.all_eq_true.1 (List.all_eq_true.1 hc.2 l hl) e he
      rw [hs] at h2
      obtain ⟨p, hp, h3⟩ := List.any_eq_true.1 h2
      rw [decide_eq_true_eq] at h3
      subst h3
      rw [hn p hp, tableNfc, Dict.get?_of_mem hwf hp]
      rfl
    · cases h

end Lulua.Props
