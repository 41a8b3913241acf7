import Mathlib.Tactic.Linarith
import Mathlib.Tactic.Ring
import Mathlib.Tactic.FieldSimp
import Mathlib.Algebra.Order.BigOperators.Group.List
import Verif.Spec.Render
import Verif.Proofs.Carpalx
import Verif.Proofs.Layout
import Verif.Proofs.Util
import Verif.Py.DictLemmas

/-!
# Lemmas about the picture
-/

namespace Lulua
open Spec

/-! ### Positions -/

/-- The entries added for some buttons. -/
def placed (s : RenderSettings) (y : Rat) : Rat → List Btn → Positions
  | _, [] => []
  | x, b :: bs => (b.i, (x, y)) :: placed s y (x + (s.widthOf b + s.buttonMargin)) bs

theorem placed_keys (s : RenderSettings) (y : Rat) : ∀ (x : Rat) (bs : List Btn),
    (placed s y x bs).map Prod.fst = bs.map Btn.i
  | _, [] => rfl
  | x, b :: bs => by simp [placed, placed_keys]

theorem roomFor_cons (s : RenderSettings) (b : Btn) (bs : List Btn) :
    roomFor s (b :: bs) = (s.widthOf b + s.buttonMargin) + roomFor s bs := by simp [roomFor, RenderSettings.widthOf]

theorem roomFor_append (s : RenderSettings) (as bs : List Btn) : roomFor s (as ++ bs) = roomFor s as + roomFor s bs := by
  simp [roomFor]

theorem placed_mem (s : RenderSettings) (y : Rat) : ∀ (x : Rat) (bs : List Btn) (j : Nat) (b : Btn), bs[j]? = some b →
    (b.i, (x + roomFor s (bs.take j), y)) ∈ placed s y x bs
  | _, [], j, b, h => by simp at h
  | x, b' :: bs, 0, b, h => by
    simp only [List.getElem?_cons_zero, Option.some.injEq] at h
    subst h
    simp [placed, roomFor]
  | x, b' :: bs, j + 1, b, h => by
    rw [List.getElem?_cons_succ] at h
    have := placed_mem s y (x + (s.widthOf b' + s.buttonMargin)) bs j b h
    rw [List.take_succ_cons, roomFor_cons, ← add_assoc]
    exact List.mem_cons_of_mem _ this

theorem placeButtons_ok {s : RenderSettings} {y : Rat} : ∀ {bs : List Btn} {m : Positions} {x : Rat} {m' : Positions} {x' : Rat},
    placeButtons s y m x bs = .ok (m', x') ↔
      ((bs.map Btn.i).Nodup ∧ ∀ b ∈ bs, b.i ∉ m.map Prod.fst) ∧ m' = m ++ placed s y x bs ∧ x' = x + roomFor s bs
  | [], m, x, m', x' => by simp [placeButtons, placed, roomFor, eq_comm]
  | b :: bs, m, x, m', x' => by
    rw [placeButtons]
    by_cases hc : m.contains b.i = true
    · rw [if_pos hc]
      have : b.i ∈ m.map Prod.fst := Dict.get?_isSome_iff.1 hc
      constructor
      · intro h; cases h
      · rintro ⟨⟨_, h⟩, _⟩
        exact absurd this (h b (by simp))
    · rw [if_neg hc]
      have hn : b.i ∉ m.map Prod.fst := fun h => hc (Dict.get?_isSome_iff.2 h)
      rw [placeButtons_ok, Dict.set_of_not_mem hn, roomFor_cons]
      simp only [placed, List.map_append, List.map_cons, List.map_nil, List.mem_append, List.not_mem_nil, not_false_eq_true, and_true, List.nodup_cons,
        List.mem_cons, List.append_assoc, List.singleton_append, add_assoc, not_or]
      constructor
      · rintro ⟨⟨h1, h2⟩, h3, h4⟩
        refine ⟨⟨⟨?_, h1⟩, ?_⟩, h3, h4⟩
        · intro hm
          obtain ⟨b', hb', he⟩ := List.mem_map.1 hm
          exact (h2 b' hb').2 he
        · rintro b' (rfl | hb')
          · exact hn
          · exact (h2 b' hb').1
      · rintro ⟨⟨⟨h0, h1⟩, h2⟩, h3, h4⟩
        exact ⟨⟨h1, fun b' hb' => ⟨h2 b' (.inr hb'), fun he => h0 (List.mem_map.2 ⟨b', hb', he⟩)⟩⟩, h3, h4⟩

theorem placeButtons_error {s : RenderSettings} {y : Rat} : ∀ {bs : List Btn} {m : Positions} {x : Rat} {e : PyErr},
    placeButtons s y m x bs = .error e → e = .assertionError
  | [], m, x, e, h => by simp [placeButtons] at h
  | b :: bs, m, x, e, h => by
    rw [placeButtons] at h
    split at h
    · cases h; rfl
    · exact placeButtons_error h

/-- Everything that is placed. -/
def placedRows (s : RenderSettings) : Rat → List (Row Btn) → Positions
  | _, [] => []
  | y, r :: rows => placed s y 0 r.1 ++ placed s y (roomFor s r.1 + s.middleGap) r.2 ++
      placedRows s (y + (s.buttonWidth + s.buttonMargin)) rows

/-- The ids of all buttons of some rows. -/
def rowIds (rows : List (Row Btn)) : List Button := (rows.flatMap fun r => r.1 ++ r.2).map Btn.i

theorem rowIds_cons (r : Row Btn) (rows : List (Row Btn)) : rowIds (r :: rows) = r.1.map Btn.i ++ r.2.map Btn.i ++ rowIds rows := by
  simp [rowIds]

theorem placedRows_keys (s : RenderSettings) : ∀ (y : Rat) (rows : List (Row Btn)),
    (placedRows s y rows).map Prod.fst = rowIds rows
  | _, [] => rfl
  | y, r :: rows => by
    rw [placedRows, List.map_append, List.map_append, placed_keys, placed_keys, placedRows_keys, rowIds_cons]

/-- Width of the widest row, at least `w`. -/
def widest (s : RenderSettings) : Rat → List (Row Btn) → Rat
  | w, [] => w
  | w, r :: rows => widest s (max (roomFor s r.1 + s.middleGap + roomFor s r.2) w) rows

theorem placeRows_ok {s : RenderSettings} : ∀ {rows : List (Row Btn)} {m : Positions} {y w : Rat} {x : Positions × Rat × Rat},
    m.WF → (placeRows s m y w rows = .ok x ↔ (m ++ placedRows s y rows).WF ∧
      x = (m ++ placedRows s y rows, widest s w rows, y + rows.length * (s.buttonWidth + s.buttonMargin)))
  | [], m, y, w, x, wf => by
    simp only [placeRows, Except.ok.injEq, placedRows, List.append_nil, widest, List.length_nil, Nat.cast_zero, zero_mul, add_zero]
    constructor
    · intro h; exact ⟨wf, h.symm⟩
    · intro h; exact h.2.symm
  | (l, r) :: rows, m, y, w, x, wf => by
    simp only [placeRows, bind_ok_iff, Prod.exists, placeButtons_ok]
    have hwf : ∀ a b c : Positions, (a ++ (b ++ c)).WF → (a ++ b).WF := by
      intro a b c h
      unfold Dict.WF at h ⊢
      rw [← List.append_assoc, List.map_append] at h
      exact (List.nodup_append.1 h).1
    have key : ∀ (m : Positions), m.WF → ∀ (x : Rat) (bs : List Btn), ((bs.map Btn.i).Nodup ∧ ∀ b ∈ bs, b.i ∉ m.map Prod.fst) ↔
        (m ++ placed s y x bs).WF := by
      intro m wf x bs
      unfold Dict.WF
      rw [List.map_append, placed_keys, List.nodup_append]
      constructor
      · rintro ⟨h1, h2⟩
        refine ⟨wf, h1, ?_⟩
        rintro a ha b hb rfl
        obtain ⟨b', hb', rfl⟩ := List.mem_map.1 hb
        exact h2 b' hb' ha
      · rintro ⟨_, h1, h2⟩
        exact ⟨h1, fun b hb ha => h2 _ ha _ (List.mem_map.2 ⟨b, hb, rfl⟩) rfl⟩
    constructor
    · rintro ⟨m1, x1, ⟨h1, rfl, rfl⟩, m2, x2, ⟨h2, rfl, rfl⟩, h3⟩
      rw [key m wf 0 l] at h1
      rw [key _ h1 (0 + roomFor s l + s.middleGap) r] at h2
      rw [placeRows_ok h2] at h3
      obtain ⟨h3, rfl⟩ := h3
      simp only [zero_add] at h3 ⊢
      simp only [placedRows, List.append_assoc] at h3 ⊢
      refine ⟨h3, ?_⟩
      simp only [widest, List.length_cons, Nat.cast_add, Nat.cast_one, Prod.mk.injEq, true_and]
      ring
    · rintro ⟨h, rfl⟩
      simp only [placedRows, List.append_assoc] at h
      have h1 := hwf _ _ _ h
      rw [← List.append_assoc] at h
      have h2 := hwf _ _ _ h
      refine ⟨_, _, ⟨(key m wf 0 l).2 h1, rfl, rfl⟩, _, _, ⟨(key _ h1 (0 + roomFor s l + s.middleGap) r).2
        (by rw [zero_add]; exact h2), rfl, rfl⟩, ?_⟩
      rw [zero_add]
      rw [placeRows_ok h2]
      simp only [placedRows, List.append_assoc] at h ⊢
      refine ⟨h, ?_⟩
      simp only [widest, List.length_cons, Nat.cast_add, Nat.cast_one, Prod.mk.injEq, true_and]
      ring

theorem placeRows_error {s : RenderSettings} : ∀ {rows : List (Row Btn)} {m : Positions} {y w : Rat} {e : PyErr},
    placeRows s m y w rows = .error e → e = .assertionError
  | [], m, y, w, e, h => by simp [placeRows] at h
  | (l, r) :: rows, m, y, w, e, h => by
    rw [placeRows] at h
    cases h1 : placeButtons s y m 0 l with
    | error e' => rw [h1] at h; cases h; exact placeButtons_error h1
    | ok x1 =>
      rw [h1] at h
      simp only [bind, Except.bind] at h
      cases h2 : placeButtons s y x1.1 (x1.2 + s.middleGap) r with
      | error e' => rw [h2] at h; cases h; exact placeButtons_error h2
      | ok x2 =>
        rw [h2] at h
        exact placeRows_error h

theorem placedRows_mem (s : RenderSettings) : ∀ (y : Rat) (rows : List (Row Btn)) (i j : Nat) (r : Row Btn) (b : Btn),
    rows[i]? = some r → (r.1 ++ r.2)[j]? = some b →
    (b.i, (rowX s r j, y + i * (s.buttonWidth + s.buttonMargin))) ∈ placedRows s y rows
  | _, [], i, j, r, b, h, _ => by simp at h
  | y, r' :: rows, 0, j, r, b, h, hb => by
    simp only [List.getElem?_cons_zero, Option.some.injEq] at h
    subst h
    rw [placedRows, List.mem_append]
    left
    rw [List.mem_append]
    simp only [Nat.cast_zero, zero_mul, add_zero]
    unfold rowX
    by_cases hj : r'.1.length ≤ j
    · right
      rw [if_pos hj]
      rw [List.getElem?_append_right hj] at hb
      have := placed_mem s y (roomFor s r'.1 + s.middleGap) r'.2 _ b hb
      rw [List.take_append, List.take_of_length_le hj, roomFor_append]
      have e : roomFor s r'.1 + roomFor s (r'.2.take (j - r'.1.length)) + s.middleGap =
        roomFor s r'.1 + s.middleGap + roomFor s (r'.2.take (j - r'.1.length)) := by ring
      rw [e]
      exact this
    · left
      rw [if_neg hj, add_zero]
      rw [List.getElem?_append_left (by omega)] at hb
      have := placed_mem s y 0 r'.1 j b hb
      rw [List.take_append_of_le_length (by omega)]
      simpa using this
  | y, r' :: rows, i + 1, j, r, b, h, hb => by
    rw [List.getElem?_cons_succ] at h
    have := placedRows_mem s (y + (s.buttonWidth + s.buttonMargin)) rows i j r b h hb
    rw [placedRows, List.mem_append]
    right
    have e : y + (s.buttonWidth + s.buttonMargin) + i * (s.buttonWidth + s.buttonMargin) =
      y + ((i + 1 : Nat) : Rat) * (s.buttonWidth + s.buttonMargin) := by push_cast; ring
    rw [← e]
    exact this

theorem widest_ge (s : RenderSettings) : ∀ (rows : List (Row Btn)) (w : Rat), w ≤ widest s w rows ∧
    (∀ r ∈ rows, roomFor s (r.1 ++ r.2) + s.middleGap ≤ widest s w rows) ∧
    (widest s w rows = w ∨ ∃ r ∈ rows, widest s w rows = roomFor s (r.1 ++ r.2) + s.middleGap)
  | [], w => by simp [widest]
  | r :: rows, w => by
    obtain ⟨h1, h2, h3⟩ := widest_ge s rows (max (roomFor s r.1 + s.middleGap + roomFor s r.2) w)
    rw [widest]
    have e : roomFor s (r.1 ++ r.2) + s.middleGap = roomFor s r.1 + s.middleGap + roomFor s r.2 := by
      rw [roomFor_append]; ring
    refine ⟨le_trans (le_max_right _ _) h1, ?_, ?_⟩
    · intro r' hr'
      rcases List.mem_cons.1 hr' with rfl | hr'
      · rw [e]; exact le_trans (le_max_left _ _) h1
      · exact h2 r' hr'
    · rcases h3 with h3 | ⟨r', hr', h3⟩
      · rcases max_choice (roomFor s r.1 + s.middleGap + roomFor s r.2) w with hm | hm
        · right; exact ⟨r, by simp, by rw [h3, hm, e]⟩
        · left; rw [h3, hm]
      · right; exact ⟨r', by simp [hr'], h3⟩

/-! ### Heat -/

theorem foldl_max_spec : ∀ (l : List (String × Nat)) (m : Nat), m ≤ l.foldl (fun m q => max m q.2) m ∧
    (∀ q ∈ l, q.2 ≤ l.foldl (fun m q => max m q.2) m) ∧
    (l.foldl (fun m q => max m q.2) m = m ∨ ∃ q ∈ l, q.2 = l.foldl (fun m q => max m q.2) m)
  | [], m => by simp
  | p :: l, m => by
    obtain ⟨h1, h2, h3⟩ := foldl_max_spec l (max m p.2)
    rw [List.foldl_cons]
    refine ⟨le_trans (le_max_left _ _) h1, ?_, ?_⟩
    · intro q hq
      rcases List.mem_cons.1 hq with rfl | hq
      · exact le_trans (le_max_right _ _) h1
      · exact h2 q hq
    · rcases h3 with h3 | ⟨q, hq, h3⟩
      · rcases max_choice m p.2 with hm | hm
        · left; rw [h3, hm]
        · right; exact ⟨p, by simp, by rw [h3, hm]⟩
      · right; exact ⟨q, by simp [hq], h3⟩

/-! ### `unique` -/

/-- What `unique` gives: one element for each key, the last one. -/
theorem unique_ok {α κ : Type} [DecidableEq κ] {key : α → Py κ} {l r : List α} (h : unique key l = .ok r) :
    (∀ v ∈ l, ∃ k, key v = .ok k) ∧ (∀ v ∈ r, v ∈ l) ∧
    (∀ v ∈ l, ∃ w ∈ r, key w = key v) ∧
    (r.Pairwise fun v w => key v ≠ key w) ∧
    (∀ v ∈ r, ∃ pre post, l = pre ++ v :: post ∧ ∀ w ∈ post, key w ≠ key v) := by
  simp only [unique, bind_ok_iff, Except.ok.injEq] at h
  obtain ⟨pairs, h1, rfl⟩ := h
  rw [mapM_ok_iff _ _ _] at h1
  have hpair : ∀ p ∈ pairs, p.2 ∈ l ∧ key p.2 = .ok p.1 := by
    intro p hp
    obtain ⟨i, hi⟩ := List.mem_iff_getElem?.1 hp
    have hlen := h1.length_eq
    have hi' : i < pairs.length := (List.getElem?_eq_some_iff.1 hi).1
    have := List.forall₂_iff_get.1 h1
    have h3 := this.2 i (by omega) hi'
    simp only [bind_ok_iff, Except.ok.injEq, List.get_eq_getElem] at h3
    obtain ⟨k, hk, hp'⟩ := h3
    have hpe : pairs[i] = p := (List.getElem?_eq_some_iff.1 hi).2
    rw [hpe] at hp'
    rw [← hp']
    exact ⟨List.getElem_mem _, hk⟩
  have hl : pairs.map Prod.snd = l := by
    clear hpair
    induction h1 with
    | nil => rfl
    | cons hab _ ih =>
      simp only [bind_ok_iff, Except.ok.injEq] at hab
      obtain ⟨k, _, rfl⟩ := hab
      simp [ih]
  have wf := Dict.wf_ofPairs pairs
  have hsub : ∀ p ∈ Dict.ofPairs pairs, p ∈ pairs := by
    intro p hp
    have := Dict.get?_of_mem wf hp
    rw [Dict.get?_ofPairs] at this
    exact List.mem_reverse.1 (Dict.mem_of_get? this)
  refine ⟨?_, ?_, ?_, ?_, ?_⟩
  · intro v hv
    rw [← hl] at hv
    obtain ⟨p, hp, rfl⟩ := List.mem_map.1 hv
    exact ⟨_, (hpair p hp).2⟩
  · intro v hv
    obtain ⟨p, hp, rfl⟩ := List.mem_map.1 hv
    exact (hpair p (hsub p hp)).1
  · intro v hv
    rw [← hl] at hv
    obtain ⟨p, hp, rfl⟩ := List.mem_map.1 hv
    have : ((Dict.ofPairs pairs).get? p.1).isSome := by
      rw [Dict.get?_ofPairs, Dict.get?_isSome_iff, List.map_reverse, List.mem_reverse]
      exact List.mem_map.2 ⟨p, hp, rfl⟩
    obtain ⟨w, hw⟩ := Option.isSome_iff_exists.1 this
    have hm := Dict.mem_of_get? hw
    exact ⟨w, List.mem_map.2 ⟨_, hm, rfl⟩, by rw [(hpair _ (hsub _ hm)).2, (hpair p hp).2]⟩
  · unfold Dict.values
    rw [List.pairwise_map]
    unfold Dict.WF at wf
    rw [List.Nodup, List.pairwise_map] at wf
    refine List.Pairwise.imp_of_mem ?_ wf
    intro a b ha hb hne he
    rw [(hpair a (hsub a ha)).2, (hpair b (hsub b hb)).2] at he
    exact hne (by simpa using he)
  · intro v hv
    obtain ⟨p, hp, rfl⟩ := List.mem_map.1 hv
    have hg := Dict.get?_of_mem wf hp
    rw [Dict.get?_ofPairs] at hg
    -- the first occurrence from behind
    have hfirst : ∀ (d : List (κ × α)) (k : κ) (v : α), Dict.get? d k = some v →
        ∃ pre post, d = pre ++ (k, v) :: post ∧ ∀ q ∈ pre, q.1 ≠ k := by
      intro d
      induction d with
      | nil => intro k v h; simp [Dict.get?] at h
      | cons q d ih =>
        intro k v h
        rw [Dict.get?_cons] at h
        by_cases hk : q.1 = k
        · rw [if_pos hk] at h
          simp only [Option.some.injEq] at h
          exact ⟨[], d, by simp [← hk, ← h], by simp⟩
        · rw [if_neg hk] at h
          obtain ⟨pre, post, rfl, h2⟩ := ih k v h
          exact ⟨q :: pre, post, rfl, by
            intro q' hq'
            rcases List.mem_cons.1 hq' with rfl | hq'
            · exact hk
            · exact h2 q' hq'⟩
    obtain ⟨pre, post, h2, h3⟩ := hfirst _ _ _ hg
    have h4 : pairs = post.reverse ++ p :: pre.reverse := by
      have := congrArg List.reverse h2
      rw [List.reverse_reverse] at this
      rw [this]; simp
    refine ⟨post.reverse.map Prod.snd, pre.reverse.map Prod.snd, by rw [← hl, h4]; simp, ?_⟩
    intro w hw
    obtain ⟨q, hq, rfl⟩ := List.mem_map.1 hw
    have hqm : q ∈ pairs := by rw [h4]; simp only [List.mem_append, List.mem_cons]; exact .inr (.inr hq)
    rw [(hpair q hqm).2, (hpair p (hsub p hp)).2]
    intro he
    exact h3 q (List.mem_reverse.1 hq) (by simpa using he)

end Lulua

namespace Lulua
open Spec

/-! ### Modifiers -/

theorem exists_last_layer {layers : List Layer} {m : FSet} (h : ∃ l ∈ layers, m ∈ l.modifier) :
    ∃ (i : Nat) (hi : i < layers.length), m ∈ layers[i].modifier ∧ ∀ k (hk : k < layers.length), i < k → m ∉ layers[k].modifier := by
  induction layers with
  | nil => obtain ⟨l, hl, _⟩ := h; simp at hl
  | cons a ls ih =>
    by_cases h' : ∃ l ∈ ls, m ∈ l.modifier
    · obtain ⟨i, hi, h1, h2⟩ := ih h'
      refine ⟨i + 1, by simpa using hi, by simpa using h1, ?_⟩
      intro k hk hik
      cases k with
      | zero => omega
      | succ k => simpa using h2 k (by simpa using hk) (by omega)
    · obtain ⟨l, hl, hm⟩ := h
      rcases List.mem_cons.1 hl with rfl | hl
      · refine ⟨0, by simp, by simpa using hm, ?_⟩
        intro k hk hik
        cases k with
        | zero => omega
        | succ k => exact fun hm' => h' ⟨_, List.getElem_mem (by simpa using hk), by simpa using hm'⟩
      · exact absurd ⟨l, hl, hm⟩ h'

/-- Which layer a modifier leads to. -/
theorem modifierToLayer_spec (name : String) (layers : List Layer) (kb : PhysicalKeyboard) (m : FSet) :
    (∃ (i : Nat) (hi : i < layers.length), (KeyboardLayout.mk' name layers kb).modifierToLayer m = .ok (i, layers[i]) ∧
      (KeyboardLayout.mk' name layers kb).isModifier m = true ∧ m ∈ layers[i].modifier ∧
      ∀ k (hk : k < layers.length), i < k → m ∉ layers[k].modifier) ∨
    ((∀ l ∈ layers, m ∉ l.modifier) ∧ (KeyboardLayout.mk' name layers kb).isModifier m = false ∧
      (KeyboardLayout.mk' name layers kb).modifierToLayer m = .error .keyError) := by
  by_cases h : ∃ l ∈ layers, m ∈ l.modifier
  · left
    obtain ⟨i, hi, h1, h2⟩ := exists_last_layer h
    have hg := modToLayer_addLayers 0 layers ⟨[], 0, []⟩ m i hi h1 h2
    rw [Nat.zero_add] at hg
    refine ⟨i, hi, ?_, ?_, h1, h2⟩
    · unfold KeyboardLayout.modifierToLayer KeyboardLayout.mk'
      rw [Dict.getItem_eq_ok]; exact hg
    · unfold KeyboardLayout.isModifier KeyboardLayout.mk' Dict.contains
      simp only [hg, Option.isSome_some]
  · right
    push Not at h
    have hg := modToLayer_addLayers_none 0 layers ⟨[], 0, []⟩ m rfl h
    refine ⟨h, ?_, ?_⟩
    · unfold KeyboardLayout.isModifier KeyboardLayout.mk' Dict.contains
      simp only [hg, Option.isSome_none]
    · unfold KeyboardLayout.modifierToLayer KeyboardLayout.mk' Dict.getItem
      simp only [hg]

theorem leadsTo_of {layers : List Layer} {b : Button} {i : Nat} (hi : i < layers.length) (h1 : [b] ∈ layers[i].modifier)
    (h2 : ∀ k (hk : k < layers.length), i < k → [b] ∉ layers[k].modifier) : LeadsTo layers b i :=
  ⟨⟨layers[i], List.getElem?_eq_getElem hi, h1⟩, fun j l hj hl => by
    obtain ⟨hlt, rfl⟩ := List.getElem?_eq_some_iff.1 hl
    exact h2 j hlt hj⟩

theorem leadsTo_unique {layers : List Layer} {b : Button} {i j : Nat} (h : LeadsTo layers b i) (h' : LeadsTo layers b j) : i = j := by
  obtain ⟨⟨l, hl, hm⟩, h2⟩ := h
  obtain ⟨⟨l', hl', hm'⟩, h2'⟩ := h'
  rcases Nat.lt_trichotomy i j with hlt | rfl | hlt
  · exact absurd hm' (h2 j l' hlt hl')
  · rfl
  · exact absurd hm (h2' i l hlt hl)

theorem leadsTo_not_noModifier {layers : List Layer} {b : Button} {i : Nat} (h : LeadsTo layers b i) : ¬ NoModifier layers b := by
  obtain ⟨⟨l, hl, hm⟩, _⟩ := h
  exact fun hn => hn l (List.mem_of_getElem? hl) hm

/-! ### Labels -/

theorem labelOf_says (k : Nat) (t : Text) : LabelSays (labelOf k t) k t := by
  unfold labelOf
  split
  · next h =>
    refine ⟨rfl, .inr ⟨rfl, ?_⟩⟩
    obtain ⟨h1, h2⟩ := h
    cases t with
    | nil => simp at h1
    | cons c t =>
      simp only [List.head?_cons, Option.some.injEq] at h1
      subst h1
      simp only [List.tail_cons, List.cons_append, List.cons.injEq, true_and]
      cases t with
      | nil => simp at h2
      | cons d t =>
        rw [List.getLast?_cons_cons] at h2
        obtain ⟨ys, hys⟩ := List.getLast?_eq_some_iff.1 h2
        rw [hys]; simp
  · next h =>
    refine ⟨rfl, .inl ⟨rfl, rfl, ?_⟩⟩
    rintro ⟨m, rfl⟩
    exact h ⟨rfl, by rw [List.getLast?_concat]⟩

theorem labelSays_inj {l l' : Label} {k : Nat} {t : Text} (h : LabelSays l k t) (h' : LabelSays l' k t) : l = l' := by
  obtain ⟨h1, h2⟩ := h
  obtain ⟨h1', h2'⟩ := h'
  cases l; cases l'
  simp only at h1 h1' h2 h2'
  subst h1
  subst h1'
  rcases h2 with ⟨h3, h4, h5⟩ | ⟨h3, h4⟩ <;> rcases h2' with ⟨h3', h4', h5'⟩ | ⟨h3', h4'⟩
  · subst h3 h4 h3' h4'; rfl
  · exact absurd ⟨_, h4'⟩ h5
  · exact absurd ⟨_, h4⟩ h5'
  · subst h3 h3'
    rw [h4] at h4'
    simp only [List.cons_append, List.cons.injEq, List.append_cancel_right_eq, true_and] at h4'
    subst h4'; rfl

theorem mem_drawLabel {texts : List (Option Text)} {l : Label} :
    l ∈ drawLabel texts ↔ ∃ (k : Nat) (t : Text), k < 4 ∧ texts[k]? = some (some t) ∧ l = labelOf (k + 1) t := by
  unfold drawLabel
  rw [List.mem_filterMap]
  constructor
  · rintro ⟨⟨a, n⟩, hmem, he⟩
    obtain ⟨k, hk⟩ := List.mem_iff_getElem?.1 hmem
    rw [List.getElem?_zip_eq_some] at hk
    obtain ⟨h1, h2⟩ := hk
    cases a with
    | none => simp at he
    | some t =>
      simp only [Option.map_some, Option.some.injEq] at he
      have hk4 : k < 4 := (List.getElem?_eq_some_iff.1 h2).1
      refine ⟨k, t, hk4, h1, ?_⟩
      have : n = k + 1 := by
        rcases k with _ | _ | _ | _ | k
        · simpa using h2.symm
        · simpa using h2.symm
        · simpa using h2.symm
        · simpa using h2.symm
        · omega
      rw [← he, this]
  · rintro ⟨k, t, hk, h1, rfl⟩
    refine ⟨(some t, k + 1), List.mem_iff_getElem?.2 ⟨k, ?_⟩, rfl⟩
    rw [List.getElem?_zip_eq_some]
    refine ⟨h1, ?_⟩
    rcases k with _ | _ | _ | _ | k
    · rfl
    · rfl
    · rfl
    · rfl
    · omega

theorem forall₂_right_mem {α β : Type} {R : α → β → Prop} {l : List α} {l' : List β} (h : List.Forall₂ R l l') {b : β}
    (hb : b ∈ l') : ∃ a ∈ l, R a b := by
  induction h with
  | nil => cases hb
  | cons hr _ ih =>
    rcases List.mem_cons.1 hb with rfl | hb
    · exact ⟨_, by simp, hr⟩
    · obtain ⟨a, ha, h⟩ := ih hb
      exact ⟨a, by simp [ha], h⟩

theorem forall₂_left_mem {α β : Type} {R : α → β → Prop} {l : List α} {l' : List β} (h : List.Forall₂ R l l') {a : α}
    (ha : a ∈ l) : ∃ b ∈ l', R a b := by
  obtain ⟨b, hb, h⟩ := forall₂_right_mem (R := fun b a => R a b) h.flip ha
  exact ⟨b, hb, h⟩

theorem map_snd_zip_prefix {α β : Type} : ∀ (l : List α) (l' : List β), (l.zip l').map Prod.snd <+: l'
  | [], l' => by simp
  | _ :: _, [] => by simp
  | a :: l, b :: l' => by simpa using map_snd_zip_prefix l l'

theorem drawLabel_layers (texts : List (Option Text)) : ((drawLabel texts).map Label.layer).Pairwise (· < ·) := by
  unfold drawLabel
  rw [List.map_filterMap, List.pairwise_filterMap]
  have hlt : (texts.zip [1, 2, 3, 4]).Pairwise fun a b => a.2 < b.2 := by
    have h1 : ((texts.zip [1, 2, 3, 4]).map Prod.snd).Pairwise (· < ·) := by
      have hp : (texts.zip [1, 2, 3, 4]).map Prod.snd <+: [1, 2, 3, 4] := by
        exact map_snd_zip_prefix _ _
      have : List.Pairwise (· < ·) [1, 2, 3, 4] := by decide
      exact this.sublist hp.sublist
    rwa [List.pairwise_map] at h1
  have hlay : ∀ (x : Option Text × Nat) (n : Nat), Option.map Label.layer (x.1.map fun t => labelOf x.2 t) = some n → n = x.2 := by
    intro x n hn
    cases hx : x.1 with
    | none => rw [hx] at hn; simp at hn
    | some t =>
      rw [hx] at hn
      simp only [Option.map_some, Option.some.injEq] at hn
      rw [← hn]
      exact (labelOf_says x.2 t).1
  refine hlt.imp ?_
  intro a b hab n hn n' hn'
  rw [hlay a n hn, hlay b n' hn']
  exact hab

theorem layerToArrow_ok {i : Nat} {t : Text} : layerToArrow i = .ok t ↔ ∃ c, (i, c) ∈ arrows ∧ t = [c] := by
  unfold layerToArrow arrows
  split_ifs with h1 h2 h3
  · subst h1; simp [eq_comm]
  · subst h2; simp [eq_comm]
  · subst h3; simp [eq_comm]
  · simp [h1, h2, h3]

/-- Texts for a button that is no modifier. -/
theorem displayVals {u : UniData} {L : KeyboardLayout} {b : Button} {ts : List (Option Text)}
    (h : (L.getButtonText b).mapM (displayVal u) = .ok ts) (k : Nat) (t : Text) :
    ts[k]? = some (some t) ↔ Shown u L.layers b k t := by
  rw [mapM_ok_iff _ _ _] at h
  have hlen := h.length_eq
  have hf := List.forall₂_iff_get.1 h
  unfold KeyboardLayout.getButtonText at hlen hf
  rw [List.length_map] at hlen
  constructor
  · intro hk
    obtain ⟨hlt, hke⟩ := List.getElem?_eq_some_iff.1 hk
    have := hf.2 k (by simpa using hlen ▸ hlt) hlt
    simp only [List.get_eq_getElem, List.getElem_map, hke] at this
    have hl : L.layers[k]? = some (L.layers[k]'(by omega)) := List.getElem?_eq_getElem _
    cases hg : (L.layers[k]'(by omega)).layout.get? b with
    | none => rw [hg] at this; simp [displayVal, displayText] at this
    | some v =>
      rw [hg] at this
      cases v with
      | str x => exact ⟨_, x, hl, hg, this⟩
      | other n =>
        cases n with
        | zero => simp [displayVal, displayText] at this
        | succ n => simp [displayVal] at this
  · rintro ⟨l, x, hl, hg, hd⟩
    obtain ⟨hlt, rfl⟩ := List.getElem?_eq_some_iff.1 hl
    have := hf.2 k (by simpa using hlt) (by omega)
    simp only [List.get_eq_getElem, List.getElem_map, hg, displayVal, hd, Except.ok.injEq] at this
    rw [List.getElem?_eq_getElem (by omega), ← this]

theorem anyText_iff {ts : List (Option Text)} : anyText ts = true ↔ ∃ (k : Nat) (t : Text), ts[k]? = some (some t) ∧ t ≠ [] := by
  unfold anyText
  rw [List.any_eq_true]
  constructor
  · rintro ⟨x, hx, h⟩
    obtain ⟨k, hk⟩ := List.mem_iff_getElem?.1 hx
    match x, h with
    | some (c :: t), _ => exact ⟨k, _, hk, by simp⟩
  · rintro ⟨k, t, hk, ht⟩
    refine ⟨_, List.mem_of_getElem? hk, ?_⟩
    cases t with
    | nil => exact absurd rfl ht
    | cons c t => rfl

end Lulua
