import Verif.Spec.Export
import Verif.Proofs.Xmodmap
import Verif.Props.Keyboard

/-!
# Proofs about the Keyman, AnySoftKeyboard, macOS and Klavaro files
-/

namespace Lulua
open Spec

/-! ### Codes -/

theorem scancodeAt_ok {b : Btn} {key : String} {v : ScVal} : b.scancodeAt key = .ok v ↔ codeOf key b = some v := by
  unfold Btn.scancodeAt codeOf
  cases b.scancode with
  | none => simp
  | some d => simp [Dict.getItem_eq_ok]

theorem object_unique {kb : PhysicalKeyboard} (hnd : (kb.keys.map Btn.i).Nodup) {o : Btn} (ho : o ∈ kb.keys) :
    kb.object o.i = .ok o := by
  obtain ⟨o', h⟩ := (object_exists (kb := kb) (b := o.i)).2 (List.mem_map.2 ⟨o, ho, rfl⟩)
  obtain ⟨h1, h2⟩ := object_ok h
  rw [h, List.inj_on_of_nodup_map hnd h2 ho h1]

theorem object_code {kb : PhysicalKeyboard} (hnd : (kb.keys.map Btn.i).Nodup) {key : String} {b : Button} {v : ScVal} :
    (∃ o, kb.object b = .ok o ∧ o.scancodeAt key = .ok v) ↔ HasCode key kb b v := by
  constructor
  · rintro ⟨o, h1, h2⟩
    obtain ⟨h3, h4⟩ := object_ok h1
    exact ⟨o, h4, h3, scancodeAt_ok.1 h2⟩
  · rintro ⟨o, h1, rfl, h2⟩
    exact ⟨o, object_unique hnd h1, scancodeAt_ok.2 h2⟩

theorem hasCode_unique {kb : PhysicalKeyboard} (hnd : (kb.keys.map Btn.i).Nodup) {key : String} {b : Button} {v w : ScVal}
    (h : HasCode key kb b v) (h' : HasCode key kb b w) : v = w := by
  obtain ⟨o, h1, rfl, h2⟩ := h
  obtain ⟨o', h3, h4, h5⟩ := h'
  rw [List.inj_on_of_nodup_map hnd h3 h1 h4, h2] at h5
  exact Option.some.inj h5

/-! ### Keyman -/

theorem custom_iff {s : String} : ("K_".toList.isPrefixOf s.toList = true ∨ s = "CAPS") ↔ CustomModifier s := by
  unfold CustomModifier
  rw [List.isPrefixOf_iff_prefix, or_comm]
  constructor
  · rintro (h | ⟨r, h⟩)
    · exact .inl h
    · exact .inr ⟨r, h.symm⟩
  · rintro (h | ⟨r, h⟩)
    · exact .inl h
    · exact .inr ⟨r, h.symm⟩

theorem keymanCheck_true {bs : List Btn} (h : keymanCheck bs = .ok true) :
    ∃ b ∈ bs, ∃ c, codeOf "keyman" b = some (.str c) ∧ CustomModifier c := by
  induction bs with
  | nil => cases h
  | cons x xs ih =>
    rw [keymanCheck, bind_ok_iff] at h
    obtain ⟨v, h1, h2⟩ := h
    cases v with
    | str s =>
      simp only at h2
      split at h2
      · rename_i hc
        exact ⟨x, by simp, s, scancodeAt_ok.1 h1, custom_iff.1 hc⟩
      · obtain ⟨b, hb, hr⟩ := ih h2
        exact ⟨b, by simp [hb], hr⟩
    | num _ => cases h2
    | list _ => cases h2
    | tuple _ => cases h2

theorem keymanCheck_false {bs : List Btn} (h : keymanCheck bs = .ok false) :
    ∀ b ∈ bs, ∃ c, codeOf "keyman" b = some (.str c) ∧ ¬ CustomModifier c := by
  induction bs with
  | nil => simp
  | cons x xs ih =>
    rw [keymanCheck, bind_ok_iff] at h
    obtain ⟨v, h1, h2⟩ := h
    cases v with
    | str s =>
      simp only at h2
      split at h2
      · cases h2
      · rename_i hc
        rw [custom_iff] at hc
        intro b hb
        rcases List.mem_cons.1 hb with rfl | hb
        · exact ⟨s, scancodeAt_ok.1 h1, hc⟩
        · exact ih h2 b hb
    | num _ => cases h2
    | list _ => cases h2
    | tuple _ => cases h2

theorem keymanCheck_exists {bs : List Btn} (h : ∀ b ∈ bs, ∃ c, codeOf "keyman" b = some (.str c)) : ∃ w, keymanCheck bs = .ok w := by
  induction bs with
  | nil => exact ⟨_, rfl⟩
  | cons x xs ih =>
    obtain ⟨c, hc⟩ := h x (by simp)
    rw [keymanCheck, scancodeAt_ok.2 hc]
    obtain ⟨w, hw⟩ := ih fun b hb => h b (by simp [hb])
    by_cases hk : "K_".toList.isPrefixOf c.toList = true ∨ c = "CAPS"
    · exact ⟨true, by simp only [bind, Except.bind]; rw [if_pos hk]⟩
    · exact ⟨w, by simp only [bind, Except.bind]; rw [if_neg hk]; exact hw⟩

theorem joinable_ok {v : ScVal} {s : String} : joinable v = .ok s ↔ v = .str s := by
  cases v <;> simp [joinable]

theorem forall₂_comp {α β γ : Type} {R : α → β → Prop} {S : β → γ → Prop} {l : List α} {l' : List β} {l'' : List γ}
    (h : List.Forall₂ R l l') (h' : List.Forall₂ S l' l'') : List.Forall₂ (fun a c => ∃ b, R a b ∧ S b c) l l'' := by
  induction h generalizing l'' with
  | nil => cases h'; exact .nil
  | cons h1 _ ih =>
    cases h' with
    | cons h2 h3 => exact .cons ⟨_, h1, h2⟩ (ih h3)

theorem keymanText_ok {v : LVal} {l : List Text} : keymanText v = .ok l ↔
    ∃ t : Text, v = .str t ∧ l = t.map fun c => 'U' :: '+' :: hex4 c.toNat := by
  cases v with
  | str t => simp [keymanText, eq_comm]
  | other n => simp [keymanText]

theorem keymanText_spec (t : Text) : List.Forall₂ (fun (c : Char) s => ∃ h, s = 'U' :: '+' :: h ∧ IsHex4 h c.toNat) t
    (t.map fun c => 'U' :: '+' :: hex4 c.toNat) := by
  induction t with
  | nil => exact .nil
  | cons c t ih => exact .cons ⟨_, rfl, hex4_spec _⟩ ih

theorem forall₂_append_singleton {α β : Type} {R : α → β → Prop} {l : List α} {a : α} {l' : List β}
    (h : List.Forall₂ R (l ++ [a]) l') : ∃ l1 b, l' = l1 ++ [b] ∧ List.Forall₂ R l l1 ∧ R a b := by
  induction l generalizing l' with
  | nil =>
    cases h with
    | cons h1 h2 => cases h2; exact ⟨[], _, rfl, .nil, h1⟩
  | cons x l ih =>
    cases h with
    | cons h1 h2 =>
      obtain ⟨l1, b, rfl, h3, h4⟩ := ih h2
      exact ⟨_ :: l1, b, rfl, .cons h1 h3, h4⟩

theorem keymanRule_ok {kb : PhysicalKeyboard} {m : FSet} {ids : List Button} {bs : List Btn} (hp : ids.Perm m)
    (hb : List.Forall₂ (fun b o => kb.object b = .ok o) ids bs) {e : Button × LVal} {r : KeymanRule}
    (h : keymanRule kb bs e = .ok r) : IsRule kb m e r := by
  simp only [keymanRule, bind_ok_iff, Except.ok.injEq] at h
  obtain ⟨b, h1, codes, h2, comb, h3, text, h4, rfl⟩ := h
  obtain ⟨t, h5, rfl⟩ := keymanText_ok.1 h4
  have h6 := forall₂_comp ((mapM_ok_iff _ _ _).1 h2) ((mapM_ok_iff _ _ _).1 h3)
  obtain ⟨cs, c, rfl, h7, v, h8, h9⟩ := forall₂_append_singleton h6
  rw [joinable_ok] at h9
  subst h9
  obtain ⟨h10, h11⟩ := object_ok h1
  refine ⟨⟨ids, cs, c, hp, ?_, ⟨b, h11, h10, scancodeAt_ok.1 h8⟩, rfl⟩, ⟨t, h5, keymanText_spec t⟩⟩
  refine (forall₂_comp hb h7).imp ?_
  rintro i s ⟨o, h12, v, h13, h14⟩
  rw [joinable_ok] at h14
  subst h14
  obtain ⟨h15, h16⟩ := object_ok h12
  exact ⟨o, h16, h15, scancodeAt_ok.1 h13⟩

theorem keymanRule_text {kb : PhysicalKeyboard} {bs : List Btn} {e : Button × LVal} {r : KeymanRule}
    (h : keymanRule kb bs e = .ok r) : keymanText e.2 = .ok r.text := by
  simp only [keymanRule, bind_ok_iff, Except.ok.injEq] at h
  obtain ⟨b, _, codes, _, comb, _, text, h4, rfl⟩ := h
  exact h4

theorem keymanModifier_rule {order : FSet → List Button} (ho : ∀ m, (order m).Perm m) {kb : PhysicalKeyboard}
    {l : Layer} {m : FSet} {p : Bool × List KeymanRule} (h : keymanModifier order kb l m = .ok p) :
    ∀ r ∈ p.2, ∃ e ∈ l.layout, IsRule kb m e r ∧ keymanText e.2 = .ok r.text := by
  simp only [keymanModifier, bind_ok_iff, Except.ok.injEq] at h
  obtain ⟨bs, h1, w, h2, rules, h3, rfl⟩ := h
  intro r hr
  obtain ⟨e, he, h4⟩ := forall₂_right_mem ((mapM_ok_iff _ _ _).1 h3) hr
  exact ⟨e, he, keymanRule_ok (ho m) ((mapM_ok_iff _ _ _).1 h1) h4, keymanRule_text h4⟩

theorem keymanModifier_ok {order : FSet → List Button} (ho : ∀ m, (order m).Perm m) {kb : PhysicalKeyboard}
    (hnd : (kb.keys.map Btn.i).Nodup) {l : Layer} {m : FSet} {p : Bool × List KeymanRule}
    (h : keymanModifier order kb l m = .ok p) :
    (p.1 = true ↔ ∃ b ∈ m, ∃ c, HasCode "keyman" kb b (.str c) ∧ CustomModifier c) ∧
      List.Forall₂ (IsRule kb m) l.layout p.2 := by
  simp only [keymanModifier, bind_ok_iff, Except.ok.injEq] at h
  obtain ⟨bs, h1, w, h2, rules, h3, rfl⟩ := h
  have h1' := (mapM_ok_iff _ _ _).1 h1
  refine ⟨?_, ((mapM_ok_iff _ _ _).1 h3).imp fun _ _ h => keymanRule_ok (ho m) h1' h⟩
  cases w with
  | true =>
    simp only [true_iff]
    obtain ⟨b, hb, c, h4, h5⟩ := keymanCheck_true h2
    obtain ⟨i, hi, h6⟩ := forall₂_right_mem h1' hb
    obtain ⟨h7, h8⟩ := object_ok h6
    exact ⟨i, (ho m).subset hi, c, ⟨b, h8, h7, h4⟩, h5⟩
  | false =>
    simp only [Bool.false_eq_true, false_iff]
    rintro ⟨i, hi, c, h4, h5⟩
    obtain ⟨b, hb, h6⟩ := forall₂_left_mem h1' ((ho m).symm.subset hi)
    obtain ⟨c', h7, h8⟩ := keymanCheck_false h2 b hb
    obtain ⟨h9, h10⟩ := object_ok h6
    have := hasCode_unique hnd h4 ⟨b, h10, h9, h7⟩
    cases this
    exact h8 h5

/-! ### Composed texts -/

theorem composed_ok {nfc : Text → Text} {v : Option LVal} {t : Text} : composed nfc v = .ok t ↔ IsComposed nfc v t := by
  unfold IsComposed
  match v with
  | none => simp [composed, eq_comm]
  | some (.str s) => simp [composed, eq_comm]
  | some (.other 0) => simp [composed, eq_comm]
  | some (.other (n + 1)) => simp [composed]

theorem composed_exists {nfc : Text → Text} {v : Option LVal} : (∃ t, composed nfc v = .ok t) ↔ Composable v := by
  unfold Composable
  match v with
  | none => simp [composed]
  | some (.str s) => simp [composed]
  | some (.other 0) => simp [composed]
  | some (.other (n + 1)) => simp [composed]

theorem isComposed_unique {nfc : Text → Text} {v : Option LVal} {t t' : Text} (h : IsComposed nfc v t) (h' : IsComposed nfc v t') :
    t = t' := by
  have := (composed_ok.2 h).symm.trans (composed_ok.2 h')
  exact Except.ok.inj this

theorem texts_ok {nfc : Text → Text} {L : KeyboardLayout} {b : Button} {ts : List Text} :
    (L.getButtonText b).mapM (composed nfc) = .ok ts ↔
      List.Forall₂ (fun (l : Layer) t => IsComposed nfc (l.layout.get? b) t) L.layers ts := by
  rw [mapM_ok_iff]
  unfold KeyboardLayout.getButtonText
  rw [List.forall₂_map_left_iff]
  simp only [composed_ok]

theorem texts_exists {nfc : Text → Text} {L : KeyboardLayout} {b : Button} :
    (∃ ts, (L.getButtonText b).mapM (composed nfc) = .ok ts) ↔ ∀ l ∈ L.layers, Composable (l.layout.get? b) := by
  rw [mapM_exists_iff]
  unfold KeyboardLayout.getButtonText
  simp only [List.forall_mem_map, composed_exists]

/-! ### AnySoftKeyboard -/

theorem askKey_ok {nfc : Text → Text} {L : KeyboardLayout} {b : Btn} {k : AskKey} (h : askKey nfc L b = .ok k) :
    IsAskKey nfc L.layers b k := by
  simp only [askKey, bind_ok_iff] at h
  obtain ⟨ts, h1, h2⟩ := h
  rw [texts_ok] at h1
  cases ts with
  | nil => cases h2
  | cons t ts =>
    cases h2
    exact ⟨⟨t, ts, h1, rfl, rfl, rfl⟩, rfl⟩

theorem askKey_exists {nfc : Text → Text} {L : KeyboardLayout} {b : Btn} :
    (∃ k, askKey nfc L b = .ok k) ↔ L.layers ≠ [] ∧ ∀ l ∈ L.layers, Composable (l.layout.get? b.i) := by
  rw [← texts_exists (nfc := nfc)]
  simp only [askKey, bind_ok_iff]
  constructor
  · rintro ⟨k, ts, h1, h2⟩
    refine ⟨?_, ts, h1⟩
    intro hn
    have h3 := texts_ok.1 h1
    rw [hn] at h3
    cases h3
    cases h2
  · rintro ⟨hn, ts, h1⟩
    cases ts with
    | nil =>
      have h3 := texts_ok.1 h1
      cases hl : L.layers with
      | nil => exact absurd hl hn
      | cons a b => rw [hl] at h3; cases h3
    | cons t ts => exact ⟨_, _, h1, rfl⟩

theorem filterMap_id_forall₂ {γ β : Type} {Q : γ → Option β → Prop} {xs : List γ} {ys : List (Option β)} (h : List.Forall₂ Q xs ys) :
    ∃ xs', xs'.Sublist xs ∧ List.Forall₂ (fun x y => Q x (some y)) xs' (ys.filterMap id) ∧ ∀ x ∈ xs, x ∈ xs' ∨ Q x none := by
  induction h with
  | nil => exact ⟨[], List.Sublist.refl _, .nil, by simp⟩
  | @cons x y xs ys h1 _ ih =>
    obtain ⟨xs', h2, h3, h4⟩ := ih
    cases y with
    | none =>
      refine ⟨xs', h2.cons _, h3, ?_⟩
      intro z hz
      rcases List.mem_cons.1 hz with rfl | hz
      · exact .inr h1
      · exact h4 z hz
    | some y =>
      refine ⟨x :: xs', h2.cons_cons _, .cons h1 h3, ?_⟩
      intro z hz
      rcases List.mem_cons.1 hz with rfl | hz
      · exact .inl (by simp)
      · rcases h4 z hz with h | h
        · exact .inl (by simp [h])
        · exact .inr h

theorem forall₂_range {α β : Type} {R : α → β → Prop} {l : List α} {ys : List β} (h : List.Forall₂ R l ys) :
    List.Forall₂ (fun i y => ∃ x, l[i]? = some x ∧ R x y) (List.range l.length) ys := by
  rw [List.forall₂_iff_get] at h ⊢
  refine ⟨by simpa using h.1, ?_⟩
  intro i hi hy
  simp only [List.length_range] at hi
  refine ⟨l[i], ?_, h.2 i hi hy⟩
  simp [hi]

/-! ### Klavaro -/

theorem stripNewlines_eq {t : Text} {a b : Char} {r : Text} (ha : t.head? = some a) (ha' : a ≠ '\n') (hb : t.reverse = b :: r)
    (hb' : b ≠ '\n') : stripNewlines (t ++ ['\n']) = t := by
  unfold stripNewlines
  cases t with
  | nil => cases ha
  | cons x xs =>
    cases ha
    rw [List.cons_append, List.dropWhile_cons_of_neg (by simpa using ha'), ← List.cons_append, List.reverse_append]
    rw [List.reverse_singleton, List.singleton_append, List.dropWhile_cons_of_pos (by simp), hb,
      List.dropWhile_cons_of_neg (by simpa using hb'), ← hb, List.reverse_reverse]

theorem stripNewlines_lines {lines : List Text} (hne : lines ≠ []) (h : ∀ l ∈ lines, l ≠ [] ∧ '\n' ∉ l) :
    stripNewlines (lines.flatMap (· ++ ['\n'])) ++ ['\n'] = lines.flatMap (· ++ ['\n']) := by
  obtain ⟨init, last, rfl⟩ : ∃ init last, lines = init ++ [last] :=
    ⟨lines.dropLast, lines.getLast hne, (List.dropLast_append_getLast hne).symm⟩
  have hl := h last (by simp)
  rw [List.flatMap_append, List.flatMap_singleton, ← List.append_assoc]
  have hb : ∃ b r, (init.flatMap (· ++ ['\n']) ++ last).reverse = b :: r ∧ b ≠ '\n' := by
    rw [List.reverse_append]
    cases hr : last.reverse with
    | nil => exact absurd (by simpa using hr) hl.1
    | cons b r =>
      refine ⟨b, _, rfl, ?_⟩
      rintro rfl
      exact hl.2 (List.mem_reverse.1 (by rw [hr]; simp))
  have ha : ∃ a, (init.flatMap (· ++ ['\n']) ++ last).head? = some a ∧ a ≠ '\n' := by
    cases init with
    | nil =>
      cases last with
      | nil => exact absurd rfl hl.1
      | cons a r =>
        refine ⟨a, by simp, ?_⟩
        rintro rfl
        exact hl.2 (by simp)
    | cons l0 init =>
      have h0 := h l0 (by simp)
      cases l0 with
      | nil => exact absurd rfl h0.1
      | cons a r =>
        refine ⟨a, by simp, ?_⟩
        rintro rfl
        exact h0.2 (by simp)
  obtain ⟨b, r, hb, hb'⟩ := hb
  obtain ⟨a, ha, ha'⟩ := ha
  rw [stripNewlines_eq ha ha' hb hb']

end Lulua
