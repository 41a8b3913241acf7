import Verif.Proofs.Layout

/-!
# Lemmas on `Writer.type`
-/

namespace Lulua
open Spec

/-! ### Choosing -/

theorem minLoop_mem {hf : HandFinger} {prev : Option Comb} {cs : List Comb} {e : Nat} {b c : Comb}
    (h : minLoop hf prev cs e b = .ok c) : c = b ∨ c ∈ cs := by
  induction cs generalizing e b with
  | nil => simp only [minLoop, Except.ok.injEq] at h; exact Or.inl h.symm
  | cons d cs ih =>
    rw [minLoop] at h
    cases he : calcEffort hf prev d with
    | error x => simp [he, bind, Except.bind] at h
    | ok e' =>
      simp only [he, bind, Except.bind] at h
      split at h
      · rcases ih h with h | h <;> simp [h]
      · rcases ih h with h | h <;> simp [h]

theorem choose_mem {hf : HandFinger} {prev : Option Comb} {cs : List Comb} {c : Comb}
    (h : chooseCombination hf prev cs = .ok c) : c ∈ cs := by
  match cs, h with
  | [], h => simp [chooseCombination] at h
  | [d], h => simp only [chooseCombination, Except.ok.injEq] at h; simp [h]
  | d :: d' :: cs, h =>
    simp only [chooseCombination] at h
    cases he : calcEffort hf prev d with
    | error x => simp [he, bind, Except.bind] at h
    | ok e' =>
      simp only [he, bind, Except.bind] at h
      rcases minLoop_mem h with h | h
      · simp [h]
      · exact List.mem_cons_of_mem _ h

theorem balanceLoop_ok {hf : HandFinger} {bs : List Button} (h : ∀ b ∈ bs, ∃ p, hf b = .ok p)
    (acc : Int) : ∃ r, balanceLoop hf bs acc = .ok r := by
  induction bs generalizing acc with
  | nil => exact ⟨acc, rfl⟩
  | cons b bs ih =>
    obtain ⟨p, hp⟩ := h b (by simp)
    obtain ⟨r, hr⟩ := ih (fun x hx => h x (by simp [hx])) (acc + dirToScore p.1)
    exact ⟨r, by simp [balanceLoop, hp, bind, Except.bind, hr]⟩

theorem balanceLoop_error {hf : HandFinger} (hk : ∀ b e, hf b = .error e → e = .keyError)
    {bs : List Button} {acc : Int} {e : PyErr} (h : balanceLoop hf bs acc = .error e) :
    e = .keyError := by
  induction bs generalizing acc with
  | nil => simp [balanceLoop] at h
  | cons b bs ih =>
    rw [balanceLoop] at h
    cases hb : hf b with
    | error x =>
      simp only [hb, bind, Except.bind, Except.error.injEq] at h
      exact h ▸ hk b x hb
    | ok p =>
      simp only [hb, bind, Except.bind] at h
      exact ih h

theorem calcEffort_error {hf : HandFinger} (hk : ∀ b e, hf b = .error e → e = .keyError)
    {prev : Option Comb} {c : Comb} {e : PyErr} (h : calcEffort hf prev c = .error e) :
    e = .keyError := by
  unfold calcEffort at h
  simp only [bind, Except.bind] at h
  split at h
  · rename_i x hx
    simp only [Except.error.injEq] at h
    subst h
    cases prev with
    | none => simp [prevBalance] at hx
    | some p => exact balanceLoop_error hk hx
  · split at h
    · rename_i x hx
      simp only [Except.error.injEq] at h
      subst h
      exact balanceLoop_error hk hx
    · simp at h

theorem calcEffort_ok {hf : HandFinger} {prev : Option Comb} {c : Comb}
    (hp : ∀ p, prev = some p → CombFingered hf p) (hc : CombFingered hf c) :
    ∃ e, calcEffort hf prev c = .ok e := by
  have h2 : ∀ b ∈ c.iter, ∃ p, hf b = .ok p := by
    intro b hb
    rcases List.mem_append.1 hb with h | h
    · exact hc.1 b h
    · exact hc.2 b h
  obtain ⟨r2, hr2⟩ := balanceLoop_ok h2 0
  cases prev with
  | none => exact ⟨_, by simp only [calcEffort, prevBalance, bind, Except.bind, hr2]; rfl⟩
  | some p =>
    have h1 : ∀ b ∈ (if p.modifier.isEmpty then p.buttons else p.modifier) ++ c.buttons,
        ∃ q, hf b = .ok q := by
      intro b hb
      have hp' := hp p rfl
      rcases List.mem_append.1 hb with h | h
      · split at h
        · exact hp'.2 b h
        · exact hp'.1 b h
      · exact hc.2 b h
    obtain ⟨r1, hr1⟩ := balanceLoop_ok h1 0
    exact ⟨_, by simp only [calcEffort, prevBalance, bind, Except.bind, hr2, hr1]; rfl⟩

theorem minLoop_ok {hf : HandFinger} {prev : Option Comb} {cs : List Comb}
    (hc : ∀ c ∈ cs, ∃ e, calcEffort hf prev c = .ok e) (e : Nat) (b : Comb) :
    ∃ c, minLoop hf prev cs e b = .ok c := by
  induction cs generalizing e b with
  | nil => exact ⟨b, rfl⟩
  | cons d cs ih =>
    obtain ⟨e', he'⟩ := hc d (by simp)
    rw [minLoop, he']
    simp only [bind, Except.bind]
    split
    · exact ih (fun c h => hc c (by simp [h])) _ _
    · exact ih (fun c h => hc c (by simp [h])) _ _

theorem minLoop_error {hf : HandFinger} (hk : ∀ b e, hf b = .error e → e = .keyError)
    {prev : Option Comb} {cs : List Comb} {e : Nat} {b : Comb} {x : PyErr}
    (h : minLoop hf prev cs e b = .error x) : x = .keyError := by
  induction cs generalizing e b with
  | nil => simp [minLoop] at h
  | cons d cs ih =>
    rw [minLoop] at h
    cases hd : calcEffort hf prev d with
    | error y =>
      simp only [hd, bind, Except.bind, Except.error.injEq] at h
      exact h ▸ calcEffort_error hk hd
    | ok e' =>
      simp only [hd, bind, Except.bind] at h
      split at h <;> exact ih h

theorem choose_ok {hf : HandFinger} {prev : Option Comb} {cs : List Comb} (hne : cs ≠ [])
    (hp : ∀ p, prev = some p → CombFingered hf p) (hc : ∀ c ∈ cs, CombFingered hf c) :
    ∃ c, chooseCombination hf prev cs = .ok c := by
  match cs, hne, hc with
  | [d], _, _ => exact ⟨d, rfl⟩
  | d :: d' :: cs, _, hc =>
    obtain ⟨e, he⟩ := calcEffort_ok hp (hc d (by simp))
    simp only [chooseCombination, he, bind, Except.bind]
    exact minLoop_ok (fun c h => calcEffort_ok hp (hc c (by simp at h ⊢; tauto))) _ _

theorem choose_error {hf : HandFinger} (hk : ∀ b e, hf b = .error e → e = .keyError)
    {prev : Option Comb} {cs : List Comb} {x : PyErr}
    (h : chooseCombination hf prev cs = .error x) : (cs = [] ∧ x = .valueError) ∨ x = .keyError := by
  match cs, h with
  | [], h => simp only [chooseCombination, Except.error.injEq] at h; exact Or.inl ⟨rfl, h.symm⟩
  | [d], h => simp [chooseCombination] at h
  | d :: d' :: cs, h =>
    right
    simp only [chooseCombination] at h
    cases hd : calcEffort hf prev d with
    | error y =>
      simp only [hd, bind, Except.bind, Except.error.injEq] at h
      exact h ▸ calcEffort_error hk hd
    | ok e' =>
      simp only [hd, bind, Except.bind] at h
      exact minLoop_error hk h

/-! ### The loop without a buffer -/

/-- The loop of `Writer.type` on the whole remaining text `w`. -/
def absLoop (hf : HandFinger) (L : KeyboardLayout) : Nat → Text → Option Comb → List Event × Ending
  | 0, _, _ => ([], .outOfFuel)
  | fuel + 1, w, last =>
    match w.take L.bufferLen with
    | [] => ([], .finished)
    | c :: cs =>
      match tryMatch hf L last (c :: cs) with
      | .ok (m, comb) =>
        let r := absLoop hf L fuel (w.drop m.length) (some comb)
        (.typed m comb :: r.1, r.2)
      | .error .keyError =>
        let r := absLoop hf L fuel (w.drop 1) last
        (.skip c :: r.1, r.2)
      | .error e => ([], .raised e)

theorem call_prefix {L : KeyboardLayout} {buf m : Text} {cs : List Comb}
    (h : L.call buf = .ok (m, cs)) : m <+: buf := by
  unfold KeyboardLayout.call at h
  split at h
  · rename_i r hr
    simp only [Except.ok.injEq] at h
    subst h
    exact (longestPrefix_some hr).1
  · simp at h

theorem tryMatch_ok {hf : HandFinger} {L : KeyboardLayout} {last : Option Comb} {buf m : Text}
    {c : Comb} (h : tryMatch hf L last buf = .ok (m, c)) :
    ∃ cs, L.call buf = .ok (m, cs) ∧ 0 < m.length ∧ chooseCombination hf last cs = .ok c := by
  unfold tryMatch at h
  cases hc : L.call buf with
  | error e => simp [hc, bind, Except.bind] at h
  | ok r =>
    obtain ⟨m', cs⟩ := r
    simp only [hc, bind, Except.bind] at h
    split at h
    · rename_i hl
      cases hch : chooseCombination hf last cs with
      | error e => simp [hch] at h
      | ok c' =>
        simp only [hch, Except.ok.injEq, Prod.mk.injEq] at h
        obtain ⟨rfl, rfl⟩ := h
        exact ⟨cs, rfl, hl, hch⟩
    · simp at h

theorem typeLoop_eq_absLoop (hf : HandFinger) (L : KeyboardLayout) (fuel : Nat) (s : TypeState)
    (hb : s.buf.length ≤ L.bufferLen) :
    typeLoop hf L fuel s = absLoop hf L fuel (s.buf ++ s.rest) s.last := by
  induction fuel generalizing s with
  | zero => rfl
  | succ fuel ih =>
    have hbuf : (s.refill L.bufferLen).buf = (s.buf ++ s.rest).take L.bufferLen := by
      simp only [TypeState.refill]
      rw [List.take_append, List.take_of_length_le hb]
    have hrest : (s.refill L.bufferLen).rest = (s.buf ++ s.rest).drop L.bufferLen := by
      simp only [TypeState.refill]
      rw [List.drop_append, List.drop_of_length_le hb, List.nil_append]
    have hlast : (s.refill L.bufferLen).last = s.last := rfl
    rw [typeLoop, absLoop]
    unfold typeStep
    simp only [hbuf, hlast]
    generalize hW : s.buf ++ s.rest = W at *
    cases ht : W.take L.bufferLen with
    | nil => rfl
    | cons c cs =>
      have hlen : (c :: cs).length ≤ L.bufferLen := by
        rw [← ht]; exact List.length_take_le _ _
      cases hm : tryMatch hf L s.last (c :: cs) with
      | ok r =>
        obtain ⟨m, comb⟩ := r
        obtain ⟨combs, hcall, hpos, _⟩ := tryMatch_ok hm
        have hpre := call_prefix hcall
        simp only [hm]
        rw [ih]
        · simp only [hrest]
          have : (c :: cs).drop m.length ++ W.drop L.bufferLen = W.drop m.length := by
            conv_rhs => rw [← List.take_append_drop L.bufferLen W, ht]
            rw [List.drop_append, Nat.sub_eq_zero_of_le hpre.length_le, List.drop_zero]
          rw [this]
        · simp only [List.length_drop]; omega
      | error e =>
        cases e
        case keyError =>
          simp only [hm]
          rw [ih]
          · simp only [hrest]
            have : cs ++ W.drop L.bufferLen = W.drop 1 := by
              conv_rhs => rw [← List.take_append_drop L.bufferLen W, ht]
              simp
            rw [this]
          · simp only [List.length_cons] at hlen ⊢; omega
        all_goals simp only [hm]

theorem typeText_eq (hf : HandFinger) (L : KeyboardLayout) (last : Option Comb) (text : Text) :
    typeText hf L last text = absLoop hf L (text.length + 1) text last := by
  unfold typeText
  rw [typeLoop_eq_absLoop _ _ _ _ (by simp)]
  simp

/-- One step of `absLoop`, by cases. -/
theorem absLoop_cases (hf : HandFinger) (L : KeyboardLayout) (fuel : Nat) (w : Text)
    (last : Option Comb) :
    (w.take L.bufferLen = [] ∧ absLoop hf L (fuel + 1) w last = ([], .finished)) ∨
    (∃ m comb, tryMatch hf L last (w.take L.bufferLen) = .ok (m, comb) ∧ w.take L.bufferLen ≠ [] ∧
      absLoop hf L (fuel + 1) w last =
        (.typed m comb :: (absLoop hf L fuel (w.drop m.length) (some comb)).1,
          (absLoop hf L fuel (w.drop m.length) (some comb)).2)) ∨
    (∃ c cs, w = c :: cs ∧ tryMatch hf L last (w.take L.bufferLen) = .error .keyError ∧
      w.take L.bufferLen ≠ [] ∧
      absLoop hf L (fuel + 1) w last =
        (.skip c :: (absLoop hf L fuel cs last).1, (absLoop hf L fuel cs last).2)) ∨
    (∃ e, e ≠ .keyError ∧ tryMatch hf L last (w.take L.bufferLen) = .error e ∧
      w.take L.bufferLen ≠ [] ∧ absLoop hf L (fuel + 1) w last = ([], .raised e)) := by
  rw [absLoop]
  cases ht : w.take L.bufferLen with
  | nil => left; simp
  | cons c cs =>
    right
    cases hm : tryMatch hf L last (c :: cs) with
    | ok r => left; exact ⟨r.1, r.2, rfl, by simp, by simp only [hm]⟩
    | error e =>
      right
      by_cases he : e = .keyError
      · left
        subst he
        obtain ⟨w', rfl⟩ : ∃ w', w = c :: w' := by
          cases w with
          | nil => simp at ht
          | cons a w' =>
            cases hB : L.bufferLen with
            | zero => simp [hB] at ht
            | succ n => simp [hB] at ht; exact ⟨w', by rw [ht.1]⟩
        exact ⟨c, w', rfl, rfl, by simp, by simp only [hm, List.drop_one, List.tail_cons]⟩
      · right
        refine ⟨e, he, rfl, by simp, ?_⟩
        cases e <;> simp_all

theorem take_pos_length {m w : Text} {n : Nat} (h : m <+: w.take n) : m <+: w :=
  h.trans (List.take_prefix _ _)

/-- Fuel is never exhausted. -/
theorem absLoop_ending (hf : HandFinger) (L : KeyboardLayout) (fuel : Nat) (w : Text)
    (last : Option Comb) (h : w.length < fuel) : (absLoop hf L fuel w last).2 ≠ .outOfFuel := by
  induction fuel generalizing w last with
  | zero => omega
  | succ fuel ih =>
    rcases absLoop_cases hf L fuel w last with ⟨_, h1⟩ | ⟨m, comb, hm, _, h1⟩ | ⟨c, cs, rfl, hm, _, h1⟩ |
      ⟨e, _, _, _, h1⟩
    · rw [h1]; simp
    · rw [h1]
      obtain ⟨cs, hc, hp, _⟩ := tryMatch_ok hm
      exact ih _ _ (by simp only [List.length_drop]; have := (take_pos_length (call_prefix hc)).length_le; omega)
    · rw [h1]
      exact ih _ _ (by simp only [List.length_cons] at h; omega)
    · rw [h1]; simp

/-- The events account for a prefix of the text; for all of it if the loop finishes. -/
theorem absLoop_text (hf : HandFinger) (L : KeyboardLayout) (fuel : Nat) (w : Text)
    (last : Option Comb) :
    eventsText (absLoop hf L fuel w last).1 <+: w ∧
      (0 < L.bufferLen → (absLoop hf L fuel w last).2 = .finished →
        eventsText (absLoop hf L fuel w last).1 = w) := by
  induction fuel generalizing w last with
  | zero => simp [absLoop, eventsText]
  | succ fuel ih =>
    rcases absLoop_cases hf L fuel w last with ⟨h0, h1⟩ | ⟨m, comb, hm, _, h1⟩ | ⟨c, cs, rfl, hm, _, h1⟩ |
      ⟨e, _, _, _, h1⟩
    · rw [h1]
      refine ⟨by simp [eventsText], ?_⟩
      intro hB _
      rcases List.take_eq_nil_iff.1 h0 with h | h
      · omega
      · simp [eventsText, h]
    · rw [h1]
      obtain ⟨cs, hc, hp, _⟩ := tryMatch_ok hm
      obtain ⟨w', hw'⟩ := take_pos_length (call_prefix hc)
      subst hw'
      have hd : (m ++ w').drop m.length = w' := by simp
      rw [hd]
      obtain ⟨i1, i2⟩ := ih w' (some comb)
      have e : eventsText (Event.typed m comb :: (absLoop hf L fuel w' (some comb)).1) =
          m ++ eventsText (absLoop hf L fuel w' (some comb)).1 := rfl
      simp only [e]
      refine ⟨(List.prefix_append_right_inj m).2 i1, fun hB hf' => by rw [i2 hB hf']⟩
    · rw [h1]
      obtain ⟨i1, i2⟩ := ih cs last
      have e : eventsText (Event.skip c :: (absLoop hf L fuel cs last).1) =
          c :: eventsText (absLoop hf L fuel cs last).1 := rfl
      simp only [e]
      refine ⟨?_, fun hB hf' => by rw [i2 hB hf']⟩
      obtain ⟨r, hr⟩ := i1
      exact ⟨r, by rw [List.cons_append, hr]⟩
    · rw [h1]
      exact ⟨by simp [eventsText], by simp⟩

theorem absLoop_length (hf : HandFinger) (L : KeyboardLayout) (fuel : Nat) (w : Text)
    (last : Option Comb) : (absLoop hf L fuel w last).1.length ≤ w.length := by
  induction fuel generalizing w last with
  | zero => simp [absLoop]
  | succ fuel ih =>
    rcases absLoop_cases hf L fuel w last with ⟨h0, h1⟩ | ⟨m, comb, hm, _, h1⟩ | ⟨c, cs, rfl, hm, _, h1⟩ |
      ⟨e, _, _, _, h1⟩
    · rw [h1]; simp
    · rw [h1]
      obtain ⟨cs, hc, hp, _⟩ := tryMatch_ok hm
      have := (take_pos_length (call_prefix hc)).length_le
      have := ih (w.drop m.length) (some comb)
      simp only [List.length_cons, List.length_drop] at this ⊢
      omega
    · rw [h1]
      have := ih cs last
      simp only [List.length_cons]; omega
    · rw [h1]; simp

/-- The combination pressed last after some events. -/
def lastAfter (last : Option Comb) : List Event → Option Comb
  | [] => last
  | .typed _ c :: evs => lastAfter (some c) evs
  | .skip _ :: evs => lastAfter last evs

/-- Splitting a run at an event: the rest of the run is a run on the remaining text. -/
theorem absLoop_split {hf : HandFinger} {L : KeyboardLayout} {fuel : Nat} {w : Text}
    {last : Option Comb} {pre post : List Event} {ev : Event}
    (h : (absLoop hf L fuel w last).1 = pre ++ ev :: post) :
    ∃ fuel' w', w = eventsText pre ++ w' ∧ fuel' < fuel ∧
      (absLoop hf L (fuel' + 1) w' (lastAfter last pre)).1 = ev :: post := by
  induction pre generalizing fuel w last with
  | nil =>
    cases fuel with
    | zero => simp [absLoop] at h
    | succ fuel => exact ⟨fuel, w, rfl, by omega, h⟩
  | cons p pre ih =>
    cases fuel with
    | zero => simp [absLoop] at h
    | succ fuel =>
      rcases absLoop_cases hf L fuel w last with ⟨h0, h1⟩ | ⟨m, comb, hm, _, h1⟩ |
        ⟨c, cs, rfl, hm, _, h1⟩ | ⟨e, _, _, _, h1⟩
      · rw [h1] at h; simp at h
      · rw [h1] at h
        simp only [List.cons_append, List.cons.injEq] at h
        obtain ⟨rfl, h⟩ := h
        obtain ⟨f', w', hw', hlt, h'⟩ := ih h
        obtain ⟨cs, hc, hp, _⟩ := tryMatch_ok hm
        obtain ⟨w'', hw''⟩ := take_pos_length (call_prefix hc)
        subst hw''
        simp only [List.drop_left] at hw'
        exact ⟨f', w', by rw [hw']; simp [eventsText, eventText], by omega, h'⟩
      · rw [h1] at h
        simp only [List.cons_append, List.cons.injEq] at h
        obtain ⟨rfl, h⟩ := h
        obtain ⟨f', w', hw', hlt, h'⟩ := ih h
        exact ⟨f', w', by rw [hw']; simp [eventsText, eventText], by omega, h'⟩
      · rw [h1] at h; simp at h

theorem mem_producers_fingered {hf : HandFinger} {layers : List Layer} (hF : Fingered hf layers)
    {t : Text} {c : Comb} (h : c ∈ producers layers t) : CombFingered hf c := by
  obtain ⟨m, b, rfl, l, hl, hm, hb⟩ := mem_producers.1 h
  refine ⟨fun x hx => (hF l hl).1 m hm x hx, fun x hx => ?_⟩
  simp only [List.mem_singleton] at hx
  subst hx
  exact (hF l hl).2 _ hb

theorem producers_ne_nil {layers : List Layer} (hR : Reachable layers) {t : Text}
    (h : HasText layers t) : producers layers t ≠ [] := by
  obtain ⟨l, hl, b, hb⟩ := h
  obtain ⟨m, hm⟩ := List.exists_mem_of_ne_nil _ (hR l hl)
  exact List.ne_nil_of_mem (mem_producers.2 ⟨m, b, rfl, l, hl, hm, hb⟩)

section
variable {name : String} {layers : List Layer} {kb : PhysicalKeyboard} {hf : HandFinger}

theorem hasText_le : ∀ t, HasText layers t → t.length ≤ (KeyboardLayout.mk' name layers kb).bufferLen :=
  fun _ h => length_le_bufferLen h

theorem typed_head {last : Option Comb} {w m : Text} {c : Comb}
    (h : tryMatch hf (KeyboardLayout.mk' name layers kb) last
      (w.take (KeyboardLayout.mk' name layers kb).bufferLen) = .ok (m, c)) :
    m ≠ [] ∧ LongestMatch layers w m ∧ c ∈ producers layers m := by
  obtain ⟨cs, hc, hp, hch⟩ := tryMatch_ok h
  obtain ⟨h1, rfl⟩ := call_ok hc
  exact ⟨List.ne_nil_of_length_pos hp, (longestMatch_take hasText_le).1 h1, choose_mem hch⟩

theorem tryMatch_longest {last : Option Comb} {buf m : Text} (h : LongestMatch layers buf m)
    (hm : m ≠ []) :
    tryMatch hf (KeyboardLayout.mk' name layers kb) last buf =
      (chooseCombination hf last (producers layers m)).map fun c => (m, c) := by
  unfold tryMatch
  rw [call_eq_ok h]
  have : m.length > 0 := List.length_pos_iff.2 hm
  simp only [bind, Except.bind, this, if_true]
  cases chooseCombination hf last (producers layers m) <;> rfl

theorem skip_head {last : Option Comb} {w : Text}
    (hF : Fingered hf layers) (hl : ∀ p, last = some p → CombFingered hf p)
    (h : tryMatch hf (KeyboardLayout.mk' name layers kb) last
      (w.take (KeyboardLayout.mk' name layers kb).bufferLen) = .error .keyError) :
    NoMatch layers w := by
  rcases match_or_not name layers kb
      (w.take (KeyboardLayout.mk' name layers kb).bufferLen) with ⟨m, hm⟩ | hn
  · exfalso
    by_cases he : m = []
    · unfold tryMatch at h
      rw [call_eq_ok hm] at h
      simp [bind, Except.bind, he] at h
    · rw [tryMatch_longest hm he] at h
      by_cases hp : producers layers m = []
      · rw [hp] at h
        simp [chooseCombination, Except.map] at h
      · obtain ⟨c, hc⟩ := choose_ok hp hl (fun c h => mem_producers_fingered hF h)
        simp [hc, Except.map] at h
  · exact (noMatch_take hasText_le).1 hn

theorem typed_fingered {fuel : Nat} {w : Text} {last : Option Comb} (hF : Fingered hf layers) :
    ∀ m c, Event.typed m c ∈ (absLoop hf (KeyboardLayout.mk' name layers kb) fuel w last).1 →
      CombFingered hf c := by
  induction fuel generalizing w last with
  | zero => simp [absLoop]
  | succ fuel ih =>
    intro m c hmem
    rcases absLoop_cases hf (KeyboardLayout.mk' name layers kb) fuel w last with ⟨h0, h1⟩ |
      ⟨m', comb, hm, _, h1⟩ | ⟨c', cs, rfl, hm, _, h1⟩ | ⟨e, _, _, _, h1⟩
    · rw [h1] at hmem; simp at hmem
    · rw [h1] at hmem
      rcases List.mem_cons.1 hmem with h | h
      · injection h with h2 h3
        rw [h3]
        exact mem_producers_fingered hF (typed_head hm).2.2
      · exact ih _ _ h
    · rw [h1] at hmem
      rcases List.mem_cons.1 hmem with h | h
      · simp at h
      · exact ih _ _ h
    · rw [h1] at hmem; simp at hmem

theorem lastAfter_some {last : Option Comb} {evs : List Event} {p : Comb}
    (h : lastAfter last evs = some p) : last = some p ∨ ∃ m, Event.typed m p ∈ evs := by
  induction evs generalizing last with
  | nil => exact Or.inl h
  | cons e evs ih =>
    cases e with
    | typed m c =>
      rcases ih h with h | ⟨m', h⟩
      · right; exact ⟨m, by injection h with h; simp [h]⟩
      · right; exact ⟨m', by simp [h]⟩
    | skip ch =>
      rcases ih h with h | ⟨m', h⟩
      · exact Or.inl h
      · right; exact ⟨m', by simp [h]⟩

/-- If everything is well formed the loop ends normally. -/
theorem absLoop_finished (hk : ∀ b e, hf b = .error e → e = .keyError)
    (hR : Reachable layers) (hE : NoEmptyText layers) {fuel : Nat} {w : Text}
    {last : Option Comb} (h : w.length < fuel) :
    (absLoop hf (KeyboardLayout.mk' name layers kb) fuel w last).2 = .finished := by
  induction fuel generalizing w last with
  | zero => omega
  | succ fuel ih =>
    rcases absLoop_cases hf (KeyboardLayout.mk' name layers kb) fuel w last with ⟨_, h1⟩ |
      ⟨m, comb, hm, _, h1⟩ | ⟨c, cs, rfl, hm, _, h1⟩ | ⟨e, he, hm, _, h1⟩
    · rw [h1]
    · rw [h1]
      obtain ⟨cs, hc, hp, _⟩ := tryMatch_ok hm
      exact ih (by simp only [List.length_drop]; have := (take_pos_length (call_prefix hc)).length_le; omega)
    · rw [h1]
      exact ih (by simp only [List.length_cons] at h; omega)
    · exfalso
      rcases match_or_not name layers kb
          (w.take (KeyboardLayout.mk' name layers kb).bufferLen) with ⟨m, hm'⟩ | hn
      · have hne : m ≠ [] := by rintro rfl; exact hE hm'.1
        rw [tryMatch_longest hm' hne] at hm
        cases hch : chooseCombination hf last (producers layers m) with
        | ok c => simp [hch, Except.map] at hm
        | error x =>
          simp only [hch, Except.map, Except.error.injEq] at hm
          subst hm
          rcases choose_error hk hch with ⟨h2, _⟩ | h2
          · exact producers_ne_nil hR hm'.1 h2
          · exact he h2
      · unfold tryMatch at hm
        rw [call_eq_error hn] at hm
        simp only [bind, Except.bind, Except.error.injEq] at hm
        exact he hm.symm

end

/-- Two texts that agree up to `bufferLen` characters after the start of an event lead to the same
event there. -/
theorem absLoop_agree {hf : HandFinger} {L : KeyboardLayout} {fuel fuel' : Nat} {x y : Text}
    {last : Option Comb} {pre post : List Event} {ev : Event}
    (h : (absLoop hf L fuel x last).1 = pre ++ ev :: post) (hf' : y.length < fuel')
    (hxy : x.take ((eventsText pre).length + L.bufferLen) =
      y.take ((eventsText pre).length + L.bufferLen)) :
    ∃ post', (absLoop hf L fuel' y last).1 = pre ++ ev :: post' := by
  induction pre generalizing fuel fuel' x y last with
  | nil =>
    simp only [eventsText, List.flatMap_nil, List.length_nil, Nat.zero_add] at hxy
    cases fuel with
    | zero => simp [absLoop] at h
    | succ fuel =>
      cases fuel' with
      | zero => omega
      | succ fuel' =>
        rw [absLoop] at h ⊢
        rw [← hxy]
        cases ht : x.take L.bufferLen with
        | nil => simp [ht] at h
        | cons c cs =>
          simp only [ht] at h ⊢
          cases hm : tryMatch hf L last (c :: cs) with
          | ok r =>
            simp only [hm, List.nil_append, List.cons.injEq] at h ⊢
            exact ⟨_, h.1, rfl⟩
          | error e =>
            cases e
            case keyError =>
              simp only [hm, List.nil_append, List.cons.injEq] at h ⊢
              exact ⟨_, h.1, rfl⟩
            all_goals simp [hm] at h
  | cons p pre ih =>
    have hB : x.take L.bufferLen = y.take L.bufferLen := by
      have := congrArg (List.take L.bufferLen) hxy
      rwa [List.take_take, List.take_take, Nat.min_eq_left (by omega)] at this
    cases fuel with
    | zero => simp [absLoop] at h
    | succ fuel =>
      cases fuel' with
      | zero => omega
      | succ fuel' =>
        have hdrop : ∀ k, (eventsText (p :: pre)).length = k + (eventsText pre).length →
            (x.drop k).take ((eventsText pre).length + L.bufferLen) =
              (y.drop k).take ((eventsText pre).length + L.bufferLen) := by
          intro k hk
          rw [List.take_drop, List.take_drop]
          have e : (eventsText (p :: pre)).length + L.bufferLen =
            k + ((eventsText pre).length + L.bufferLen) := by omega
          rw [e] at hxy
          rw [hxy]
        rcases absLoop_cases hf L fuel x last with ⟨h0, h1⟩ | ⟨m, comb, hm, hne, h1⟩ |
          ⟨c, cs, rfl, hm, hne, h1⟩ | ⟨e, _, _, _, h1⟩
        · rw [h1] at h; simp at h
        · rw [h1] at h
          simp only [List.cons_append, List.cons.injEq] at h
          obtain ⟨rfl, h⟩ := h
          rw [hB] at hm hne
          rcases absLoop_cases hf L fuel' y last with ⟨h0, h2⟩ | ⟨m2, comb2, hm2, _, h2⟩ |
            ⟨c2, cs2, rfl, hm2, _, h2⟩ | ⟨e, _, hm2, _, h2⟩
          · exact absurd h0 hne
          · rw [hm] at hm2
            simp only [Except.ok.injEq, Prod.mk.injEq] at hm2
            obtain ⟨rfl, rfl⟩ := hm2
            obtain ⟨cs, hc, hp, _⟩ := tryMatch_ok hm
            have hl := (take_pos_length (call_prefix hc)).length_le
            obtain ⟨post', hp'⟩ := ih (y := y.drop m.length) (fuel' := fuel') h (by simp only [List.length_drop]; omega)
              (hdrop m.length (by simp [eventsText, eventText]))
            exact ⟨post', by rw [h2, hp']; rfl⟩
          · rw [hm] at hm2; simp at hm2
          · rw [hm] at hm2; simp at hm2
        · rw [h1] at h
          simp only [List.cons_append, List.cons.injEq] at h
          obtain ⟨rfl, h⟩ := h
          rw [hB] at hm hne
          rcases absLoop_cases hf L fuel' y last with ⟨h0, h2⟩ | ⟨m2, comb2, hm2, _, h2⟩ |
            ⟨c2, cs2, rfl, hm2, _, h2⟩ | ⟨e, he, hm2, _, h2⟩
          · exact absurd h0 hne
          · rw [hm] at hm2; simp at hm2
          · have hcc : c = c2 := by
              cases hb : L.bufferLen with
              | zero => simp [hb] at hne
              | succ n => simp [hb] at hB; exact hB.1
            subst hcc
            obtain ⟨post', hp'⟩ := ih (y := cs2) (fuel' := fuel') h (by simp only [List.length_cons] at hf'; omega)
              (by
                have := hdrop 1 (by simp [eventsText, eventText]; omega)
                simpa using this)
            exact ⟨post', by rw [h2, hp']; rfl⟩
          · rw [hm] at hm2
            simp only [Except.error.injEq] at hm2
            exact absurd hm2.symm he
        · rw [h1] at h; simp at h

end Lulua
