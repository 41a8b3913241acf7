import Verif.Spec.Filters
import Verif.Proofs.Formats
import Verif.Proofs.Text

/-!
# Lemmas about the filters and their composition
-/

namespace Lulua
open Spec

/-! ### Generators -/

theorem Gen.mem_flatMap {α β : Type} {f : α → Gen β} {xs : List α} {e : Option PyErr} {y : β}
    (h : y ∈ (Gen.flatMap f xs e).items) : ∃ x ∈ xs, y ∈ (f x).items := by
  induction xs with
  | nil => simp [Gen.flatMap] at h
  | cons x xs ih =>
    rw [Gen.flatMap] at h
    split at h
    · exact ⟨x, by simp, h⟩
    · rcases List.mem_append.1 h with h | h
      · exact ⟨x, by simp, h⟩
      · obtain ⟨z, h1, h2⟩ := ih h
        exact ⟨z, by simp [h1], h2⟩

theorem Gen.flatMap_error {α β : Type} {f : α → Gen β} {xs : List α} {e : Option PyErr} {err : PyErr}
    (h : (Gen.flatMap f xs e).error = some err) : (∃ x ∈ xs, (f x).error = some err) ∨ e = some err := by
  induction xs with
  | nil => exact .inr h
  | cons x xs ih =>
    rw [Gen.flatMap] at h
    split at h
    · rename_i e' he
      exact .inl ⟨x, by simp, he.trans h⟩
    · rcases ih h with ⟨z, h1, h2⟩ | h
      · exact .inl ⟨z, by simp [h1], h2⟩
      · exact .inr h

theorem Gen.flatMap_forall₂ {α β : Type} {f : α → Gen β} {xs : List α} {yss : List (List β)}
    (h : List.Forall₂ (fun x ys => f x = ⟨ys, none⟩) xs yss) : Gen.flatMap f xs none = ⟨yss.flatten, none⟩ := by
  induction h with
  | nil => rfl
  | cons h _ ih => rw [Gen.flatMap, h, ih]; rfl

theorem Gen.flatMap_single {α β : Type} {f : α → Gen β} {x : α} {ys : List β} (h : f x = ⟨ys, none⟩) :
    Gen.flatMap f [x] none = ⟨ys, none⟩ := by
  simp [Gen.flatMap, h]

/-! ### tar -/

theorem tarFrom_none (fd : Bytes) (pos : Nat) : tarFrom none fd pos = filterTar fd pos := by
  have hs : ∀ n b, (shortRead none n b).isSome = false := fun n b => by unfold shortRead; split <;> rfl
  induction hn : fd.length using Nat.strong_induction_on generalizing fd pos with
  | _ n ih =>
    subst hn
    rw [tarFrom, filterTar]
    split
    · rename_i x e hx
      unfold tarStep at hx
      simp only [hs, Bool.false_eq_true, if_false] at hx
      split at hx
      · rename_i h1
        rw [dif_pos h1]
        simp only [Prod.mk.injEq, Sum.inr.injEq] at hx
        rw [← hx.1, ← hx.2]; rfl
      · rename_i h1
        rw [dif_neg h1]
        split at hx
        · rename_i h2
          rw [if_pos h2]
          simp only [Prod.mk.injEq, Sum.inr.injEq] at hx
          rw [← hx.1, ← hx.2]; rfl
        · rename_i h2
          rw [if_neg h2]
          split at hx
          · rename_i e' h3
            simp only [h3]
            simp only [Prod.mk.injEq, Sum.inr.injEq] at hx
            rw [← hx.1, ← hx.2]; rfl
          · rename_i size h3
            split at hx <;> simp at hx
    · rename_i x fd' pos' hx
      have hl := tarStep_shorter hx
      rw [ih _ hl _ _ rfl]
      unfold tarStep at hx
      simp only [hs, Bool.false_eq_true, if_false] at hx
      split at hx
      · simp at hx
      · rename_i h1
        rw [dif_neg h1]
        split at hx
        · simp at hx
        · rename_i h2
          rw [if_neg h2]
          split at hx
          · simp at hx
          · rename_i size h3
            simp only [h3]
            split at hx
            · rename_i h4
              rw [if_pos h4]
              simp only [Prod.mk.injEq, Sum.inl.injEq] at hx
              rw [← hx.1, ← hx.2.1, ← hx.2.2]; rfl
            · rename_i h4
              rw [if_neg h4]
              simp only [Prod.mk.injEq, Sum.inl.injEq] at hx
              rw [← hx.1, ← hx.2.1, ← hx.2.2]; rfl

theorem intOctal_error {b : Bytes} {e : PyErr} (h : intOctal b = .error e) : e = .valueError := by
  unfold intOctal at h
  dsimp only at h
  split at h
  · cases h
  · cases h; rfl

theorem tarStep_end {fail : Option PyErr} {fd : Bytes} {pos : Nat} {x : Option Bytes} {e : Option PyErr}
    (h : tarStep fail fd pos = (x, .inr e)) :
    e = fail ∨ e = none ∨ e = some .assertionError ∨ e = some .valueError := by
  unfold tarStep at h
  split at h
  · simp only [Prod.mk.injEq, Sum.inr.injEq] at h; exact .inl h.2.symm
  · split at h
    · simp only [Prod.mk.injEq, Sum.inr.injEq] at h; exact .inr (.inl h.2.symm)
    · split at h
      · simp only [Prod.mk.injEq, Sum.inr.injEq] at h; exact .inr (.inr (.inl h.2.symm))
      · split at h
        · rename_i e' he
          simp only [Prod.mk.injEq, Sum.inr.injEq] at h
          rw [intOctal_error he] at h
          exact .inr (.inr (.inr h.2.symm))
        · split at h
          · split at h
            · simp only [Prod.mk.injEq, Sum.inr.injEq] at h; exact .inl h.2.symm
            · split at h
              · simp only [Prod.mk.injEq, Sum.inr.injEq] at h; exact .inl h.2.symm
              · simp at h
          · split at h
            · simp only [Prod.mk.injEq, Sum.inr.injEq] at h; exact .inl h.2.symm
            · simp at h

theorem tarFrom_error (fail : Option PyErr) (fd : Bytes) (pos : Nat) :
    (tarFrom fail fd pos).error = fail ∨ (tarFrom fail fd pos).error = none ∨
      (tarFrom fail fd pos).error = some .assertionError ∨ (tarFrom fail fd pos).error = some .valueError := by
  induction hn : fd.length using Nat.strong_induction_on generalizing fd pos with
  | _ n ih =>
    subst hn
    rw [tarFrom]
    split
    · rename_i hx; exact tarStep_end hx
    · rename_i hx; exact ih _ (tarStep_shorter hx) _ _ rfl

theorem tarFrom_dead (e : PyErr) (pos : Nat) : tarFrom (some e) [] pos = ⟨[], some e⟩ := by
  rw [tarFrom]
  have : tarStep (some e) [] pos = (none, .inr (some e)) := by
    unfold tarStep
    have : (shortRead (some e) 512 []).isSome = true := rfl
    rw [if_pos this]
  split
  · rename_i hx; rw [this] at hx; cases hx; rfl
  · rename_i hx; rw [this] at hx; cases hx

/-- One round for an entry with `size` bytes announced. -/
theorem tarStep_header {fail : Option PyErr} {h : Bytes} {size : Nat} (hh : IsHeader h size) (hs : size < 8 ^ 11)
    (rest : Bytes) (pos : Nat) (hp : 512 ∣ pos) :
    tarStep fail (h ++ rest) pos =
      if 0 < size then
        if (shortRead fail size rest).isSome then (none, .inr fail)
        else if (shortRead fail (tarPad size) (rest.drop size)).isSome then (some (rest.take size), .inr fail)
        else (some (rest.take size), .inl ((rest.drop size).drop (tarPad size), pos + 512 + size + tarPad size))
      else (none, .inl (rest, pos + 512)) := by
  have e1 : (h ++ rest).take 512 = h := by rw [← hh.length, List.take_left]
  have e2 : (h ++ rest).drop 512 = rest := by rw [← hh.length, List.drop_left]
  have e3 : ∀ n, tarPad (pos + 512 + n) = tarPad n := by
    intro n
    obtain ⟨m, rfl⟩ := hp
    unfold tarPad
    rw [show 512 * m + 512 + n = n + 512 * (m + 1) by ring, Nat.add_mul_mod_self_left]
  have e4 : tarPad (pos + 512) = 0 := by have := e3 0; simpa [tarPad] using this
  have e5 : shortRead fail 512 (h ++ rest) = none := by
    unfold shortRead; rw [if_neg]; rw [List.length_append, hh.length]; omega
  have e6 : shortRead fail 0 rest = none := by unfold shortRead; rw [if_neg (by omega)]
  unfold tarStep
  rw [e1, e2, e5, if_neg (by simp), if_neg (not_or.2 (header_ne_empty hh)), if_neg (by rw [hh.magic]; simp [tarMagic]),
    header_size hh hs]
  simp only [Int.toNat_natCast, e3, e4, e6]
  by_cases h0 : 0 < size
  · simp [h0]
  · simp [h0]

/-- Entries that are complete are read even if reading fails later. -/
theorem tarFrom_archive (fail : Option PyErr) (es : List TarEntry) (hes : ∀ e ∈ es, e.Ok) (rest : Bytes) (pos : Nat)
    (hp : 512 ∣ pos) : ∃ pos', 512 ∣ pos' ∧ tarFrom fail (archive es ++ rest) pos =
      ⟨(es.map TarEntry.content).filter (fun c => decide (c ≠ [])) ++ (tarFrom fail rest pos').items,
        (tarFrom fail rest pos').error⟩ := by
  induction es generalizing pos with
  | nil => exact ⟨pos, hp, by simp [archive]⟩
  | cons e es ih =>
    have he := hes e (by simp)
    have hpad := tarPad_eq he.padding.1 he.padding.2
    have e1 : archive (e :: es) ++ rest = e.header ++ (e.content ++ (e.padding ++ (archive es ++ rest))) := by
      simp [archive]
    have key : ∀ x pos', 512 ∣ pos' → tarStep fail (archive (e :: es) ++ rest) pos = (x, .inl (archive es ++ rest, pos')) →
        x.toList = [e.content].filter (fun c => decide (c ≠ [])) → ∃ pos', 512 ∣ pos' ∧
        tarFrom fail (archive (e :: es) ++ rest) pos = ⟨((e :: es).map TarEntry.content).filter (fun c => decide (c ≠ [])) ++
          (tarFrom fail rest pos').items, (tarFrom fail rest pos').error⟩ := by
      intro x p1 h1 h2 h3
      obtain ⟨p2, h4, h5⟩ := ih (fun y hy => hes y (by simp [hy])) p1 h1
      refine ⟨p2, h4, ?_⟩
      rw [tarFrom]
      split
      · rename_i hx; rw [h2] at hx; cases hx
      · rename_i hx
        rw [h2] at hx; cases hx
        rw [h5, h3, List.map_cons, List.filter_cons]
        by_cases hc : e.content = [] <;> simp [hc]
    have hstep := tarStep_header (fail := fail) he.header he.small (e.content ++ (e.padding ++ (archive es ++ rest))) pos hp
    rw [← e1] at hstep
    by_cases h0 : 0 < e.content.length
    · have hc : e.content ≠ [] := List.length_pos_iff.1 h0
      have s1 : shortRead fail e.content.length (e.content ++ (e.padding ++ (archive es ++ rest))) = none := by
        unfold shortRead; rw [if_neg]; rw [List.length_append]; omega
      have s2 : shortRead fail e.padding.length (e.padding ++ (archive es ++ rest)) = none := by
        unfold shortRead; rw [if_neg]; rw [List.length_append]; omega
      rw [if_pos h0, hpad, List.drop_left, List.take_left, s1, s2, List.drop_left, if_neg (by simp), if_neg (by simp)] at hstep
      refine key _ _ ?_ hstep (by simp [hc])
      have := he.padding.2; omega
    · have hc : e.content = [] := List.length_eq_zero_iff.1 (by omega)
      have hq : e.padding = [] := by
        rw [hc] at hpad
        exact List.length_eq_zero_iff.1 (by rw [← hpad]; rfl)
      rw [if_neg h0, hc, hq, List.nil_append, List.nil_append] at hstep
      exact key _ _ (by omega) hstep (by simp [hc])

/-- If reading fails within an entry, it is there if its content is complete. -/
theorem tarFrom_cut (e : PyErr) {b : TarEntry} (hb : b.Ok) (n : Nat)
    (hn : n < (b.header ++ b.content ++ b.padding).length) (pos : Nat) (hp : 512 ∣ pos) :
    tarFrom (some e) ((b.header ++ b.content ++ b.padding).take n) pos =
      ⟨if 512 + b.content.length ≤ n then [b.content] else [], some e⟩ := by
  have hl := hb.header.length
  have hpad := tarPad_eq hb.padding.1 hb.padding.2
  have fin : ∀ (x : Option Bytes) (fd : Bytes), tarStep (some e) fd pos = (x, .inr (some e)) →
      tarFrom (some e) fd pos = ⟨x.toList, some e⟩ := by
    intro x fd h
    rw [tarFrom]
    split
    · rename_i hx; rw [h] at hx; cases hx; rfl
    · rename_i hx; rw [h] at hx; cases hx
  simp only [List.length_append, hl] at hn
  by_cases h1 : n < 512
  · rw [if_neg (by omega)]
    refine fin none _ ?_
    unfold tarStep
    rw [if_pos]
    unfold shortRead
    rw [if_pos]
    · rfl
    · rw [List.length_take]; omega
  · have e1 : (b.header ++ b.content ++ b.padding).take n = b.header ++ (b.content ++ b.padding).take (n - 512) := by
      rw [List.append_assoc, List.take_append, List.take_of_length_le (by omega), hl]
    have hc : 0 < b.content.length := by
      by_contra h0
      have h2 : b.content.length = 0 := by omega
      have h3 := hb.padding
      rw [h2] at h3 hn
      omega
    rw [e1]
    have hstep := tarStep_header (fail := some e) hb.header hb.small ((b.content ++ b.padding).take (n - 512)) pos hp
    rw [if_pos hc] at hstep
    by_cases h2 : 512 + b.content.length ≤ n
    · have s1 : shortRead (some e) b.content.length ((b.content ++ b.padding).take (n - 512)) = none := by
        unfold shortRead; rw [if_neg]; rw [List.length_take, List.length_append]; omega
      have s2 : shortRead (some e) b.padding.length (((b.content ++ b.padding).take (n - 512)).drop b.content.length) = some e := by
        unfold shortRead; rw [if_pos]; rw [List.length_drop, List.length_take, List.length_append]; omega
      have s3 : ((b.content ++ b.padding).take (n - 512)).take b.content.length = b.content := by
        rw [List.take_take, Nat.min_eq_left (by omega), List.take_left]
      rw [s1, hpad, s2, s3, if_neg (by simp), if_pos (by rfl)] at hstep
      rw [fin _ _ hstep, if_pos h2]
      rfl
    · have s1 : shortRead (some e) b.content.length ((b.content ++ b.padding).take (n - 512)) = some e := by
        unfold shortRead; rw [if_pos]; rw [List.length_take, List.length_append]; omega
      rw [s1, if_pos (by rfl)] at hstep
      rw [fin _ _ hstep, if_neg h2]
      rfl

/-! ### Names of files -/

theorem nameLine_rstrip {w : FilterWorld} {line name : Text} (h : NameLine w line name) :
    pyRstrip w.isSpace line = name := by
  obtain ⟨⟨blank, rfl, hb⟩, hl⟩ := h
  unfold pyRstrip
  rw [List.reverse_append, List.dropWhile_append_of_pos (by simpa using hb)]
  cases hr : name.reverse with
  | nil => rw [List.reverse_eq_nil_iff] at hr; subst hr; rfl
  | cons c r =>
    have hn : name = r.reverse ++ [c] := by rw [← List.reverse_reverse name, hr]; simp
    rw [List.dropWhile_cons_of_neg (by rw [hl c (by rw [hn]; simp)]; simp), ← hr, List.reverse_reverse]

/-! ### Documents -/

theorem select_subset (f : Text → Attrs → Bool) (s : SelState) (ts : List Token) : ∀ t ∈ selectFrom f s ts, t ∈ ts := by
  induction ts generalizing s with
  | nil => simp [selectFrom]
  | cons t ts ih =>
    intro x hx
    rw [selectFrom] at hx
    split at hx
    · rcases List.mem_cons.1 hx with rfl | hx
      · simp
      · exact .tail _ (ih _ x hx)
    · exact .tail _ (ih _ x hx)

/-- Trees have only these tokens. -/
def PlainToken : Token → Prop
  | .entity _ => False
  | .other => False
  | _ => True

mutual
theorem walk_plain (n : HNode) : ∀ t ∈ n.walk, PlainToken t := by
  cases n with
  | element n a cs =>
    intro t ht
    rw [HNode.walk] at ht
    simp only [List.mem_cons, List.mem_append, List.not_mem_nil, or_false] at ht
    rcases ht with rfl | ht | rfl
    · trivial
    · exact walkAll_plain cs t ht
    · trivial
  | _ => intro t ht; rw [HNode.walk] at ht; rcases List.mem_singleton.1 ht with rfl; trivial
theorem walkAll_plain (ns : List HNode) : ∀ t ∈ walkAll ns, PlainToken t := by
  cases ns with
  | nil => intro t ht; simp [walkAll] at ht
  | cons n ns =>
    intro t ht
    rw [walkAll] at ht
    rcases List.mem_append.1 ht with ht | ht
    · exact walk_plain n t ht
    · exact walkAll_plain ns t ht
end

theorem serialize_plain (en : Dict Text Text) (ts : List Token) (h : ∀ t ∈ ts, PlainToken t) :
    ∃ r, serialize en ts = .ok r := by
  induction ts with
  | nil => exact ⟨[], rfl⟩
  | cons t ts ih =>
    obtain ⟨r, hr⟩ := ih fun x hx => h x (.tail _ hx)
    have h1 : ∃ a, serializeToken en t = .ok a := by
      have := h t (by simp)
      cases t <;> first | exact ⟨_, rfl⟩ | exact this.elim
    obtain ⟨a, ha⟩ := h1
    exact ⟨a ++ r, by simp only [serialize, ha, hr, bind, Except.bind]⟩

theorem filterHtml_total (en : Dict Text Text) (f : Text → Attrs → Bool) (d : List HNode) :
    ∃ t, filterHtml en f d = ⟨[t], none⟩ := by
  obtain ⟨r, hr⟩ := serialize_plain en _ fun t ht => walkAll_plain d t (select_subset f _ _ t ht)
  exact ⟨r, by unfold filterHtml select; rw [hr]⟩

/-! ### What filters yield -/

/-- What can come out of the right filters. -/
def Healthy (w : FilterWorld) (k : FilterKind) (i : FilterItem) : Prop :=
  kindOf i = k ∧ ∀ f e, i = .file f → f.fail = some e → DataError w e

/-- What is made of something that cannot be read. -/
def Dead (i : FilterItem) : Prop := ∃ e b, i = .file ⟨[], some e, b⟩

theorem readAll_error {f : FileObj} {e : PyErr} (h : FilterWorld.readAll f = .error e) : f.fail = some e := by
  unfold FilterWorld.readAll at h
  split at h <;> cases h
  assumption

theorem html_items {w : FilterWorld} {f : Text → Attrs → Bool} {i : FilterItem} :
    (∃ t, w.html f i = ⟨[.str t], none⟩) ∨ ∃ e, w.html f i = ⟨[], some e⟩ ∧ w.parseHtml i = .error e := by
  unfold FilterWorld.html
  split
  · rename_i d _
    obtain ⟨t, ht⟩ := filterHtml_total w.entities f d
    exact .inl ⟨t, by rw [ht]; rfl⟩
  · rename_i e h
    exact .inr ⟨e, rfl, h⟩

/-- The kinds of what is yielded. -/
theorem filter_kind {w : FilterWorld} {f : FilterName} {i x : FilterItem} {k : FilterKind}
    (hf : FilterFits f (kindOf i) k) (hx : x ∈ (w.filter f i).items) : kindOf x = k := by
  have hmap : ∀ {g : Gen Text}, x ∈ (g.map FilterItem.str).items → kindOf x = .str := by
    intro g h
    obtain ⟨t, _, rfl⟩ := List.mem_map.1 h
    rfl
  have hhtml : ∀ {g : Text → Attrs → Bool}, x ∈ (w.html g i).items → kindOf x = .str := by
    intro g h
    rcases html_items (w := w) (f := g) (i := i) with ⟨t, ht⟩ | ⟨e, he, _⟩
    · rw [ht] at h; rw [List.mem_singleton.1 h]; rfl
    · rw [he] at h; simp at h
  cases i with
  | str t =>
    cases f <;> cases hf
    · exact hhtml hx
    · exact hhtml hx
    · exact hmap hx
    · simp only [FilterWorld.filter] at hx
      split at hx
      · exact hmap hx
      · simp at hx
    · simp only [FilterWorld.filter, Gen.ofList, List.mem_singleton] at hx; rw [hx]
    · simp only [FilterWorld.filter] at hx
      split at hx <;> simp only [Gen.ofList, List.mem_singleton, List.not_mem_nil] at hx
      rw [hx]; rfl
    · simp only [FilterWorld.filter] at hx
      cases ho : w.openFile (pyRstrip w.isSpace t) with
      | error e => simp [ho, Gen.ofPy, bind, Except.bind] at hx
      | ok b => simp only [ho, Gen.ofPy, bind, Except.bind, Gen.ofList, List.mem_singleton] at hx; rw [hx]; rfl
    · simp only [FilterWorld.filter] at hx
      split at hx <;> simp only [Gen.ofList, List.mem_singleton, List.not_mem_nil] at hx
      rw [hx]; rfl
  | file o =>
    cases f <;> cases hf
    · exact hhtml hx
    · exact hhtml hx
    · simp only [FilterWorld.filter] at hx
      cases hr : FilterWorld.readAll o with
      | error e => simp [hr, Gen.ofPy, bind, Except.bind] at hx
      | ok b =>
        cases hd : w.decode b with
        | error e => simp [hr, hd, Gen.ofPy, bind, Except.bind] at hx
        | ok t => simp only [hr, hd, Gen.ofPy, bind, Except.bind, Gen.ofList, List.mem_singleton] at hx; rw [hx]; rfl
    · simp only [FilterWorld.filter, Gen.ofList, List.mem_singleton] at hx; rw [hx]
    · simp only [FilterWorld.filter] at hx
      split at hx <;> simp only [Gen.ofList, List.mem_singleton, List.not_mem_nil] at hx
      rw [hx]; rfl
    · simp only [FilterWorld.filter, Gen.map] at hx
      obtain ⟨b, _, rfl⟩ := List.mem_map.1 hx
      rfl
    · simp only [FilterWorld.filter, Gen.ofList, List.mem_singleton] at hx; rw [hx]; rfl
  | doc d =>
    cases f <;> cases hf
    · exact hmap hx
    · exact hmap hx
    · simp only [FilterWorld.filter, Gen.ofList, List.mem_singleton] at hx; rw [hx]

/-- File objects that are yielded fail only because of the data. -/
theorem filter_healthy {w : FilterWorld} {f : FilterName} {i x : FilterItem} {k : FilterKind}
    (hf : FilterFits f (kindOf i) k) (hi : Healthy w (kindOf i) i) (hx : x ∈ (w.filter f i).items) : Healthy w k x := by
  have hk := filter_kind hf hx
  refine ⟨hk, ?_⟩
  rintro o e rfl he
  cases i with
  | str t =>
    cases f <;> cases hf <;> first | cases hk | skip
    simp only [FilterWorld.filter] at hx
    cases ho : w.openFile (pyRstrip w.isSpace t) with
    | error e => simp [ho, Gen.ofPy, bind, Except.bind] at hx
    | ok b =>
      simp only [ho, Gen.ofPy, bind, Except.bind, Gen.ofList, List.mem_singleton, FilterItem.file.injEq] at hx
      rw [hx] at he; cases he
  | file o' =>
    cases f <;> cases hf <;> first | cases hk | skip
    · simp only [FilterWorld.filter, Gen.ofList, List.mem_singleton, FilterItem.file.injEq] at hx
      subst hx
      exact hi.2 _ _ rfl he
    · simp only [FilterWorld.filter, Gen.map] at hx
      obtain ⟨b, _, h⟩ := List.mem_map.1 hx
      rw [FilterItem.file.injEq] at h
      rw [← h] at he; cases he
    · simp only [FilterWorld.filter, Gen.ofList, List.mem_singleton, FilterItem.file.injEq] at hx
      subst hx
      unfold FilterWorld.decompress at he
      split at he
      · cases he
      · rename_i out e' h
        simp only [Option.some.injEq] at he
        subst he
        exact .brotli (b := o'.data) (by rw [h])
      · simp only [Option.some.injEq] at he
        cases hf' : o'.fail with
        | none => rw [hf'] at he; rw [← he]; exact .brokenOff
        | some e' =>
          rw [hf'] at he
          simp only [Option.getD_some] at he
          rw [← he]
          exact hi.2 _ _ rfl hf'
  | doc d =>
    cases f <;> cases hf <;> cases hk

/-- The right filters fail only because of the data. -/
theorem filter_error {w : FilterWorld} {f : FilterName} {i : FilterItem} {k : FilterKind} {e : PyErr}
    (hf : FilterFits f (kindOf i) k) (hi : Healthy w (kindOf i) i) (he : (w.filter f i).error = some e) : DataError w e := by
  have hhtml : ∀ {g : Text → Attrs → Bool}, (w.html g i).error = some e → w.parseHtml i = .error e := by
    intro g h
    rcases html_items (w := w) (f := g) (i := i) with ⟨t, ht⟩ | ⟨e', he', hp⟩
    · rw [ht] at h; cases h
    · rw [he'] at h; cases h; exact hp
  have hhtml' : w.parseHtml i = .error e → DataError w e := by
    intro h
    cases i with
    | str t => exact .htmlText h
    | file o =>
      simp only [FilterWorld.parseHtml] at h
      cases hr : FilterWorld.readAll o with
      | error e' => simp only [hr, bind, Except.bind, Except.error.injEq] at h; rw [← h]; exact hi.2 _ _ rfl (readAll_error hr)
      | ok b => simp only [hr, bind, Except.bind] at h; exact .htmlBytes h
    | doc d => cases f <;> cases hf <;> cases he
  cases i with
  | str t =>
    cases f <;> cases hf
    · exact hhtml' (hhtml he)
    · exact hhtml' (hhtml he)
    · simp only [FilterWorld.filter, filterJson, Gen.map] at he
      split at he
      · cases he
      · rename_i e' h; cases he; exact .json h
    · simp only [FilterWorld.filter] at he
      split at he
      · simp only [Gen.map] at he
        rcases Gen.flatMap_error he with ⟨d, _, h⟩ | h
        · simp only [FilterWorld.epubText] at h
          cases hd : w.decode d with
          | error e' =>
            simp only [hd, bind, Except.bind, Gen.ofPy, Option.some.injEq] at h
            rw [← h]; exact .encoding hd
          | ok s =>
            cases hp : w.parseHtmlText s with
            | error e' =>
              simp only [hd, hp, bind, Except.bind, Gen.ofPy, Option.some.injEq] at h
              rw [← h]; exact .htmlText hp
            | ok doc =>
              simp only [hd, hp, bind, Except.bind, epubDocument, serialize_walkAll, Gen.ofPy] at h
              cases h
        · cases h
      · rename_i e' h; cases he; exact .epub h
    · cases he
    · simp only [FilterWorld.filter] at he
      split at he <;> cases he
    · simp only [FilterWorld.filter] at he
      cases ho : w.openFile (pyRstrip w.isSpace t) with
      | error e' => simp only [ho, Gen.ofPy, bind, Except.bind, Option.some.injEq] at he; rw [← he]; exact .cannotOpen ho
      | ok b => simp only [ho, Gen.ofPy, bind, Except.bind] at he; cases he
    · simp only [FilterWorld.filter] at he
      split at he
      · cases he
      · cases he
      · rename_i e' h; cases he; exact .pandoc h
  | file o =>
    cases f <;> cases hf
    · exact hhtml' (hhtml he)
    · exact hhtml' (hhtml he)
    · simp only [FilterWorld.filter] at he
      cases hr : FilterWorld.readAll o with
      | error e' =>
        simp only [hr, Gen.ofPy, bind, Except.bind, Option.some.injEq] at he
        rw [← he]; exact hi.2 _ _ rfl (readAll_error hr)
      | ok b =>
        cases hd : w.decode b with
        | error e' => simp only [hr, hd, Gen.ofPy, bind, Except.bind, Option.some.injEq] at he; rw [← he]; exact .encoding hd
        | ok t => simp only [hr, hd, Gen.ofPy, bind, Except.bind] at he; cases he
    · cases he
    · simp only [FilterWorld.filter] at he
      split at he <;> cases he
    · simp only [FilterWorld.filter, Gen.map] at he
      rcases tarFrom_error o.fail o.data 0 with h | h | h | h
      · rw [he] at h; exact hi.2 _ _ rfl h.symm
      · rw [he] at h; cases h
      · rw [he] at h; cases h; exact .notTar
      · rw [he] at h; cases h; exact .tarSize
    · cases he
  | doc d =>
    cases f <;> cases hf <;> cases he

/-- What cannot be read stays so. -/
theorem filter_dead {w : FilterWorld} {f : FilterName} {i x : FilterItem} (hi : Dead i) (hx : x ∈ (w.filter f i).items) :
    Dead x := by
  obtain ⟨e, b, rfl⟩ := hi
  have hhtml : ∀ {g : Text → Attrs → Bool}, x ∉ (w.html g (.file ⟨[], some e, b⟩)).items := by
    intro g h
    simp [FilterWorld.html, FilterWorld.parseHtml, FilterWorld.readAll, bind, Except.bind] at h
  cases f <;> simp only [FilterWorld.filter] at hx
  · exact absurd hx hhtml
  · exact absurd hx hhtml
  · simp [FilterWorld.readAll, bind, Except.bind, Gen.ofPy] at hx
  · simp at hx
  · simp at hx
  · simp at hx
  · simp at hx
  · rw [Gen.ofList, List.mem_singleton] at hx; exact ⟨e, b, hx⟩
  · simp [FilterWorld.minidomParse, FilterWorld.readAll, bind, Except.bind, Gen.ofList] at hx
  · simp at hx
  · rw [tarFrom_dead] at hx; simp [Gen.map] at hx
  · simp at hx
  · rw [Gen.ofList, List.mem_singleton] at hx
    rw [hx]
    refine ⟨e, false, ?_⟩
    simp [FilterWorld.decompress, w.unbrotli_nil]

/-- What a filter that is not made for it makes of something is nothing, or cannot be read. -/
theorem filter_misfit {w : FilterWorld} {f : FilterName} {i x : FilterItem} (h : ∀ k, ¬ FilterFits f (kindOf i) k)
    (hx : x ∈ (w.filter f i).items) : Dead x := by
  cases i with
  | str t =>
    cases f <;> first
      | exact absurd (by constructor) (h .str) | exact absurd (by constructor) (h .file)
      | exact absurd (by constructor) (h .doc) | skip
    all_goals simp only [FilterWorld.filter, Gen.ofList, List.mem_singleton, List.not_mem_nil] at hx
    exact ⟨_, _, hx⟩
  | file o =>
    cases f <;> first
      | exact absurd (by constructor) (h .str) | exact absurd (by constructor) (h .file)
      | exact absurd (by constructor) (h .doc) | skip
    all_goals simp only [FilterWorld.filter, Gen.ofList, List.mem_singleton, List.not_mem_nil] at hx
  | doc d =>
    cases f <;> first
      | exact absurd (by constructor) (h .str) | exact absurd (by constructor) (h .file)
      | exact absurd (by constructor) (h .doc) | skip
    all_goals simp [FilterWorld.filter, FilterWorld.html, FilterWorld.parseHtml, FilterWorld.minidomParse, Gen.ofList] at hx
    exact ⟨_, _, hx⟩

/-! ### Pipelines -/

/-- What comes out of the right filters. -/
theorem pipeline_fits {w : FilterWorld} {fs : List FilterName} {k k' : FilterKind} (hf : PipelineFits fs k k')
    (g : Gen FilterItem) (hg : ∀ i ∈ g.items, Healthy w k i) (he : ∀ e, g.error = some e → DataError w e) :
    (∀ i ∈ (applyFilters (fs.map w.filter) g).items, Healthy w k' i) ∧
    ∀ e, (applyFilters (fs.map w.filter) g).error = some e → DataError w e := by
  induction hf generalizing g with
  | nil k => exact ⟨hg, he⟩
  | cons h _ ih =>
    rw [List.map_cons, applyFilters]
    apply ih
    · intro i hi
      obtain ⟨y, hy, hi⟩ := Gen.mem_flatMap hi
      have := hg y hy
      have hk := this.1
      rw [← hk] at this h
      exact filter_healthy h this hi
    · intro e hee
      rcases Gen.flatMap_error hee with ⟨y, hy, h1⟩ | h1
      · have := hg y hy
        have hk := this.1
        rw [← hk] at this h
        exact filter_error h this h1
      · exact he e h1

/-- What comes out of the wrong filters. -/
theorem pipeline_misfit {w : FilterWorld} (fs : List FilterName) (g : Gen FilterItem)
    (hg : ∀ i ∈ g.items, Dead i ∨ ¬ PipelineFits fs (kindOf i) .str) :
    ∀ i ∈ (applyFilters (fs.map w.filter) g).items, Dead i ∨ kindOf i ≠ .str := by
  induction fs generalizing g with
  | nil =>
    intro i hi
    rcases hg i hi with h | h
    · exact .inl h
    · exact .inr fun hk => h (by rw [hk]; exact .nil _)
  | cons f fs ih =>
    rw [List.map_cons, applyFilters]
    apply ih
    intro x hx
    obtain ⟨y, hy, hx⟩ := Gen.mem_flatMap hx
    rcases hg y hy with h | h
    · exact .inl (filter_dead h hx)
    · by_cases hk : ∃ k, FilterFits f (kindOf y) k
      · obtain ⟨k, hk⟩ := hk
        right
        rw [filter_kind hk hx]
        exact fun h1 => h (.cons hk h1)
      · exact .inl (filter_misfit (fun k h => hk ⟨k, h⟩) hx)

end Lulua
