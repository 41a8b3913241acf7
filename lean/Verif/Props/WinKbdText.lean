import Verif.Proofs.WinKbdRead
import Verif.Props.WinKbd

/-!
# The characters in the C text of the Windows driver

* C112 `C112_works`, `C112_names`, `C112_read`, `C112_entry_partial`, `C112_false`, `C112_driver`, `C112_shipped`: the tables
  `vkToWchar` writes are C, and reading them gives for every virtual key and layer the character meant, cut off after
  16 bits.

The reader in `Verif.Spec.CText` knows the part of C needed: comments, character and string constants within them or not,
words, and static definitions of arrays with lists of values. The other tables are read in C114.
-/

namespace Lulua.Props
open Spec

/-! ### C112 -/

theorem wcharText_exists (printable : Char → Bool) (v : LVal) : (∃ t, wcharText printable v = .ok t) ↔ v = .other 0 ∨ ∃ c, v = .str [c] := by
  match v with
  | .other 0 => simp [wcharText]
  | .other (k + 1) => simp [wcharText]
  | .str [] => simp [wcharText]
  | .str [c] => simp [wcharText]
  | .str (_ :: _ :: _) => simp [wcharText]

theorem wtableLines_exists (printable : Char → Bool) (vkName : VkVal → Text) (n : Nat) (g : List CharEntry) (p : Text) :
    (∃ t, wtableLines printable vkName n g p = .ok t) ↔ ∀ e ∈ g, ∀ v ∈ e.2.2, v = .other 0 ∨ ∃ c, v = .str [c] := by
  have hrow : ∀ e, (∃ t, wrowText printable vkName e = .ok t) ↔ ∀ v ∈ e.2.2, v = .other 0 ∨ ∃ c, v = .str [c] := by
    intro e
    simp only [wrowText, bind_ok_iff, Except.ok.injEq]
    constructor
    · rintro ⟨_, chars, h, _⟩ v hv
      exact (wcharText_exists printable v).1 ((mapM_exists_iff _ _).1 ⟨chars, h⟩ v hv)
    · intro h
      obtain ⟨chars, hc⟩ := (mapM_exists_iff _ _).2 fun v hv => (wcharText_exists printable v).2 (h v hv)
      exact ⟨_, chars, hc, rfl⟩
  simp only [wtableLines, bind_ok_iff, Except.ok.injEq]
  constructor
  · rintro ⟨_, rows, h, _⟩ e he
    exact (hrow e).1 ((mapM_exists_iff _ _).1 ⟨rows, h⟩ e he)
  · intro h
    obtain ⟨rows, hr⟩ := (mapM_exists_iff _ _).2 fun e he => (hrow e).2 (h e he)
    exact ⟨_, rows, hr, rfl⟩

/-- **C112**: the text is written exactly if the tables of C68 are made. -/
theorem C112_works (printable : Char → Bool) (vkName : VkVal → Text) (m : List CharEntry) :
    (∃ text, vkToWcharText printable vkName m = .ok text) ↔ ∃ tables, vkToWchar m = .ok tables := by
  rw [C68_works]
  obtain ⟨g1, g2, g3⟩ := groupby_sorted (fun x : CharEntry => x.2.2.length) _ (insertionSort_sorted _ m)
  have hmem : ∀ e, e ∈ m ↔ ∃ g ∈ groupby (fun x : CharEntry => x.2.2.length)
      (m.insertionSort fun a b => a.2.2.length ≤ b.2.2.length), e ∈ g.2 := by
    intro e
    constructor
    · intro he
      obtain ⟨g, hg, hn⟩ := List.mem_map.1 ((g2 e.2.2.length).2 ⟨e, (List.mem_insertionSort _).2 he, rfl⟩)
      refine ⟨g, hg, ?_⟩
      rw [g3 g hg, filter_insertionSort_len, List.mem_filter]
      exact ⟨he, by simpa using hn.symm⟩
    · rintro ⟨g, hg, he⟩
      rw [g3 g hg, filter_insertionSort_len, List.mem_filter] at he
      exact he.1
  simp only [vkToWcharText, bind_ok_iff, Except.ok.injEq]
  constructor
  · rintro ⟨_, ts, h, _⟩ e he
    obtain ⟨g, hg, heg⟩ := (hmem e).1 he
    exact (wtableLines_exists _ _ _ _ _).1 ((mapM_exists_iff _ _).1 ⟨ts, h⟩ g hg) e heg
  · intro h
    obtain ⟨ts, hts⟩ := (mapM_exists_iff _ _).2 fun (g : Nat × List CharEntry) hg =>
      (wtableLines_exists printable vkName g.1 g.2 []).2 fun e he => h e ((hmem e).2 ⟨g, hg, he⟩)
    obtain ⟨num, hnum⟩ := (wtableLines_exists printable vkName 1 numpad "Num".toList).2 (by
      have : ∀ e ∈ numpad, ∃ c, e.2.2 = [.str [c]] := by
        intro e he
        simp only [numpad, List.mem_cons, List.not_mem_nil, or_false] at he
        rcases he with rfl | rfl | rfl | rfl | rfl | rfl | rfl | rfl | rfl | rfl <;> exact ⟨_, rfl⟩
      intro e he v hv
      obtain ⟨c, hc⟩ := this e he
      rw [hc, List.mem_singleton] at hv
      exact .inr ⟨c, hv⟩)
    exact ⟨_, ts, hts, num, hnum, rfl⟩

theorem memberName_word {members : Dict String Nat} (h : members.all (fun x => x.1.toList.all wordChar) = true) (n : Nat) :
    ∀ c ∈ memberName members n, wordChar c = true := by
  unfold memberName
  split
  · rename_i x hx
    exact List.all_eq_true.1 (List.all_eq_true.1 h x (List.mem_of_find?_eq_some hx))
  · exact (natText_word n).2

theorem memberName_inj {members : Dict String Nat} (hnd : (members.map Prod.fst).Nodup)
    (h : members.all (fun x => x.1.toList.head?.all fun c => !c.isDigit) = true) {a b : Nat} (he : memberName members a = memberName members b) :
    a = b := by
  have key : ∀ (x : String × Nat) n, x ∈ members → x.1.toList ≠ natText n := by
    intro x n hx hxn
    obtain ⟨c, t, h1, h2⟩ := natText_head n
    have := List.all_eq_true.1 h x hx
    rw [hxn, h1] at this
    simp only [List.head?_cons, Option.all_some] at this
    rw [h2] at this
    cases this
  unfold memberName at he
  cases ha : members.find? (fun x => x.2 = a) with
  | none =>
    cases hb : members.find? (fun x => x.2 = b) with
    | none => rw [ha, hb] at he; exact natText_inj he
    | some y => rw [ha, hb] at he; exact absurd he.symm (key y a (List.mem_of_find?_eq_some hb))
  | some x =>
    cases hb : members.find? (fun x => x.2 = b) with
    | none => rw [ha, hb] at he; exact absurd he (key x b (List.mem_of_find?_eq_some ha))
    | some y =>
      rw [ha, hb] at he
      have e := List.inj_on_of_nodup_map hnd (List.mem_of_find?_eq_some ha) (List.mem_of_find?_eq_some hb) (String.toList_injective he)
      have f := List.find?_some ha
      have g := List.find?_some hb
      simp only [decide_eq_true_eq] at f g
      rw [← f, ← g, e]

theorem names_of {name : VkVal → Text} {p : Char} {A B : Text} {x y : Char} {f g : Nat → Text} (hp : p ≠ '0') (hxy : x ≠ y)
    (hkey : ∀ n, name (.key n) = p :: (A ++ x :: f n)) (hflag : ∀ n, name (.flag n) = p :: (A ++ y :: (B ++ g n)))
    (hw : ∀ c ∈ p :: x :: y :: (A ++ B), wordChar c = true) (hf : ∀ n, ∀ c ∈ f n, wordChar c = true) (hg : ∀ n, ∀ c ∈ g n, wordChar c = true)
    (hf' : ∀ a b, f a = f b → a = b) (hg' : ∀ a b, g a = g b → a = b) : CNames name := by
  refine ⟨?_, ?_, ?_⟩
  · rintro (n | n)
    · rw [hkey]
      refine ⟨List.cons_ne_nil _ _, fun c hc => ?_⟩
      simp only [List.mem_cons, List.mem_append] at hc hw
      rcases hc with hc | hc | hc | hc
      · exact hw c (.inl hc)
      · exact hw c (.inr (.inr (.inr (.inl hc))))
      · exact hw c (.inr (.inl hc))
      · exact hf n c hc
    · rw [hflag]
      refine ⟨List.cons_ne_nil _ _, fun c hc => ?_⟩
      simp only [List.mem_cons, List.mem_append] at hc hw
      rcases hc with hc | hc | hc | hc | hc
      · exact hw c (.inl hc)
      · exact hw c (.inr (.inr (.inr (.inl hc))))
      · exact hw c (.inr (.inr (.inl hc)))
      · exact hw c (.inr (.inr (.inr (.inr hc))))
      · exact hg n c hc
  · rintro (n | n) h
    · rw [hkey] at h
      exact hp (List.cons.inj h).1
    · rw [hflag] at h
      exact hp (List.cons.inj h).1
  · rintro (a | a) (b | b) h
    · simp only [hkey, List.cons.injEq, List.append_cancel_left_eq, true_and] at h
      rw [hf' a b h]
    · simp only [hkey, hflag, List.cons.injEq, List.append_cancel_left_eq, true_and] at h
      exact absurd h.1 hxy
    · simp only [hkey, hflag, List.cons.injEq, List.append_cancel_left_eq, true_and] at h
      exact absurd h.1.symm hxy
    · simp only [hflag, List.cons.injEq, List.append_cancel_left_eq, true_and] at h
      rw [hg' a b h]

/-- **C112**: the names of the virtual keys are different words, none of them a number. -/
theorem C112_names : CNames (vkCName Data.vkval) := by
  have k1 : Data.vkval.all (fun x => x.1.toList.all wordChar) = true := by decide +kernel
  have k2 : (Data.vkval.map Prod.fst).Nodup := by decide +kernel
  have k3 : Data.vkval.all (fun x => x.1.toList.head?.all fun c => !c.isDigit) = true := by decide +kernel
  have f1 : vkFlags.all (fun x => x.1.toList.all wordChar) = true := by decide +kernel
  have f2 : (vkFlags.map Prod.fst).Nodup := by decide +kernel
  have f3 : vkFlags.all (fun x => x.1.toList.head?.all fun c => !c.isDigit) = true := by decide +kernel
  exact names_of (p := 'V') (A := ['I', 'R', 'T', 'U', 'A', 'L', 'K', 'E', 'Y']) (B := ['L', 'A', 'G', '_']) (x := '_') (y := 'F')
    (f := memberName Data.vkval) (g := memberName vkFlags) (by decide) (by decide) (fun n => rfl) (fun n => rfl) (by decide)
    (memberName_word k1) (memberName_word f1) (fun a b => memberName_inj k2 k3) (fun a b => memberName_inj f2 f3)

/-- **C112**: if there are between one and eight texts for every key, the text reads as C definitions, and what is stored for
a virtual key and a layer is what the tables of C68 have, cut off after 16 bits. -/
theorem C112_read (printable : Char → Bool) (vkName : VkVal → Text) (hn : CNames vkName) (m : List CharEntry) (text : Text)
    (h : vkToWcharText printable vkName m = .ok text) (hlen : ∀ e ∈ m, 1 ≤ e.2.2.length ∧ e.2.2.length ≤ 8) :
    ∃ tables ds, vkToWchar m = .ok tables ∧ cFile text = some ds ∧ ∀ d : Driver, d.wchars = tables → ∀ v k,
      storedChar ds (vkName v) k = (charOf d v k).map (· % 65536) := by
  obtain ⟨tables, ht⟩ := (C112_works printable vkName m).1 ⟨text, h⟩
  obtain ⟨ds, h1, h2⟩ := storedChar_read hn h ht hlen
  exact ⟨tables, ds, ht, h1, h2⟩

theorem charOf_entries {m : List CharEntry} {tables : List (Option WTable)} (ht : vkToWchar m = .ok tables) {d : Driver}
    (hd : d.wchars = tables) : ∃ es : List CharEntry, (∀ e, e ∈ es ↔ e ∈ m) ∧ ∀ v k, charOf d v k =
      ((es ++ numpad).find? fun e => e.1 = v).bind fun e => e.2.2[k]?.bind fun x => (wcharRepr x).toOption := by
  obtain ⟨g1, g2, g3⟩ := groupby_sorted (fun x : CharEntry => x.2.2.length) _ (insertionSort_sorted _ m)
  have hmem : ∀ e, e ∈ ((groupby (fun x : CharEntry => x.2.2.length)
      (m.insertionSort fun a b => a.2.2.length ≤ b.2.2.length)).map Prod.snd).flatten ↔ e ∈ m := by
    intro e
    rw [List.mem_flatten]
    constructor
    · rintro ⟨l, hl, he⟩
      obtain ⟨g, hg, rfl⟩ := List.mem_map.1 hl
      rw [g3 g hg, filter_insertionSort_len, List.mem_filter] at he
      exact he.1
    · intro he
      obtain ⟨g, hg, hn⟩ := List.mem_map.1 ((g2 e.2.2.length).2 ⟨e, (List.mem_insertionSort _).2 he, rfl⟩)
      refine ⟨g.2, List.mem_map_of_mem hg, ?_⟩
      rw [g3 g hg, filter_insertionSort_len, List.mem_filter]
      exact ⟨he, by simpa using hn.symm⟩
  refine ⟨_, hmem, ?_⟩
  simp only [vkToWchar, bind_ok_iff, Except.ok.injEq] at ht
  obtain ⟨ts, h1, num, h2, rfl⟩ := ht
  rw [mapM_ok_iff] at h1
  obtain ⟨R1, f1, e1⟩ := tables_rows h1
  obtain ⟨R2, f2, e2⟩ := tables_rows (groups := [(1, numpad)]) (ts := [num]) (.cons h2 .nil)
  have f := List.rel_append f1 f2
  have hrows : ((d.wchars.filterMap id).flatMap fun t => t.rows.filterMap id) = (R1 ++ R2).filterMap id := by
    rw [hd, List.filterMap_append (l := R1), ← e1, ← e2]
    simp [List.flatMap_def]
  intro v k
  unfold charOf
  rw [hrows, find_chars f]
  simp

/-- **C112**, true part: what the keyboard types for an entry that is the only one for its virtual key is the character it
has for the layer, if that is one of the first 65536 and not one Windows takes as a mark; and nothing if there is none. -/
theorem C112_entry_partial (printable : Char → Bool) (m : List CharEntry) (text : Text)
    (h : vkToWcharText printable (vkCName Data.vkval) m = .ok text) (hlen : ∀ e ∈ m, 1 ≤ e.2.2.length ∧ e.2.2.length ≤ 8)
    (e : CharEntry) (he : e ∈ m) (hone : ∀ e' ∈ m, e'.1 = e.1 → e' = e) (k : Nat) :
    ∃ ds, cFile text = some ds ∧
      (∀ c, e.2.2[k]? = some (.str [c]) → c.toNat < 65536 → ¬ (0xF000 ≤ c.toNat ∧ c.toNat ≤ 0xF002) →
        (storedChar ds (vkCName Data.vkval e.1) k).bind typedUnit = some c.toNat) ∧
      (e.2.2[k]? = some (.other 0) → ∃ n, storedChar ds (vkCName Data.vkval e.1) k = some n ∧ typedUnit n = none) := by
  obtain ⟨tables, ds, ht, hds, hall⟩ := C112_read printable _ C112_names m text h hlen
  obtain ⟨es, hmem, hchar⟩ := charOf_entries ht (d := ⟨[], [], [], tables, (0, [])⟩) rfl
  have hfind : (es ++ numpad).find? (fun x => x.1 = e.1) = some e := by
    rw [List.find?_append]
    cases hf : es.find? (fun x => x.1 = e.1) with
    | none => exact absurd (List.find?_eq_none.1 hf e ((hmem e).2 he)) (by simp)
    | some y =>
      have hy := List.find?_some hf
      simp only [decide_eq_true_eq] at hy
      rw [hone y ((hmem y).1 (List.mem_of_find?_eq_some hf)) hy]
      rfl
  have hs := hall ⟨[], [], [], tables, (0, [])⟩ rfl e.1 k
  rw [hchar, hfind, Option.bind_some] at hs
  refine ⟨ds, hds, ?_, ?_⟩
  · intro c hc hlt hmark
    rw [hs, hc]
    show (some (c.toNat % 65536)).bind typedUnit = _
    rw [Option.bind_some, Nat.mod_eq_of_lt hlt, typedUnit, if_neg (by omega)]
  · intro hc
    rw [hs, hc]
    exact ⟨_, rfl, by decide⟩

/-- A key with two layers, the second one empty, and one with one layer. -/
example : ∃ text, vkToWcharText (fun _ => true) (vkCName Data.vkval) [(.key 0x41, 0, [.str ['a'], .other 0]), (.key 0x20, 0, [.str [' ']])] =
    .ok text ∧ (∀ e ∈ [((.key 0x41, 0, [.str ['a'], .other 0]) : CharEntry), (.key 0x20, 0, [.str [' ']])],
      1 ≤ e.2.2.length ∧ e.2.2.length ≤ 8) := by
  obtain ⟨text, h⟩ := (C112_works (fun _ => true) (vkCName Data.vkval)
    [(.key 0x41, 0, [.str ['a'], .other 0]), (.key 0x20, 0, [.str [' ']])]).2 ⟨_, rfl⟩
  exact ⟨text, h, by decide⟩

/-- The lines of a table. -/
example : wtableLines (fun _ => true) (vkCName Data.vkval) 2 [(.key 0x41, 0, [.str ['a'], .other 0])] [] =
    .ok ["/* map virtual key to flags and 2 unicode output characters */".toList, "static VK_TO_WCHARS2 aVkToWch2[] = {".toList,
      "\t{VIRTUALKEY_A, 0, {0x0061u /*'a'*/, WCHAR_NONE}},".toList, "\t{0, 0, {0, 0, }},".toList, "\t};".toList, []] := by
  decide +kernel

/-- **C112**: in general it does not: U+1D11E is stored as U+D11E, a character of Korean, and for U+F000 nothing is typed. -/
theorem C112_false (printable : Char → Bool) : ∃ text ds, vkToWcharText printable (vkCName Data.vkval)
      [(.key 0x41, 0, [.str ['𝄞']]), (.key 0x42, 0, [.str [Char.ofNat 0xF000]])] = .ok text ∧ cFile text = some ds ∧
    (storedChar ds (vkCName Data.vkval (.key 0x41)) 0).bind typedUnit = some 0xD11E ∧
    (storedChar ds (vkCName Data.vkval (.key 0x42)) 0).bind typedUnit = none := by
  have ht : ∃ tables, vkToWchar [(.key 0x41, 0, [.str ['𝄞']]), (.key 0x42, 0, [.str [Char.ofNat 0xF000]])] = .ok tables ∧
      charOf ⟨[], [], [], tables, (0, [])⟩ (.key 0x41) 0 = some 0x1D11E ∧ charOf ⟨[], [], [], tables, (0, [])⟩ (.key 0x42) 0 = some 0xF000 :=
    ⟨[some ⟨"aVkToWch1", 1, [some ⟨.key 0x41, 0, [0x1D11E]⟩, some ⟨.key 0x42, 0, [0xF000]⟩, none]⟩, some numpadTable, none],
      by decide +kernel, by decide +kernel, by decide +kernel⟩
  obtain ⟨tables, ht, h1, h2⟩ := ht
  obtain ⟨text, h⟩ := (C112_works printable (vkCName Data.vkval) _).2 ⟨tables, ht⟩
  obtain ⟨tables', ds, ht', hds, hall⟩ := C112_read printable _ C112_names _ text h (by decide)
  rw [ht] at ht'
  cases ht'
  refine ⟨text, ds, h, hds, ?_, ?_⟩
  · rw [hall ⟨[], [], [], tables, (0, [])⟩ rfl, h1]
    decide
  · rw [hall ⟨[], [], [], tables, (0, [])⟩ rfl, h2]
    decide

/-- **C112**: for a layout with one to eight layers the driver of C78 and C79 is what the C text says, up to the cut. -/
theorem C112_driver (printable : Char → Bool) (vkName : VkVal → Text) (hn : CNames vkName) (m : Dict (List Nat) (List VkVal))
    (L : KeyboardLayout) (kb : PhysicalKeyboard) (h1 : 1 ≤ L.layers.length) (h8 : L.layers.length ≤ 8) (d : Driver)
    (hd : winKbd m L kb = .ok d) :
    ∃ text ds, winKbdChars printable vkName m L kb = .ok text ∧ cFile text = some ds ∧
      ∀ v k, storedChar ds (vkName v) k = (charOf d v k).map (· % 65536) := by
  simp only [winKbd, bind_ok_iff, Except.ok.injEq] at hd
  obtain ⟨buttons, hb, entries, hen, wchars, hw, rfl⟩ := hd
  obtain ⟨text, h⟩ := (C112_works printable vkName _).2 ⟨wchars, hw⟩
  obtain ⟨tables, ds, ht, hds, hall⟩ := C112_read printable vkName hn _ text h (by
    intro e he
    obtain ⟨o, ho, hoe⟩ := List.mem_filterMap.1 he
    cases hoe
    rw [mapM_ok_iff] at hen
    obtain ⟨b, _, hbe⟩ := forall₂_right_mem hen ho
    unfold winKbdButton at hbe
    simp only at hbe
    split at hbe
    · cases hbe
    · simp only [bind_ok_iff, Except.ok.injEq, Option.some.injEq] at hbe
      obtain ⟨_, _, _, _, _, _, rfl⟩ := hbe
      simp only [List.length_map, KeyboardLayout.getButtonText]
      exact ⟨h1, h8⟩)
  rw [hw] at ht
  cases ht
  refine ⟨text, ds, ?_, hds, hall _ rfl⟩
  simp only [winKbdChars, bind_ok_iff]
  exact ⟨buttons, hb, entries, hen, h⟩

/-- The characters of a layout fit. -/
def fitsShipped : Py Bool := do
  let (_, _, L) ← loadFirst Data.arLulua
  .ok (decide (1 ≤ L.layers.length ∧ L.layers.length ≤ 8) && L.layers.all fun l => l.layout.all fun x => match x.2 with
    | .str [c] => decide (c.toNat < 0xF000)
    | _ => true)

/-- What the keyboard should type for a button on a layer. -/
def TypesFor (layers : List Layer) (b : Button) (k : Nat) (typed : Option Nat) : Prop :=
  ∃ l : Layer, layers[k]? = some l ∧
    ((∃ c, l.layout.get? b = some (.str [c]) ∧ typed = some (if c = '\n' then 13 else c.toNat)) ∨
      ((l.layout.get? b = none ∨ l.layout.get? b = some (.other 0)) ∧ typed = none))

/-- **C112**: every button in use types what `ar-lulua` says when the C text written for it is compiled. -/
theorem C112_shipped (printable : Char → Bool) (t : InternTable) (kb : PhysicalKeyboard) (L : KeyboardLayout)
    (hl : loadFirst Data.arLulua = .ok (t, kb, L)) :
    ∃ d text ds, winKbd Data.qwertyScancodeToVk L kb = .ok d ∧
      winKbdChars printable (vkCName Data.vkval) Data.qwertyScancodeToVk L kb = .ok text ∧ cFile text = some ds ∧
      ∀ b ∈ kb.keys, Used L.layers b.i → ∃ c vk, windowsCode b = some c ∧ vkOf d c = some vk ∧
        ∀ k < L.layers.length, TypesFor L.layers b.i k ((storedChar ds (vkCName Data.vkval vk) k).bind typedUnit) := by
  have hcheck : fitsShipped = .ok true := by decide +kernel
  simp only [fitsShipped, hl, bind_ok_iff, Except.ok.injEq, Bool.and_eq_true, decide_eq_true_eq] at hcheck
  obtain ⟨x, rfl, ⟨h1, h8⟩, hfit⟩ := hcheck
  dsimp only at h1 h8 hfit
  obtain ⟨d, hd, htypes, _⟩ := C79_shipped t kb L hl
  obtain ⟨text, ds, htext, hds, hall⟩ := C112_driver printable _ C112_names _ L kb h1 h8 d hd
  refine ⟨d, text, ds, hd, htext, hds, ?_⟩
  intro b hb hu
  obtain ⟨c, vk, hc, hvk, hk⟩ := htypes b hb hu
  refine ⟨c, vk, hc, hvk, ?_⟩
  intro k hkl
  obtain ⟨n, hn, l, hll, hsays⟩ := hk k hkl
  refine ⟨l, hll, ?_⟩
  rw [hall, hn]
  rcases hsays with ⟨ch, hch, rfl⟩ | ⟨hno, rfl⟩
  · left
    refine ⟨ch, hch, ?_⟩
    have := List.all_eq_true.1 (List.all_eq_true.1 hfit l (List.mem_of_getElem? hll)) _ (Dict.mem_of_get? hch)
    simp only [decide_eq_true_eq] at this
    generalize hg : (if ch = '\n' then 13 else ch.toNat) = n
    have hlt : n < 0xF000 := by
      rw [← hg]
      split
      · omega
      · exact this
    show (some (n % 65536)).bind typedUnit = _
    rw [Option.bind_some, Nat.mod_eq_of_lt (by omega), typedUnit, if_neg (by omega)]
  · exact .inr ⟨hno, by decide⟩

end Lulua.Props
