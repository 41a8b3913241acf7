import Verif.Proofs.Klc
import Verif.Props.Shipped

/-!
# Properties of the import of KLC files
-/

namespace Lulua.Props
open Lulua Spec

section
variable {isSpace : Char → Bool} {dig : Char → Option Nat} {nfd : Nat → List Nat}

/-! ### C82 -/

/-- **C82**: the imported layers have exactly what the last line of the layout section for the button and the layer says. -/
theorem C82_cells (hp : PlainMarkers isSpace) (lines : List Text) (layers : KlcLayers) (h : fromKlc isSpace dig nfd lines = .ok layers) :
    layers.length = 6 ∧ ∀ (i : Nat) (b : String) (t : List Nat), (layers[i]?.bind fun l => l.get? b) = some t ↔
      ∃ k, Sets isSpace dig nfd lines k i b t ∧ ∀ k' t', k < k' → ¬ Sets isSpace dig nfd lines k' i b t' := by
  simp only [fromKlc, bind_ok_iff, Except.ok.injEq] at h
  obtain ⟨s, h1, rfl⟩ := h
  have := klcFold hp lines [] _ s klcState_nil h1
  exact ⟨this.length, this.cells⟩

/-- **C82**: the import works exactly if all lines of the layout section can be imported. -/
theorem C82_works (hp : PlainMarkers isSpace) (lines : List Text) : (∃ layers, fromKlc isSpace dig nfd lines = .ok layers) ↔
    ∀ (k : Nat) (line : Text), lines[k]? = some line → InLayout isSpace (lines.take k) → ¬ Opens isSpace line → ¬ Closes isSpace line →
      Importable isSpace dig line := by
  have := klcFold_works (dig := dig) (nfd := nfd) hp lines [] _ klcState_nil
  simp only [List.nil_append] at this
  rw [← this]
  simp only [fromKlc, bind_ok_iff, Except.ok.injEq]
  constructor
  · rintro ⟨_, s, h, _⟩; exact ⟨s, h⟩
  · rintro ⟨s, h⟩; exact ⟨_, s, h, rfl⟩

end

/-- The white space of ASCII. -/
def asciiSpace (c : Char) : Bool := c.toNat = 32 || (9 ≤ c.toNat && c.toNat ≤ 13) || (28 ≤ c.toNat && c.toNat ≤ 31)

/-- A file with all kinds of lines. -/
def klcDemo : List Text :=
  ["KBD x \"y\"\n", "00 Q 0 0041\n", "LAYOUT ;an extra comment // z\n", "\n", "//SC VK_ Cap 0 1 2\n", "02\t1\t0\t0661\t%%\t-1\t\t// ONE\n",
    "10\tQ\t0\t0636\t064e\n", "10\tQ\t0\t0637\t-1 // again\n", "53\tDECIMAL\t0\t002e\n", "LIGATURE\n", "10\tQ\t0\t0638\n"].map String.toList

example : PlainMarkers asciiSpace ∧ fromKlc asciiSpace (fun _ => none) (fun n => [n]) klcDemo =
    .ok [[("Bl2", [0x661]), ("Cl1", [0x637])], [("Cl1", [0x64e])], [], [], [], []] := by
  refine ⟨by unfold PlainMarkers; decide +kernel, by decide +kernel⟩

/-! ### C69 -/

theorem mem_importKlc {val : List Nat → LVal} {layers : KlcLayers} (hl : layers.length = 6) {i : Nat} {g : GLayer} :
    (importKlc val layers).layout[i]? = some g ↔ ∃ l m, layers[i]? = some l ∧ klcSwitches[i]? = some m ∧ g = ⟨m, l.map fun e => (e.1, val e.2)⟩ := by
  simp only [importKlc, List.getElem?_zipWith]
  cases h1 : layers[i]? with
  | none => simp
  | some l =>
    cases h2 : klcSwitches[i]? with
    | none => simp
    | some m => simp [eq_comm]

theorem nameSet_mem (n : String) : ∀ l : List String, n ∈ nameSet l ↔ n ∈ l
  | [] => by simp [nameSet]
  | x :: xs => by
    unfold nameSet
    split
    · rw [nameSet_mem n xs, List.mem_cons]
      constructor
      · exact .inr
      · rintro (rfl | h)
        · assumption
        · exact h
    · rw [List.mem_cons, List.mem_cons, nameSet_mem n xs]

/-- **C69** is false: whatever is imported, it cannot be used on the shipped keyboard, which has no `Er_altgr`. -/
theorem C69_false (names : List String) (t : InternTable) (kb : PhysicalKeyboard) (d' : KeyboardData)
    (hk : PhysicalKeyboard.deserialize (tableAfter names) Data.ibmpc105 = .ok (t, kb, d'))
    (isSpace : Char → Bool) (hp : PlainMarkers isSpace) (dig : Char → Option Nat) (nfd : Nat → List Nat) (val : List Nat → LVal)
    (lines : List Text) (layers : KlcLayers) (h : fromKlc isSpace dig nfd lines = .ok layers) :
    (GenericLayout.deserialize (importKlc val layers)).specialize t kb = .error .keyError := by
  have hload := shipped_loaded hk
  have hlen := (C82_cells hp lines layers h).1
  have hno : ¬ HasButton t kb "Er_altgr" := by
    rw [← hload.mem]
    decide +kernel
  unfold GenericLayout.specialize
  rcases specLayers_iff hload.named (GenericLayout.deserialize (importKlc val layers)).layers with ⟨_, hall⟩ | ⟨he, _⟩
  · exfalso
    have h4 : layers[4]? = some layers[4] := List.getElem?_eq_getElem (by omega)
    have hg := (mem_importKlc (val := val) hlen (i := 4)).2 ⟨_, _, h4, rfl, rfl⟩
    apply hno
    refine hall _ (List.mem_map.2 ⟨_, List.mem_of_getElem? hg, rfl⟩) _ ?_
    unfold layerNames
    refine List.mem_append_right _ ?_
    simp [nameSet]
  · rw [he]
    rfl

/-- The same layout without its last two layers. -/
def firstFour (d : LayoutData) : LayoutData := ⟨d.name, d.layout.take 4⟩

/-- **C69** for the layers without that modifier: they can be used exactly if no line maps the key `OEM_5`, for which the
keyboard has no button either. -/
theorem C69_partial (names : List String) (t : InternTable) (kb : PhysicalKeyboard) (d' : KeyboardData)
    (hk : PhysicalKeyboard.deserialize (tableAfter names) Data.ibmpc105 = .ok (t, kb, d'))
    (isSpace : Char → Bool) (hp : PlainMarkers isSpace) (dig : Char → Option Nat) (nfd : Nat → List Nat) (val : List Nat → LVal)
    (lines : List Text) (layers : KlcLayers) (h : fromKlc isSpace dig nfd lines = .ok layers) :
    (∃ L, (GenericLayout.deserialize (firstFour (importKlc val layers))).specialize t kb = .ok L) ↔
      ∀ i < 4, ∀ k text, ¬ Sets isSpace dig nfd lines k i "Cr0" text := by
  have hload := shipped_loaded hk
  obtain ⟨hlen, hcell⟩ := C82_cells hp lines layers h
  have hCr0 : ¬ HasButton t kb "Cr0" := by
    rw [← hload.mem]
    decide +kernel
  have hsets : ∀ i b, (∃ k text, Sets isSpace dig nfd lines k i b text) → ∃ text, (layers[i]?.bind fun l => l.get? b) = some text := by
    rintro i b ⟨k, text, hs⟩
    by_contra hne
    have hnone : ∀ n k, lines.length ≤ k + n → ∀ text, ¬ Sets isSpace dig nfd lines k i b text := by
      intro n
      induction n with
      | zero =>
        intro k hk text hs
        have := sets_lt hs
        omega
      | succ n ih =>
        intro k hk text hs
        apply hne
        refine ⟨text, (hcell i b text).2 ⟨k, hs, ?_⟩⟩
        intro k' t' hk'
        exact ih k' (by omega) t'
    exact hnone lines.length k (by omega) text hs
  have hvals : ∀ b ∈ vkToButton.map Prod.snd, b = "Cr0" ∨ b ∈ boardNames Data.ibmpc105 := by decide +kernel
  have hmods : ∀ m ∈ (klcSwitches.take 4).flatten.flatten, m ∈ boardNames Data.ibmpc105 := by decide +kernel
  unfold GenericLayout.specialize
  rcases specLayers_iff hload.named (GenericLayout.deserialize (firstFour (importKlc val layers))).layers with ⟨⟨ls, hls⟩, hall⟩ | ⟨he, g, hg, n, hn, hnot⟩
  · refine ⟨?_, fun _ => ⟨_, by rw [hls]; rfl⟩⟩
    rintro _ i hi k text hs
    obtain ⟨text', ht⟩ := hsets i "Cr0" ⟨k, text, hs⟩
    have h4 : layers[i]? = some (layers[i]'(by omega)) := List.getElem?_eq_getElem (by omega)
    rw [h4, Option.bind_some] at ht
    have hs4 : klcSwitches[i]? = some (klcSwitches[i]'(Nat.lt_trans hi (by decide))) := List.getElem?_eq_getElem _
    have hg := (mem_importKlc (val := val) hlen (i := i)).2 ⟨_, _, h4, hs4, rfl⟩
    apply hCr0
    refine hall _ (List.mem_map.2 ⟨_, List.mem_of_getElem? (i := i) (by rw [firstFour, List.getElem?_take_of_lt hi]; exact hg), rfl⟩) _ ?_
    unfold layerNames
    refine List.mem_append_left _ ?_
    simp only [List.map_map]
    exact List.mem_map.2 ⟨("Cr0", text'), Dict.mem_of_get? ht, rfl⟩
  · rw [he]
    constructor
    · rintro ⟨L, hL⟩; cases hL
    · intro hno
      exfalso
      obtain ⟨g', hg', rfl⟩ := List.mem_map.1 hg
      obtain ⟨i, hi⟩ := List.mem_iff_getElem?.1 hg'
      have hi4 : i < 4 := by
        have := (List.getElem?_eq_some_iff.1 hi).1
        simp only [firstFour, List.length_take] at this
        omega
      rw [firstFour, List.getElem?_take_of_lt hi4, mem_importKlc hlen] at hi
      obtain ⟨l, m, h1, h2, rfl⟩ := hi
      unfold layerNames at hn
      apply hnot
      rw [← hload.mem]
      rcases (List.mem_append.1 hn).symm with hn | hn
      · simp only [List.mem_flatten, List.mem_map] at hn
        obtain ⟨x, ⟨y, hy, rfl⟩, hx⟩ := hn
        rw [nameSet_mem] at hx
        exact hmods n (List.mem_flatten.2 ⟨y, List.mem_flatten.2 ⟨m, List.mem_of_getElem? (i := i) (by rw [List.getElem?_take_of_lt hi4]; exact h2), hy⟩, hx⟩)
      · simp only [List.map_map, List.mem_map, Function.comp] at hn
        obtain ⟨e, he, rfl⟩ := hn
        have hsome : ∃ text, l.get? e.1 = some text := by
          have := (Dict.get?_isSome_iff (d := l) (k := e.1)).2 (List.mem_map.2 ⟨e, he, rfl⟩)
          exact Option.isSome_iff_exists.1 this
        obtain ⟨text, ht⟩ := hsome
        obtain ⟨k, hs, _⟩ := (hcell i e.1 text).1 (by rw [h1]; exact ht)
        obtain ⟨line, _, _, _, _, code, sc, vk, cap, codes, c, n, _, _, hv, _⟩ := id hs
        rcases hvals e.1 (List.mem_map.2 ⟨(vk, e.1), Dict.mem_of_get? hv, rfl⟩) with hc | hc
        · rw [hc] at hs
          exact absurd hs (hno i hi4 k text)
        · exact hc

/-! ### C70 -/

theorem fromKlc_congr {isSpace : Char → Bool} {dig : Char → Option Nat} {nfd : Nat → List Nat} {pre post : List Text} {l l' : Text}
    (h : klcClean isSpace l = klcClean isSpace l') :
    fromKlc isSpace dig nfd (pre ++ l :: post) = fromKlc isSpace dig nfd (pre ++ l' :: post) := by
  have : ∀ s, klcLine isSpace dig nfd s l = klcLine isSpace dig nfd s l' := by
    intro s
    unfold klcLine
    rw [h]
  unfold fromKlc
  rw [List.foldlM_append, List.foldlM_append]
  simp only [List.foldlM_cons, this]

/-- **C70** holds for the comments beginning with `//`: what comes behind does not matter, and if there is no `;` in front
the whole comment does not matter. -/
theorem C70_partial (isSpace : Char → Bool) (dig : Char → Option Nat) (nfd : Nat → List Nat) (pre post : List Text) (a b : Text) :
    fromKlc isSpace dig nfd (pre ++ (a ++ ['/', '/'] ++ b) :: post) = fromKlc isSpace dig nfd (pre ++ (a ++ ['/', '/']) :: post) ∧
      (¬ ['/', '/'] <:+: a ++ ['/'] → ';' ∉ a →
        fromKlc isSpace dig nfd (pre ++ (a ++ ['/', '/'] ++ b) :: post) = fromKlc isSpace dig nfd (pre ++ a :: post)) := by
  constructor
  · apply fromKlc_congr
    have hs : upTo ['/', '/'] (a ++ ['/', '/'] ++ b) = upTo ['/', '/'] (a ++ ['/', '/']) := by
      cases h : upTo ['/', '/'] (a ++ ['/', '/']) with
      | none => exact absurd (List.suffix_append _ _).isInfix ((upTo_none (by simp) _).1 h)
      | some l =>
        obtain ⟨b', h1, h2⟩ := (upTo_some (by simp)).1 h
        exact (upTo_some (by simp)).2 ⟨b' ++ b, by rw [h1]; simp, h2⟩
    unfold klcClean
    rw [hs]
    cases h : upTo ['/', '/'] (a ++ ['/', '/']) with
    | none => exact absurd (List.suffix_append _ _).isInfix ((upTo_none (by simp) _).1 h)
    | some l => rfl
  · intro h1 h2
    apply fromKlc_congr
    have hs : upTo ['/', '/'] (a ++ ['/', '/'] ++ b) = some a := (upTo_some (by simp)).2 ⟨b, rfl, h1⟩
    have hn : upTo ['/', '/'] a = none := (upTo_none (by simp) _).2 (fun h => h1 (h.trans (List.prefix_append _ _).isInfix))
    have hsemi : upTo [';'] a = none := (upTo_none (by simp) _).2 (by rw [List.singleton_infix_iff]; exact h2)
    unfold klcClean
    rw [hs, hn]
    simp only [hsemi]

/-- **C70** is false for the comments beginning with `;`. -/
theorem C70_false (dig : Char → Option Nat) (nfd : Nat → List Nat) :
    fromKlc asciiSpace dig nfd ["LAYOUT".toList, "10 Q 0 0636 ; note".toList] = .error .valueError ∧
      fromKlc asciiSpace dig nfd ["LAYOUT".toList, "10 Q 0 0636 ".toList] = .ok [[("Cl1", nfd 0x636)], [], [], [], [], []] := by
  exact ⟨rfl, rfl⟩

/-! ### C80 -/

/-- **C80** is false: a letter or digit that stands for itself in the file is taken for a hexadecimal number, if it is a
digit of one, or makes the import fail. -/
theorem C80_false (dig : Char → Option Nat) (nfd : Nat → List Nat) :
    (∀ c n, c.toNat < 128 → CodePoint dig [c] n → n < 16 ∧ n ≠ c.toNat) ∧
    (∀ c, c.toNat < 128 → (∀ n, ¬ HexDigit dig c n) → ∀ isSpace line code sc vk cap codes, CodePart line code →
      words isSpace code = sc :: vk :: cap :: codes → [c] ∈ codes → ¬ Importable isSpace dig line) ∧
    fromKlc asciiSpace dig nfd ["LAYOUT".toList, "1e A 1 a A -1".toList] = .ok [[("Dl1", nfd 10)], [("Dl1", nfd 10)], [], [], [], []] ∧
    fromKlc asciiSpace dig nfd ["LAYOUT".toList, "10 Q 1 q Q -1".toList] = .error .valueError := by
  have hint : ∀ c (n : Int), HexInt dig [c] n → ∃ d : Nat, HexDigit dig c d ∧ n = d := by
    rintro c n ⟨s, body, m, h1, h2, h3⟩
    have hs : s = [] ∧ body = [c] := by
      cases s with
      | nil => exact ⟨rfl, by simpa using h1.symm⟩
      | cons x s =>
        simp only [List.cons_append, List.cons.injEq] at h1
        obtain ⟨rfl, rfl⟩ := List.append_eq_nil_iff.1 h1.2.symm
        exact absurd h2 (hexNat_ne_nil dig)
    obtain ⟨rfl, rfl⟩ := hs
    rcases h3 with ⟨_, rfl⟩ | ⟨h, _⟩
    · obtain ⟨p, bd, ds, e1, e2, e3, rfl⟩ := h2
      cases p with
      | nil =>
        simp only [List.nil_append] at e1
        subst e1
        cases e3 with
        | one h => exact ⟨_, h, by simp⟩
        | next h h' => cases h'
      | cons x p =>
        simp only [List.cons_append, List.cons.injEq] at e1
        obtain ⟨rfl, rfl⟩ := List.append_eq_nil_iff.1 e1.2.symm
        cases e3
    · cases h
  refine ⟨?_, ?_, rfl, rfl⟩
  · rintro c n hc ⟨h, _⟩
    obtain ⟨d, hd, hn⟩ := hint c n h
    have : n = d := by omega
    subst this
    rcases hd with ⟨h1, h2⟩ | ⟨h1, _⟩
    · refine ⟨h1, ?_⟩
      have : ∀ n < 16, n ≠ (Nat.digitChar n).toNat ∧ n ≠ ((Nat.digitChar n).toUpper).toNat := by decide +kernel
      rcases h2 with rfl | rfl
      · exact (this n h1).1
      · exact (this n h1).2
    · omega
  · rintro c hc hno isSpace line code sc vk cap codes h1 h2 h3 ⟨code', e1, e2⟩
    obtain ⟨_, _, _, hu⟩ := codePart_exists isSpace line
    obtain rfl := hu _ h1
    obtain rfl := hu _ e1
    rw [h2] at e2
    rcases e2 with e2 | ⟨_, _, _, _, e3, e4, _⟩
    · simp only [List.length_cons] at e2; omega
    · cases e3
      rcases e4 [c] h3 with (h | h) | ⟨n, h, _⟩
      · simp at h
      · obtain ⟨d, hd, _⟩ := hint c _ h
        exact hno d hd
      · obtain ⟨d, hd, _⟩ := hint c _ h
        exact hno d hd

/-- **C80** holds for characters given by four hexadecimal digits. -/
theorem C80_partial (dig : Char → Option Nat) (a b c d : Char) (i j k l : Nat) (ha : HexDigit dig a i) (hb : HexDigit dig b j)
    (hc : HexDigit dig c k) (hd : HexDigit dig d l) (hi : i < 16) (hj : j < 16) (hk : k < 16) (hl : l < 16) :
    CodePoint dig [a, b, c, d] (4096 * i + 256 * j + 16 * k + l) := by
  refine ⟨⟨[], [a, b, c, d], _, rfl, ⟨[], [a, b, c, d], [i, j, k, l], rfl, .none, .next ha (.next hb (.next hc (.one hd))), rfl⟩, .inl ⟨by simp, ?_⟩⟩, by omega⟩
  simp only [List.reverse_cons, List.reverse_nil, List.nil_append, List.cons_append, Nat.ofDigits_cons, Nat.ofDigits_nil]
  push_cast
  ring

/-- Digits of other scripts are digits, also in the prefix. -/
example : let dig := fun c => if c = '٠' then some 0 else if c = '٦' then some 6 else none
    intHex dig "٠x_٦3٦".toList = some 0x636 ∧ intHex dig "0x".toList = none ∧ intHex dig "-0X1".toList = some (-1) ∧
      intHex dig "0_x1".toList = none ∧ intHex dig "٦x1".toList = none ∧ intHex dig "+0_0_4_1".toList = some 0x41 := by
  decide +kernel

example : HexDigit (fun _ => none) 'e' 14 ∧ ∀ n, ¬ HexDigit (fun _ => none) 'q' n := by
  refine ⟨.inl ⟨by decide, .inl rfl⟩, fun n => ?_⟩
  rw [← hexDigitValue_iff, show hexDigitValue (fun _ => none) 'q' = none from rfl]
  simp

/-! ### C81 -/

/-- **C81** is false: without a section `LIGATURE` the sections behind the layout are read as part of it. -/
theorem C81_false (dig : Char → Option Nat) (nfd : Nat → List Nat) :
    fromKlc asciiSpace dig nfd ["LAYOUT".toList, "10 Q 0 0636".toList, "KEYNAME".toList, "37 \"Num *\"".toList] = .error .assertionError ∧
      fromKlc asciiSpace dig nfd ["LAYOUT".toList, "10 Q 0 0636".toList] = .ok [[("Cl1", nfd 0x636)], [], [], [], [], []] :=
  ⟨rfl, rfl⟩

/-- **C81** holds in front of the section and behind the word `LIGATURE`. -/
theorem C81_partial (isSpace : Char → Bool) (hp : PlainMarkers isSpace) (dig : Char → Option Nat) (nfd : Nat → List Nat)
    (pre post : List Text) :
    ((∀ l ∈ pre, ¬ Opens isSpace l) → fromKlc isSpace dig nfd (pre ++ post) = fromKlc isSpace dig nfd post) ∧
    ∀ m, Closes isSpace m → (∀ l ∈ post, ¬ Opens isSpace l) → fromKlc isSpace dig nfd (pre ++ m :: post) = fromKlc isSpace dig nfd pre := by
  have hskip : ∀ (ls : List Text), (∀ l ∈ ls, ¬ Opens isSpace l) → ∀ layers : KlcLayers,
      ls.foldlM (klcLine isSpace dig nfd) (false, layers) = .ok (false, layers) := by
    intro ls
    induction ls with
    | nil => intro _ layers; rfl
    | cons l ls ih =>
      intro h layers
      have : klcLine isSpace dig nfd (false, layers) l = .ok (false, layers) := by
        unfold klcLine
        dsimp only
        rw [if_neg (fun hh => h l (by simp) ((opens_iff hp l).1 hh))]
        split <;> rfl
      rw [List.foldlM_cons, this]
      exact ih (fun x hx => h x (by simp [hx])) layers
  constructor
  · intro h
    unfold fromKlc
    rw [List.foldlM_append, hskip pre h]
    rfl
  · intro m hm h
    have hstep : ∀ s, klcLine isSpace dig nfd s m = .ok (false, s.2) := by
      intro s
      unfold klcLine
      dsimp only
      rw [if_neg (fun hh => opens_not_closes ((opens_iff hp m).1 hh) hm), if_pos ((closes_iff hp m).2 hm)]
    unfold fromKlc
    rw [List.foldlM_append]
    cases pre.foldlM (klcLine isSpace dig nfd) (false, List.replicate 6 []) with
    | error e => rfl
    | ok s =>
      show (List.foldlM (klcLine isSpace dig nfd) s (m :: post)).bind _ = _
      rw [List.foldlM_cons, hstep]
      show (List.foldlM (klcLine isSpace dig nfd) (false, s.2) post).bind _ = _
      rw [hskip post h]
      rfl

end Lulua.Props
