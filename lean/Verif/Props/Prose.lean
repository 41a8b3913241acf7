import Verif.Spec.Prose
import Verif.Props.Import

/-!
# C116: what the report says about the layouts
-/

namespace Lulua.Props
open Lulua Lulua.Spec

/-- What a claim says of the entry of a button in the layout file. -/
def claimEntry (c : Claim) (i : Nat) (n : String) : Bool :=
  (c.layer.all (· == i)) &&
  (c.row.all fun r => (List.range Data.ibmpc105.rows.length).all fun j =>
    match Data.ibmpc105.rows[j]? with
    | some row => !decide (n ∈ rowNames row) || decide (j = r.index)
    | none => true) &&
  match Data.fingermap.get? n with
  | some p => (c.hand.all (· == p.1)) && (c.finger.all (· == p.2))
  | none => false

def claimFile (c : Claim) (d : LayoutData) : Bool :=
  decide (c.text ∈ fileTexts d) &&
  d.layout.zipIdx.all fun g => g.1.layout.all fun e => !decide (e.2 = .str c.text) || claimEntry c g.2 e.1

theorem claims_file : ∀ c ∈ claims, ∀ d ∈ Data.layouts, d.name = c.layout → claimFile c d = true := by
  have h : (claims.all fun c => Data.layouts.all fun d => !decide (d.name = c.layout) || claimFile c d) = true := by
    decide +kernel
  intro c hc d hd hn
  have := List.all_eq_true.1 (List.all_eq_true.1 h c hc) d hd
  simpa [hn] using this

/-- **C116** (where the letters are): whatever the process loaded before, for every layout the report describes, every
letter it says something about is on the layout, and whenever the letter is typed in any text, it is typed in the row and
with the hand and finger the report says. -/
theorem C116_letters (names : List String) (t : InternTable) (kb : PhysicalKeyboard) (d' : KeyboardData)
    (hk : PhysicalKeyboard.deserialize (tableAfter names) Data.ibmpc105 = .ok (t, kb, d'))
    (d : LayoutData) (hd : d ∈ Data.layouts) (L : KeyboardLayout)
    (hL : (GenericLayout.deserialize d).specialize t kb = .ok L)
    (c : Claim) (hc : c ∈ claims) (hn : d.name = c.layout) :
    HasText L.layers c.text ∧ ∀ last text comb,
      Event.typed c.text comb ∈ (typeText (getHandFinger Data.fingermap t) L last text).1 →
        c.Holds (getHandFinger Data.fingermap t) kb L.layers comb := by
  have h2 := shipped_loaded hk
  have hg := shipped_good d hd
  obtain ⟨ls, h3, h4⟩ := load_layout h2 hg
  obtain ⟨ls', h5, _, hT⟩ := shipped_hasText hk hd hL
  rw [hL] at h3
  simp only [Except.ok.injEq] at h3
  have hcl := claims_file c hc d hd hn
  simp only [claimFile, Bool.and_eq_true, decide_eq_true_eq, List.all_eq_true, Bool.or_eq_true, Bool.not_eq_true',
    decide_eq_false_iff_not] at hcl
  obtain ⟨hmem, hall⟩ := hcl
  have hls : ls = ls' := by
    have := h3.symm.trans h5
    simpa [KeyboardLayout.mk'] using congrArg KeyboardLayout.layers this
  subst hls
  refine ⟨by rw [h3]; exact (hT _).2 hmem, ?_⟩
  intro last text comb hev
  rw [h3] at hev ⊢
  obtain ⟨md, b, rfl, l, hl, hmd, hb⟩ := mem_producers.1 (typed_producer hev)
  obtain ⟨i, hi, rfl⟩ := List.mem_iff_getElem.1 hl
  have hlen := h4.layers.length_eq
  have ht := (List.forall₂_iff_get.1 h4.layers).2 i (by omega) hi
  simp only [List.get_eq_getElem] at ht
  have hv := Dict.get?_of_mem (h4.wf _ hl) hb
  obtain ⟨n, hnb⟩ := ht.nothingElse b _ hv
  have he : (n, LVal.str c.text) ∈ (d.layout[i]'(by omega)).layout := Dict.mem_of_get? (by rw [← ht.texts n b hnb]; exact hv)
  have hce := hall (d.layout[i]'(by omega), i) (by
    rw [List.mem_zipIdx_iff_getElem?]; simp) _ he
  replace hce := hce.resolve_left (by simp)
  simp only [claimEntry, Bool.and_eq_true] at hce
  obtain ⟨⟨hc1, hc2⟩, hc3⟩ := hce
  refine ⟨i, hi, b, hmd, rfl, ?_, ?_, ?_⟩
  · intro j hj
    rw [hj] at hc1
    exact (by simpa using hc1 : j = i).symm
  · intro r hr
    rw [hr] at hc2
    simp only [Option.all_some, List.all_eq_true, List.mem_range] at hc2
    refine h2.getRow_eq hnb fun j hj hjn => ?_
    have := hc2 j hj
    rw [List.getElem?_eq_getElem hj] at this
    simpa [hjn] using this
  · cases hp : Data.fingermap.get? n with
    | none => rw [hp] at hc3; simp at hc3
    | some p =>
      rw [hp] at hc3
      simp only [Bool.and_eq_true] at hc3
      refine ⟨p.1, p.2, getHandFinger_called hnb hp, ?_, ?_⟩
      · intro h' hh
        rw [hh] at hc3
        exact (by simpa using hc3.1 : h' = p.1).symm
      · intro f' hf'
        rw [hf'] at hc3
        exact (by simpa using hc3.2 : f' = p.2).symm

/-- The fingers a layout types a text with. -/
def fingersOf (d : LayoutData) (text : Text) : List (Text × List (Direction × Finger)) :=
  match loadFirst d with
  | .ok (t, _, L) => (typeText (getHandFinger Data.fingermap t) L none text).1.map fun e => match e with
    | .typed m c => (m, c.iter.filterMap fun b => (getHandFinger Data.fingermap t b).toOption)
    | .skip c => ([c], [])
  | .error _ => []

/-- Non-trivial: four layouts typing the same word with the letters the report describes, of which one has a key for two of
the letters. -/
example :
    fingersOf Data.arLulua "الاول".toList = [(['ا'], [(.left, .middle)]), (['ل'], [(.right, .index)]),
      (['ا'], [(.left, .middle)]), (['و'], [(.left, .index)]), (['ل'], [(.right, .index)])] ∧
    fingersOf Data.arMalas "الاول".toList = [(['ا'], [(.left, .index)]), (['ل'], [(.right, .middle)]),
      (['ا'], [(.left, .index)]), (['و'], [(.left, .index)]), (['ل'], [(.right, .middle)])] ∧
    fingersOf Data.arLinux "الاول".toList = [(['ا'], [(.right, .index)]), (['ل', 'ا'], [(.left, .index)]),
      (['و'], [(.right, .middle)]), (['ل'], [(.left, .index)])] := by decide +kernel

/-! ### What is missing -/

/-- The characters the report says a layout lacks (lines 679 and 788). -/
def lacking : List (String × Char) :=
  [("ar-idlebi", '؟'), ("ar-idlebi", '،'), ("ar-osman", '؟'), ("ar-osman", '?')]

theorem count_eventsText (evs : List Event) (c : Char) (h : ∀ m b, Event.typed m b ∈ evs → c ∉ m) :
    (eventsText evs).count c = evs.countP (· = .skip c) := by
  induction evs with
  | nil => rfl
  | cons e evs ih =>
    have ih := ih fun m b hm => h m b (List.mem_cons_of_mem _ hm)
    simp only [eventsText] at ih
    simp only [eventsText, List.flatMap_cons, List.count_append, List.countP_cons, ih]
    cases e with
    | typed m b =>
      have := List.count_eq_zero.2 (h m b (by simp))
      simp only [eventText, this, reduceCtorEq, decide_false, Bool.false_eq_true, if_false]
      omega
    | skip x =>
      by_cases hx : x = c
      · subst hx; simp [eventText, Nat.add_comm]
      · simp [eventText, hx]

/-- A character no text of a layout has is left out every time it occurs. -/
theorem skip_count (name : String) (layers : List Layer) (kb : PhysicalKeyboard) (hf : HandFinger) (last : Option Comb)
    (text : Text) (hne : ∃ t, t ≠ [] ∧ HasText layers t)
    (hfin : (typeText hf (KeyboardLayout.mk' name layers kb) last text).2 = .finished)
    (c : Char) (hno : ∀ t, HasText layers t → c ∉ t) :
    (typeText hf (KeyboardLayout.mk' name layers kb) last text).1.countP (· = .skip c) = text.count c := by
  have h1 := C01_typing_lossless name layers kb hf last text hne hfin
  rw [← count_eventsText _ c fun m b h => hno m (typed_hasText h), h1]

theorem lacking_file : ∀ p ∈ lacking, ∀ d ∈ Data.layouts, d.name = p.1 →
    (∀ x ∈ fileTexts d, p.2 ∉ x) ∧ ∃ x ∈ fileTexts d, x ≠ [] := by
  have h : (lacking.all fun p => Data.layouts.all fun d => !decide (d.name = p.1) ||
      ((fileTexts d).all fun x => !decide (p.2 ∈ x)) && (fileTexts d).any fun x => !decide (x = [])) = true := by
    decide +kernel
  intro p hp d hd hn
  have := List.all_eq_true.1 (List.all_eq_true.1 h p hp) d hd
  simp only [hn, decide_true, Bool.not_true, Bool.false_or, Bool.and_eq_true, List.all_eq_true, Bool.not_eq_true',
    decide_eq_false_iff_not, List.any_eq_true] at this
  exact this

/-- **C116** (what is missing): a character the report says a layout lacks is left out as often as it occurs in a text. -/
theorem C116_missing (names : List String) (t : InternTable) (kb : PhysicalKeyboard) (d' : KeyboardData)
    (hk : PhysicalKeyboard.deserialize (tableAfter names) Data.ibmpc105 = .ok (t, kb, d'))
    (d : LayoutData) (hd : d ∈ Data.layouts) (L : KeyboardLayout)
    (hL : (GenericLayout.deserialize d).specialize t kb = .ok L)
    (p : String × Char) (hp : p ∈ lacking) (hn : d.name = p.1) (text : Text) :
    (typeText (getHandFinger Data.fingermap t) L none text).1.countP (· = .skip p.2) = text.count p.2 := by
  obtain ⟨ls, rfl, _, hT⟩ := shipped_hasText hk hd hL
  obtain ⟨h1, x, hx, hxe⟩ := lacking_file p hp d hd hn
  exact skip_count _ _ _ _ _ _ ⟨x, hxe, (hT x).2 hx⟩ (C71_typing names t kb d' hk d hd _ hL _).1 _
    fun s hs => h1 s ((hT s).1 hs)

example : ((loadFirst Data.arOsman).bind fun x =>
    .ok ((typeText (getHandFinger Data.fingermap x.1) x.2.2 none "ما؟ من؟".toList).1.countP (· = .skip '؟'))) = .ok 2 := by
  decide +kernel

/-! ### What is counted -/

/-- The places of a layout file: layer, button and text. -/
def places (d : LayoutData) : List (Nat × String × Text) :=
  d.layout.zipIdx.flatMap fun g => g.1.layout.filterMap fun e => match e.2 with
    | .str x => some (g.2, e.1, x)
    | .other _ => none

/-- Everything that looks like a single quote: the apostrophe, the typographic ones, the modifier letter, the prime, and
the grave and acute accent. -/
def singleQuotes : List Char := ['\'', '’', '‘', '‚', '‛', 'ʼ', '′', '`', '´']

/-- The Arabic letters without diacritics. -/
def isArabicLetter (c : Char) : Bool := decide (0x0620 ≤ c.toNat ∧ c.toNat ≤ 0x063f ∨ 0x0641 ≤ c.toNat ∧ c.toNat ≤ 0x064a)

/-- **C116** (partial: without the single quotes of `ar-osman`): what the report counts. `ar-osman` has two Arabic semicolons, and `ar-ergoarabic` has seventeen letters in its first
layer that are in the same place as in `ar-linux`. -/
theorem C116_counts_partial :
    ((places Data.arOsman).filter fun e => e.2.2 = ['؛']).length = 2 ∧
    ((places Data.arErgoarabic).filter fun e => decide (e.1 = 0 ∧ e ∈ places Data.arLinux) && match e.2.2 with
      | [c] => isArabicLetter c
      | _ => false).length = 17 := by decide +kernel

/-- **C116 is false** of the single quotes of `ar-osman`: the report says it has three, but there are only an apostrophe and
a grave accent, and the character the report shows is not on the layout. -/
theorem C116_false :
    ((places Data.arOsman).filter fun e => singleQuotes.any fun c => e.2.2 = [c]).map (·.2.2) = [['`'], ['\'']] ∧
    ∀ x ∈ fileTexts Data.arOsman, '’' ∉ x := by decide +kernel

/-- The names of the buttons in a row from left to right. -/
def rowFromLeft (r : BoardRow) : List String := (Data.ibmpc105.rows[r.index]?.map fun x => (x.1 ++ x.2).filterMap (·.name)).getD []

/-- **C116** (the modifiers): those of the layers of `ar-lulua` are as the report says (lines 291–297): shift on the left and
right; caps lock and the rightmost key of the middle row, apart from the return key; the key right of the left shift key and
Alt Gr, which is right of the space bar. -/
theorem C116_modifiers : ∃ key,
    Data.arLulua.layout.map (·.modifier) = [[[]], [["El_shift"], ["Er_shift"]], [["Dl_caps"], [key]], [["Fr_altgr"], ["El1"]]] ∧
    (∃ pre, rowFromLeft .home = pre ++ [key]) ∧ (∃ post, rowFromLeft .bottom = "El_shift" :: "El1" :: post) ∧
    (Data.ibmpc105.rows[4]?.map fun x => (x.2.take 2).map (·.name)) = some [some "Fr_space", some "Fr_altgr"] := by
  refine ⟨"Dr1", by decide +kernel, ?_, ?_, by decide +kernel⟩
  · exact ⟨(rowFromLeft .home).dropLast, by decide +kernel⟩
  · exact ⟨(rowFromLeft .bottom).drop 2, by decide +kernel⟩

end Lulua.Props
