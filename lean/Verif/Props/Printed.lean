import Verif.Proofs.Printed
import Verif.Props.Pretty
import Verif.Props.Page
import Verif.Props.Xml

/-!
# C124: the figures printed
-/

namespace Lulua.Props
open Lulua Spec

/-! ### One figure -/

/-- **C124** (figures): a number printed with decimals reads as the closest one that has so many; a minus is there if the
number is negative. -/
theorem C124_figure (d : Nat) (hd : 0 < d) (x : Rat) :
    Shows d x (fixedText d x) ∧ ((fixedText d x).head? = some '-' ↔ x < 0) ∧
    ∃ a b, fixedText d x = a ++ '.' :: b ∧ b.length = d ∧ (∀ c ∈ b, c.isDigit) ∧ (∀ c ∈ a, c.isDigit ∨ c = '-') := by
  refine ⟨fixedText_shows hd x, ?_, ?_⟩
  · unfold fixedText
    split
    · rename_i h; simp [h]
    · rename_i h
      obtain ⟨c, s, e, hc⟩ := fixedDigits_head d (halfEven (x.num.natAbs * 10 ^ d) x.den)
      rw [List.nil_append, e]
      simp only [List.head?_cons, Option.some.injEq, h, iff_false]
      rintro rfl
      exact absurd hc (by decide)
  · unfold fixedText fixedDigits
    generalize halfEven (x.num.natAbs * 10 ^ d) x.den = k
    obtain ⟨h1, _⟩ := zeros_natText hd (Nat.mod_lt k (show 0 < 10 ^ d by positivity))
    refine ⟨(if x < 0 then ['-'] else []) ++ natText (k / 10 ^ d), _, (List.append_assoc ..).symm, h1, ?_, ?_⟩
    · intro c hc
      rcases List.mem_append.1 hc with hc | hc
      · rw [List.eq_of_mem_replicate hc]; rfl
      · exact natText_digits _ c hc
    · intro c hc
      rcases List.mem_append.1 hc with hc | hc
      · right
        split at hc
        · simpa using hc
        · cases hc
      · exact .inl (natText_digits _ c hc)

/-- **C124** (one result, in order): a text shows at most one rounded number, and of two numbers the greater one is not
printed as the smaller. -/
theorem C124_order (d : Nat) (x y v w : Rat) (hv : Rounded d x v) (hw : Rounded d y w) :
    (x = y → v = w) ∧ (x ≤ y → v ≤ w) :=
  ⟨fun h => by subst h; exact rounded_unique hv hw, rounded_mono hv hw⟩

/-! ### `pretty` -/

/-- **C124** (lines of `pretty`): every line of a table reads as the entry, its count and its share. -/
theorem C124_lines (sh : Shown) (p : Pretty) (effort : Rat) : ∃ bs cs us hs cb ts ws,
    prettyLines sh p effort = ["button presses ".toList ++ natText p.presses] ++ bs ++
      ["combinations ".toList ++ natText p.combinationTotal] ++ cs ++ ["unknown".toList] ++ us ++ hs.flatten ++ ["combined".toList] ++ cb ++
      ["triads".toList] ++ ts ++ ["words ".toList ++ natText p.totalWords] ++ ws ++ ["total effort (carpalx) ".toList ++ sh.number effort] ∧
    List.Forall₂ (fun r line => ∃ n s, fields line = fields (sh.button r.1) ++ [n, s] ∧ wholeNumber n = some r.2.1 ∧
      ShowsPercent 1 r.2.2 s) p.buttons bs ∧
    List.Forall₂ (fun r line => ∃ i n s, fields line = i :: (fields r.text ++ fields (sh.comb r.comb)) ++ [n, s] ∧
      (0 ≤ r.rank → ∃ j, i = j ++ ['.'] ∧ (wholeNumber j).map Int.ofNat = some r.rank) ∧ wholeNumber n = some r.count ∧
      ShowsPercent 3 r.share s) p.combinations cs ∧
    List.Forall₂ (fun r line => ∃ n, fields line = fields (sh.char r.1) ++ [n] ∧ wholeNumber n = some r.2) p.unknown us ∧
    List.Forall₂ (fun h lines => ∃ rows, lines = sh.hand h.1 :: rows ∧ List.Forall₂ (fun r line => ∃ k n s, fields line = [k, n, s] ∧
      wholeNumber k = some r.1 ∧ wholeNumber n = some r.2.1 ∧ ShowsPercent 1 r.2.2 s) h.2 rows) p.hands hs ∧
    List.Forall₂ (fun r line => ∃ k n s, fields line = [k, n, s] ∧ wholeNumber k = some r.1 ∧ wholeNumber n = some r.2.1 ∧
      ShowsPercent 1 r.2.2 s) p.combined cb ∧
    List.Forall₂ (fun r line => ∃ n, fields line = fields (sh.triad r.1) ++ [n] ∧ wholeNumber n = some r.2) p.triads ts ∧
    List.Forall₂ (fun r line => ∃ s n, fields line = fields r.1 ++ [s, n] ∧ wholeNumber n = some r.2.1 ∧ Shows 5 r.2.2 s) p.words ws := by
  have hrun : ∀ r : Nat × Nat × Rat, ∃ k n s, fields (runLine r) = [k, n, s] ∧ wholeNumber k = some r.1 ∧ wholeNumber n = some r.2.1 ∧
      ShowsPercent 1 r.2.2 s := by
    intro r
    refine ⟨_, _, _, ?_, wholeNumber_natText _, wholeNumber_natText _, _, rfl, fixedText_shows (by omega) _⟩
    unfold runLine
    rw [fields_percent_end, fields_number_end, fields_number]
    rfl
  have hmap : ∀ {α : Type} (R : α → Text → Prop) (f : α → Text) (l : List α), (∀ a, R a (f a)) → List.Forall₂ R l (l.map f) := by
    intro α R f l h
    exact List.forall₂_map_right_iff.2 (List.forall₂_same.2 fun a _ => h a)
  refine ⟨_, _, _, p.hands.map (fun h => sh.hand h.1 :: h.2.map runLine), _, _, _, ?_, hmap _ (buttonLine sh) _ ?_,
    hmap _ (combinationLine sh) _ ?_, hmap _ (unknownLine sh) _ ?_, ?_, hmap _ runLine _ hrun, hmap _ (triadLine sh) _ ?_,
    hmap _ wordLine _ ?_⟩
  · rfl
  · intro r
    refine ⟨_, _, ?_, wholeNumber_natText _, _, rfl, fixedText_shows (by omega) _⟩
    unfold buttonLine
    rw [fields_percent_end, fields_number_end, List.append_assoc]
    rfl
  · intro r
    refine ⟨((if r.rank < 0 then ['-'] else []) ++ natText r.rank.natAbs) ++ ['.'], _, _, ?_, ?_, wholeNumber_natText _, _, rfl,
      fixedText_shows (by omega) _⟩
    · unfold combinationLine
      rw [fields_percent_end, fields_number_end]
      have e1 : signedRank r.rank ++ ". ".toList ++ padRight 4 r.text ++ [' '] ++ sh.comb r.comb =
          (signedRank r.rank ++ ['.']) ++ ' ' :: (padRight 4 r.text ++ ' ' :: sh.comb r.comb) := by
        simp [List.append_assoc]
      have e2 : fields (signedRank r.rank ++ ['.']) = [((if r.rank < 0 then ['-'] else []) ++ natText r.rank.natAbs) ++ ['.']] := by
        unfold signedRank padLeft
        rw [List.append_assoc, fields_blanks]
        have hw : ' ' ∉ natText r.rank.natAbs ++ ['.'] := by
          rw [List.mem_append, not_or]; exact ⟨(natText_noBlank _).1, by decide⟩
        split
        · refine fields_word (w := '-' :: (natText r.rank.natAbs ++ ['.'])) ?_ (by simp)
          rw [List.mem_cons, not_or]
          exact ⟨by decide, hw⟩
        · rw [List.cons_append]
          have := fields_blank [] (natText r.rank.natAbs ++ ['.'])
          rw [List.nil_append] at this
          rw [this, fields_word hw (by simp)]
          rfl
      have e3 : fields (padRight 4 r.text) = fields r.text := by
        unfold padRight
        exact fields_blanks_end _ _
      rw [e1, fields_blank, fields_blank, e2, e3]
      simp [List.append_assoc]
    · intro h0
      rw [if_neg (not_lt.2 h0)]
      refine ⟨_, rfl, ?_⟩
      rw [List.nil_append, wholeNumber_natText, Option.map_some, Option.some.injEq]
      exact Int.natAbs_of_nonneg h0
  · intro r
    refine ⟨_, ?_, wholeNumber_natText _⟩
    unfold unknownLine
    rw [fields_number_end]
  · refine List.forall₂_map_right_iff.2 (List.forall₂_same.2 fun h _ => ⟨_, rfl, hmap _ _ _ hrun⟩)
  · intro r
    refine ⟨_, ?_, wholeNumber_natText _⟩
    unfold triadLine
    rw [fields_number_end]
  · intro r
    refine ⟨_, _, ?_, wholeNumber_natText _, fixedText_shows (by omega) _⟩
    unfold wordLine
    rw [fields_number_end, List.append_assoc, List.cons_append, List.nil_append, fields_blank]
    unfold padRight
    rw [fields_blanks_end, fields_padLeft _ (fixedText_noBlank _ _).1 (fixedText_noBlank _ _).2, List.append_assoc]
    rfl

/-- Two buttons, two combinations with their text, a run of each hand and two words. -/
def figuresShown : Shown where
  button b := 'B' :: natText b
  comb c := (c.modifier ++ c.buttons).flatMap natText
  char c := [c]
  hand | .left => "left".toList | .right => "right".toList
  triad _ := "t".toList
  number x := fixedText 2 x

def figuresPretty : Pretty where
  presses := 8
  buttons := [(31, 3, 75 / 2), (30, 5, 125 / 2)]
  combinationTotal := 7
  combinations := [⟨2, "ب".toList, ⟨[], [31]⟩, 3, 300 / 7⟩, ⟨1, "ا".toList, ⟨[7], [30]⟩, 4, 400 / 7⟩]
  unknown := [('x', 12)]
  hands := [(.left, [(1, 2, 200 / 3), (2, 1, 100 / 3)])]
  combined := [(1, 2, 200 / 3), (2, 1, 100 / 3)]
  triads := [((⟨[], [30]⟩, ⟨[], [31]⟩, ⟨[], [30]⟩), 9)]
  totalWords := 3
  words := [("اب".toList, 3, 100)]

example : prettyLines figuresShown figuresPretty (7 / 3) = List.map String.toList ["button presses 8", "B31          3  37.5%", "B30          5  62.5%",
    "combinations 7", "  2. ب    31          3  42.857%", "  1. ا    730          4  57.143%", "unknown", "x         12", "left",
    " 1          2  66.7%", " 2          1  33.3%", "combined", " 1          2  66.7%", " 2          1  33.3%", "triads", "t          9",
    "words 3", "اب                   100.00000          3", "total effort (carpalx) 2.33"] := by decide +kernel

/-- Shares are between zero and a hundred. -/
theorem share_range {κ : Type} {d : List (κ × Nat)} {rows : List (κ × Nat × Rat)} (h : ShareTable d rows) (r : κ × Nat × Rat)
    (hr : r ∈ rows) : 0 ≤ r.2.2 ∧ r.2.2 ≤ 100 := by
  have hpos : (0 : Rat) < ((d.map Prod.snd).sum : Nat) := by exact_mod_cast h.positive (List.ne_nil_of_mem hr)
  have hs := h.share r hr
  have hle : r.2.1 ≤ (d.map Prod.snd).sum := by
    have hm : (r.1, r.2.1) ∈ d := h.entries.mem_iff.1 (List.mem_map.2 ⟨r, hr, rfl⟩)
    exact List.le_sum_of_mem (List.mem_map.2 ⟨_, hm, rfl⟩)
  have hle' : (r.2.1 : Rat) ≤ ((d.map Prod.snd).sum : Nat) := by exact_mod_cast hle
  have h0 : (0 : Rat) ≤ r.2.1 := by positivity
  constructor
  · by_contra hn
    have := mul_neg_of_neg_of_pos (not_le.1 hn) hpos
    rw [hs] at this
    linarith
  · by_contra hn
    have := mul_lt_mul_of_pos_right (not_le.1 hn) hpos
    rw [hs] at this
    linarith

theorem padLeft_length {w : Nat} {s : Text} (h : s.length ≤ w) : (padLeft w s).length = w := by
  unfold padLeft
  rw [List.length_append, List.length_replicate]
  omega

/-- **C124** (columns): as long as counts have at most ten digits and runs at most two, the lines of a table of runs are of
the same length, and those of the table of buttons are longer than the name of the button by the same length. -/
theorem C124_columns (sh : Shown) (u : UniData) (L : KeyboardLayout) (s : AllStats) (hw : ∀ h ∈ s.runlen.perHand, h.2.WF) (p : Pretty)
    (h : prettyTables u L s = .ok p) :
    (∀ r ∈ p.buttons, r.2.1 < 10 ^ 10 → (buttonLine sh r).length = (sh.button r.1).length + 18) ∧
    (∀ t ∈ p.combined :: p.hands.map Prod.snd, ∀ r ∈ t, r.1 < 100 → r.2.1 < 10 ^ 10 → (runLine r).length = 20) := by
  obtain ⟨⟨_, hb, _⟩, _, _, hh, ⟨c, _, _, hc⟩, _⟩ := C107_tables u L s hw p h
  have hn : ∀ k m, m < 10 ^ k → 0 < k → (padLeft k (natText m)).length = k := fun k m hm hk =>
    padLeft_length ((Nat.length_toDigits_le_iff (by omega) hk).2 hm)
  have hrun : ∀ {d : List (Nat × Nat)} {rows}, ShareTable d rows → ∀ r ∈ rows, r.1 < 100 → r.2.1 < 10 ^ 10 → (runLine r).length = 20 := by
    intro d rows ht r hr h1 h2
    obtain ⟨s0, s1⟩ := share_range ht r hr
    unfold runLine
    simp only [List.length_append, List.length_singleton, hn 2 _ h1 (by omega), hn 10 _ h2 (by omega),
      padLeft_length (fixedText_width (d := 1) (by omega) s0 s1)]
  refine ⟨fun r hr h1 => ?_, fun t ht r hr h1 h2 => ?_⟩
  · obtain ⟨s0, s1⟩ := share_range hb r hr
    unfold buttonLine
    simp only [List.length_append, List.length_singleton, hn 10 _ h1 (by omega),
      padLeft_length (fixedText_width (d := 1) (by omega) s0 s1)]
  · rw [List.mem_cons] at ht
    rcases ht with rfl | ht
    · exact hrun hc r hr h1 h2
    · obtain ⟨q, hq, rfl⟩ := List.mem_map.1 ht
      obtain ⟨e, _, _, h3, _⟩ := forall2_mem_right hh hq
      exact hrun h3 r hr h1 h2

/-- **C124** (order of `pretty`): the percentages printed are in the order of the lines. -/
theorem C124_sorted (u : UniData) (L : KeyboardLayout) (s : AllStats) (hw : ∀ h ∈ s.runlen.perHand, h.2.WF) (p : Pretty)
    (h : prettyTables u L s = .ok p) :
    let Ordered := fun texts : List Text => texts.Pairwise fun a b => ∀ v w, readDecimal a = some v → readDecimal b = some w → v ≤ w
    Ordered (p.buttons.map fun r => fixedText 1 r.2.2) ∧ Ordered (p.words.map fun r => fixedText 5 r.2.2) ∧
    Ordered (p.combinations.map fun r => fixedText 3 r.share) := by
  intro Ordered
  obtain ⟨⟨_, hb, hb'⟩, ⟨_, hc, _, hrank, hc'⟩, _, _, _, _, _, hws, hws'⟩ := C107_tables u L s hw p h
  have text : ∀ (d : Nat), 0 < d → ∀ x y : Rat, x ≤ y → ∀ v w, readDecimal (fixedText d x) = some v → readDecimal (fixedText d y) = some w → v ≤ w := by
    intro d hd x y hxy v w hv hwd
    obtain ⟨v', h1, h2⟩ := fixedText_shows hd x
    obtain ⟨w', h3, h4⟩ := fixedText_shows hd y
    rw [h1, Option.some.injEq] at hv
    rw [h3, Option.some.injEq] at hwd
    subst hv hwd
    exact rounded_mono h2 h4 hxy
  have share : ∀ {κ : Type} {d : List (κ × Nat)} {rows : List (κ × Nat × Rat)}, ShareTable d rows → ∀ a ∈ rows, ∀ b ∈ rows,
      a.2.1 ≤ b.2.1 → a.2.2 ≤ b.2.2 := by
    intro κ d rows ht a ha b hb hab
    have hpos : (0 : Rat) < ((d.map Prod.snd).sum : Nat) := by exact_mod_cast ht.positive (List.ne_nil_of_mem ha)
    have h1 := ht.share a ha
    have h2 := ht.share b hb
    have h3 : (a.2.1 : Rat) ≤ b.2.1 := by exact_mod_cast hab
    by_contra hn
    have := mul_lt_mul_of_pos_right (not_le.1 hn) hpos
    rw [h1, h2] at this
    linarith
  have table : ∀ {κ : Type} {d : List (κ × Nat)} {rows : List (κ × Nat × Rat)} (k : Nat), 0 < k → ShareTable d rows →
      (rows.Pairwise fun a b => a.2.1 ≤ b.2.1) → Ordered (rows.map fun r => fixedText k r.2.2) := by
    intro κ d rows k hk ht hp
    refine List.pairwise_map.2 (hp.imp_of_mem fun ha hb hab => ?_)
    exact text k hk _ _ (share ht _ ha _ hb hab)
  refine ⟨table 1 (by omega) hb hb', table 5 (by omega) hws hws', ?_⟩
  have hp : (p.combinations.map fun r => (r.comb, r.count, r.share)).Pairwise fun a b => a.2.1 ≤ b.2.1 := by
    rw [List.pairwise_map, List.pairwise_iff_getElem]
    intro i j hi hj hij
    refine hc' _ (List.getElem_mem hj) _ (List.getElem_mem hi) ?_
    have key : ∀ k (hk : k < p.combinations.length), p.combinations[k].rank = p.combinations.length - k := by
      intro k hk
      have := congrArg (fun l => l[p.combinations.length - 1 - k]?) hrank
      rw [List.getElem?_reverse (by simp; omega), List.getElem?_map, List.getElem?_map, List.getElem?_range (by omega),
        List.length_map, List.getElem?_eq_getElem (by omega)] at this
      simp only [Option.map_some, Option.some.injEq] at this
      have e : p.combinations.length - 1 - (p.combinations.length - 1 - k) = k := by omega
      simp only [e] at this
      rw [this]
      omega
    rw [key i hi, key j hj]
    omega
  have := table 3 (by omega) hc hp
  rwa [List.map_map] at this

/-- **C124** (sums): the percentages printed in a table add up to a hundred, up to half a digit per line. -/
theorem C124_sum {κ : Type} (d : List (κ × Nat)) (rows : List (κ × Nat × Rat)) (h : ShareTable d rows) (hne : rows ≠ []) (k : Nat)
    (hk : 0 < k) : ∃ vs, List.Forall₂ (fun r v => readDecimal (fixedText k r.2.2) = some v) rows vs ∧
      |vs.sum - 100| * 10 ^ k ≤ rows.length / 2 := by
  have hex : ∀ l : List (κ × Nat × Rat), ∃ vs, List.Forall₂ (fun r v => readDecimal (fixedText k r.2.2) = some v) l vs ∧
      List.Forall₂ (Rounded k) (l.map fun r => r.2.2) vs := by
    intro l
    induction l with
    | nil => exact ⟨[], .nil, .nil⟩
    | cons r l ih =>
      obtain ⟨vs, h1, h2⟩ := ih
      obtain ⟨v, h3, h4⟩ := fixedText_shows hk r.2.2
      exact ⟨v :: vs, .cons h3 h1, .cons h4 h2⟩
  obtain ⟨vs, h1, h2⟩ := hex rows
  refine ⟨vs, h1, ?_⟩
  have := rounded_sum h2
  rwa [h.hundred hne, List.length_map] at this

/-- **C124 is false** for sums: three entries of the same count are printed as 33.3 % each. And the columns of the table of words are
not aligned: a share of less than ten percent takes less room. -/
theorem C124_sum_false : ∃ (d : List (Nat × Nat)) (rows : List (Nat × Nat × Rat)), ShareTable d rows ∧
    rows.map (fun r => String.ofList (runLine r)) = [" 1          5  33.3%", " 2          5  33.3%", " 3          5  33.3%"] := by
  refine ⟨[(1, 5), (2, 5), (3, 5)], [(1, 5, 100 / 3), (2, 5, 100 / 3), (3, 5, 100 / 3)], ⟨?_, ?_, ?_, ?_⟩, ?_⟩
  · exact .refl _
  · intro _; decide
  · intro r hr
    simp only [List.mem_cons, List.not_mem_nil, or_false] at hr
    rcases hr with rfl | rfl | rfl <;> norm_num
  · intro _; norm_num
  · decide +kernel

theorem C124_columns_false : ∃ (d : List (Text × Nat)) (rows : List (Text × Nat × Rat)), ShareTable d rows ∧
    rows.map (fun r => String.ofList (wordLine r)) =
      ["من                   5.00000          1", "في                   95.00000         19"] := by
  refine ⟨[("من".toList, 1), ("في".toList, 19)], [("من".toList, 1, 5), ("في".toList, 19, 95)], ⟨?_, ?_, ?_, ?_⟩, ?_⟩
  · exact .refl _
  · intro _; decide
  · intro r hr
    simp only [List.mem_cons, List.not_mem_nil, or_false] at hr
    rcases hr with rfl | rfl <;> norm_num
  · intro _; norm_num
  · decide +kernel

/-! ### The page -/

/-- **C124** (tables of the page): the shares of both hands and the widths of their parts add up to exactly a hundred as printed. The
widths of the fingers add up to a hundred and their shares to that of the hand, up to half a digit each. The asymmetry is the
difference of the shares printed, up to the rounding. -/
theorem C124_table (hf : HandFinger) (L : KeyboardLayout) (s : SimpleStats) (r : LayoutStats) (h : layoutstats hf L s = .ok r)
    (name : String) (bars : List HandBar) (hb : fingerHandStats r.toHandStats = .ok bars) :
    ∃ left right : HandBar, bars = [left, right] ∧ left.hand = .left ∧ right.hand = .right ∧
      (∃ v w, readDecimal (handTexts left).1 = some v ∧ readDecimal (handTexts right).1 = some w ∧ v + w = 100) ∧
      (∃ v w a, readDecimal (handTexts left).2.1 = some v ∧ readDecimal (handTexts right).2.1 = some w ∧ v + w = 100 ∧
        readDecimal (asymmetryText ⟨name, bars, r.asymmetry⟩) = some a ∧ |a - (v - w) / 100| ≤ 6 / 10000) ∧
      ∀ b ∈ bars, Shows 3 b.pct (handTexts b).1 ∧ Shows 2 b.pct (handTexts b).2.1 ∧
        List.Forall₂ (fun f t => Shows 3 f.width t.1 ∧ Shows 2 f.pct t.2) b.fingers (handTexts b).2.2 ∧
        ∃ ws ps, List.Forall₂ (fun t w => readDecimal (Prod.fst t) = some w) (handTexts b).2.2 ws ∧
          List.Forall₂ (fun t p => readDecimal (Prod.snd t) = some p) (handTexts b).2.2 ps ∧
          |ws.sum - 100| ≤ 25 / 10000 ∧ ∃ v, readDecimal (handTexts b).2.1 = some v ∧ |ps.sum - v| ≤ 3 / 100 := by
  obtain ⟨h1, h2, h3⟩ := C91_table hf L s r h bars hb
  obtain ⟨q1, q2, q3, q4⟩ := C91_figures hf L s r h
  obtain ⟨left, right, rfl⟩ : ∃ l r, bars = [l, r] := by
    apply List.length_eq_two.1
    have := congrArg List.length h1
    rwa [List.length_map] at this
  · have h1 := h1
    simp only [List.map_cons, List.map_nil, List.cons.injEq, and_true] at h1
    obtain ⟨hl, hr⟩ := h1
    simp only [List.map_cons, List.map_nil, List.sum_cons, List.sum_nil, add_zero] at h2
    have hright : right.pct = (100 : Int) - left.pct := by push_cast; linarith
    have sum : ∀ d, 0 < d → ∃ v w, readDecimal (fixedText d left.pct) = some v ∧ readDecimal (fixedText d right.pct) = some w ∧
        v + w = 100 ∧ Rounded d left.pct v := by
      intro d hd
      obtain ⟨v, v1, v2⟩ := fixedText_shows hd left.pct
      obtain ⟨w, w1, w2⟩ := fixedText_shows hd right.pct
      refine ⟨v, w, v1, w1, ?_, v2⟩
      have := rounded_complement 100 (by decide) v2
      rw [← hright] at this
      have := rounded_unique w2 this
      push_cast at this
      linarith
    refine ⟨left, right, rfl, hl, hr, ?_, ?_, ?_⟩
    · obtain ⟨v, w, v1, w1, hs, _⟩ := sum 3 (by omega)
      exact ⟨v, w, v1, w1, hs⟩
    · obtain ⟨v, w, v1, w1, hs, v2⟩ := sum 2 (by omega)
      obtain ⟨a, a1, a2⟩ := fixedText_shows (d := 3) (by omega) r.asymmetry
      refine ⟨v, w, a, v1, w1, hs, a1, ?_⟩
      have e : r.asymmetry = (left.pct - right.pct) / 100 := by
        have el := (h3 left (by simp)).2.2.2.1
        have er := (h3 right (by simp)).2.2.2.1
        rw [hl, ← q1] at el
        rw [hr, ← q1] at er
        have hb0 : (r.buttonPresses : Rat) ≠ 0 := by
          have h0 := fingerHandStats_ok.1 hb
          exact_mod_cast (h0.1 .left).1
        rw [q4]
        field_simp
        linarith
      have c2 := v2.closest
      have c3 : |a - r.asymmetry| ≤ 5 / 10000 := by
        have := a2.closest
        norm_num at this ⊢
        linarith
      have c4 : |v - left.pct| ≤ 5 / 1000 := by
        norm_num at c2 ⊢
        linarith
      have ew : w = 100 - v := by linarith
      have ep : right.pct = 100 - left.pct := by linarith
      rw [e, ep] at c3
      rw [ew]
      rw [abs_le] at c3 c4 ⊢
      constructor <;> linarith
    · intro b hbm
      obtain ⟨f1, f2, f3, _⟩ := h3 b hbm
      have hlen : b.fingers.length = 5 := by
        have := congrArg List.length f1
        rw [List.length_map] at this
        rw [this]
        cases b.hand <;> rfl
      refine ⟨fixedText_shows (by omega) _, fixedText_shows (by omega) _, ?_, ?_⟩
      · exact List.forall₂_map_right_iff.2 (List.forall₂_same.2 fun f _ => ⟨fixedText_shows (by omega) _, fixedText_shows (by omega) _⟩)
      · have hex : ∀ l : List FingerBar, ∃ ws ps, List.Forall₂ (fun t w => readDecimal (Prod.fst t) = some w) (l.map fingerTexts) ws ∧
            List.Forall₂ (fun t p => readDecimal (Prod.snd t) = some p) (l.map fingerTexts) ps ∧
            List.Forall₂ (Rounded 3) (l.map FingerBar.width) ws ∧ List.Forall₂ (Rounded 2) (l.map FingerBar.pct) ps := by
          intro l
          induction l with
          | nil => exact ⟨[], [], .nil, .nil, .nil, .nil⟩
          | cons f l ih =>
            obtain ⟨ws, ps, i1, i2, i3, i4⟩ := ih
            obtain ⟨v, v1, v2⟩ := fixedText_shows (d := 3) (by omega) f.width
            obtain ⟨w, w1, w2⟩ := fixedText_shows (d := 2) (by omega) f.pct
            exact ⟨v :: ws, w :: ps, .cons v1 i1, .cons w1 i2, .cons v2 i3, .cons w2 i4⟩
        obtain ⟨ws, ps, i1, i2, i3, i4⟩ := hex b.fingers
        obtain ⟨v, v1, v2⟩ := fixedText_shows (d := 2) (by omega) b.pct
        have s1 := rounded_sum i3
        have s2 := rounded_sum i4
        have s3 := v2.closest
        rw [f3, List.length_map, hlen] at s1
        rw [f2, List.length_map, hlen] at s2
        refine ⟨ws, ps, i1, i2, ?_, v, v1, ?_⟩
        · norm_num at s1 ⊢
          linarith
        · have t2 : |ps.sum - b.pct| ≤ 25 / 1000 := by norm_num at s2 ⊢; linarith
          have t3 : |v - b.pct| ≤ 5 / 1000 := by norm_num at s3 ⊢; linarith
          rw [abs_le] at t2 t3 ⊢
          constructor <;> linarith

/-- **C124 is false** for the bars of the fingers: they may be wider than their hand, if only by a thousandth of a percent. -/
theorem C124_bars_false : ∃ (text : Text) (r : LayoutStats) (bars : List HandBar) (b : HandBar) (ws : List Rat),
    layoutstats tenHf tenLayout ((typeText tenHf tenLayout none text).1.foldl SimpleStats.process .init) = .ok r ∧
    fingerHandStats r.toHandStats = .ok bars ∧ b ∈ bars ∧
    List.Forall₂ (fun t w => readDecimal (Prod.fst t) = some w) (handTexts b).2.2 ws ∧ 100 < ws.sum := by
  refine ⟨tenLetters ++ ['ا', 'ا', 'ي', 'د'], _, _, ⟨.right, 300 / 7, [⟨.thumb, 100 / 3, 100 / 7⟩, ⟨.index, 50 / 3, 50 / 7⟩,
    ⟨.middle, 50 / 3, 50 / 7⟩, ⟨.ring, 50 / 3, 50 / 7⟩, ⟨.little, 50 / 3, 50 / 7⟩]⟩,
    [33333 / 1000, 16667 / 1000, 16667 / 1000, 16667 / 1000, 16667 / 1000], rfl, rfl, ?_, ?_, ?_⟩
  · decide +kernel
  · repeat' constructor
    all_goals decide +kernel
  · norm_num

/-- **C124** (hamza): the figure about hamza on the page. -/
theorem C124_hamza (lower : Text → Text) (corpusFiles : List (List (Option CorpusDoc))) (statsFiles : List (String × LayoutStats))
    (p : Page) (h : renderPage lower corpusFiles statsFiles = .ok p) :
    ∃ s, LastOf statsFiles "ar-osx" s ∧ Shows 1 (s.hamzaImpact * 100) (hamzaText p) := by
  simp only [renderPage, bind_ok_iff, used_ok, lastOf_iff, Except.ok.injEq] at h
  obtain ⟨_, _, _, _, _, _, s, hs, _, _, _, _, rfl⟩ := h
  exact ⟨s, hs, fixedText_shows (by omega) _⟩

/-! ### AnySoftKeyboard -/

theorem fixedText_xml (d : Nat) (x : Rat) : XmlText (fixedText d x) := by
  have hdig : ∀ c : Char, c.isDigit → XmlChar c := by
    intro c hc
    obtain ⟨h1, h2⟩ := Char.isDigit_iff_toNat.1 hc
    have e0 : '0'.toNat = 48 := rfl
    have e9 : '9'.toNat = 57 := rfl
    exact .inr (.inr (.inr (.inl ⟨by omega, by omega⟩)))
  have hz : XmlChar '0' := by decide
  intro c hc
  unfold fixedText fixedDigits at hc
  simp only [List.mem_append, List.mem_cons] at hc
  rcases hc with hc | hc | rfl | hc | hc
  · split at hc
    · rw [List.mem_singleton.1 hc]; decide
    · cases hc
  · exact hdig c (natText_digits _ c hc)
  · decide
  · rw [List.eq_of_mem_replicate hc]; exact hz
  · exact hdig c (natText_digits _ c hc)

theorem ask_row_keys {nfc : Text → Text} {L : KeyboardLayout} {kb : PhysicalKeyboard} {rows : List AskRow} {bottom : List (Dict String String)}
    (h : ask nfc L kb = .ok (rows, bottom)) (r : AskRow) (hr : r ∈ rows) : ∃ kr ∈ kb.rows, ∃ n, n ≠ 0 ∧
      n = ((kr.1 ++ kr.2).filter fun x => x.kind = .letter ∧ L.isModifier (frozenset [x.i]) = false).length ∧
      r.keys.length = n ∧ r.width = 100 / n := by
  simp only [ask, bind_ok_iff, Except.ok.injEq, Prod.mk.injEq] at h
  obtain ⟨as, h1, rfl, rfl⟩ := h
  obtain ⟨o, ho, ho'⟩ := List.mem_filterMap.1 hr
  obtain rfl : o = some r := ho'
  obtain ⟨kr, hkr, h2⟩ := forall2_mem_right ((mapM_ok_iff ..).1 h1) ho
  refine ⟨kr, hkr, _, ?_, rfl, ?_⟩
  all_goals
    unfold askRow at h2
    simp only at h2
    split at h2
    · cases h2
    · rename_i b bs hbs
      simp only [bind_ok_iff] at h2
      obtain ⟨i, _, h3⟩ := h2
      split at h3
      · cases h3
      · simp only [bind_ok_iff, Except.ok.injEq, Option.some.injEq] at h3
        obtain ⟨keys, h4, rfl⟩ := h3
        first
        | exact ⟨((mapM_ok_iff ..).1 h4).length_eq.symm, rfl⟩
        | (rw [hbs]; simp)

/-- **C124** (widths of keys): every row written for AnySoftKeyboard has a key, its keys are all as wide as what is closest to an equal
share of the screen, and together they miss the width of the screen by no more than half a hundredth of a percent for each. -/
theorem C124_ask (nfc : Text → Text) (L : KeyboardLayout) (kb : PhysicalKeyboard) (rows : List AskRow)
    (bottom : List (Dict String String)) (h : ask nfc L kb = .ok (rows, bottom)) (r : AskRow) (hr : r ∈ rows) :
    r.keys ≠ [] ∧ ∃ t v, keyWidthText r = t ++ "%p".toList ∧ readDecimal t = some v ∧ Rounded 2 (100 / r.keys.length) v ∧
      |r.keys.length * v - 100| ≤ r.keys.length / 200 := by
  obtain ⟨_, _, n, h0, _, hk, hw⟩ := ask_row_keys h r hr
  refine ⟨by rintro e; rw [e] at hk; exact h0 hk.symm, ?_⟩
  obtain ⟨v, v1, v2⟩ := fixedText_shows (d := 2) (by omega) r.width
  rw [hw] at v2
  rw [hk]
  refine ⟨_, v, rfl, v1, v2, ?_⟩
  have hn : (0 : Rat) < n := by exact_mod_cast Nat.pos_of_ne_zero h0
  have hc : |v - 100 / n| ≤ 1 / 200 := by have := v2.closest; norm_num at this ⊢; linarith
  have e : (n : Rat) * v - 100 = n * (v - 100 / n) := by field_simp
  rw [e, abs_mul, abs_of_pos hn]
  calc (n : Rat) * |v - 100 / n| ≤ n * (1 / 200) := mul_le_mul_of_nonneg_left hc hn.le
    _ = n / 200 := by ring

/-- Seven keys in a row. -/
def sevenKb : PhysicalKeyboard :=
  PhysicalKeyboard.mk' "" "" [((List.range 7).map (keymanBtn · ""), []), ([], [keymanBtn 7 ""])]

def sevenLayout : KeyboardLayout := KeyboardLayout.mk' "" [⟨[[]], [(0, .str ['a'])]⟩] sevenKb

/-- **C124 is false** for the widths of keys: seven keys are wider than the screen. -/
theorem C124_ask_false : ∃ rows bottom r, ask id sevenLayout sevenKb = .ok (rows, bottom) ∧ r ∈ rows ∧
    keyWidthText r = "14.29%p".toList ∧ r.keys.length = 7 := by
  refine ⟨_, _, ⟨100 / 7, true, ⟨[97], ['a'], [], []⟩ :: List.replicate 6 ⟨[], [], [], []⟩⟩, rfl, ?_, ?_, rfl⟩
  · decide +kernel
  · decide +kernel

/-- The total of what is written for a row of `n` keys, in hundredths. -/
def rowTotal (n : Nat) : Nat := n * halfEven ((100 / n : Rat).num.natAbs * 10 ^ 2) (100 / n : Rat).den

def askFitsShipped (d : LayoutData) : Bool :=
  match loadFirst d with
  | .ok x => x.2.1.rows.all fun r =>
      rowTotal ((r.1 ++ r.2).filter fun b => b.kind = .letter ∧ x.2.2.isModifier (frozenset [b.i]) = false).length ≤ 10000
  | .error _ => false

theorem askFitsShipped_all : ∀ d ∈ Data.layouts, askFitsShipped d = true := by decide +kernel

/-- **C124**: the rows of all shipped layouts fit on the screen. -/
theorem C124_ask_shipped (nfc : Text → Text) : ∀ d ∈ Data.layouts, ∃ t kb L, loadFirst d = .ok (t, kb, L) ∧
    ∀ rows bottom, ask nfc L kb = .ok (rows, bottom) → ∀ r ∈ rows, ∃ v, readDecimal (fixedText 2 r.width) = some v ∧
      r.keys.length * v ≤ 100 := by
  intro d hd
  have h := askFitsShipped_all d hd
  unfold askFitsShipped at h
  cases hx : loadFirst d with
  | error e => rw [hx] at h; cases h
  | ok x =>
    obtain ⟨t, kb, L⟩ := x
    rw [hx] at h
    simp only [List.all_eq_true, decide_eq_true_eq] at h
    refine ⟨t, kb, L, rfl, fun rows bottom ha r hr => ?_⟩
    obtain ⟨kr, hkr, n, h0, hn, hk, hw⟩ := ask_row_keys ha r hr
    have h1 := h kr hkr
    rw [← hn] at h1
    obtain ⟨v, v1, v2⟩ := fixedText_shows (d := 2) (by omega) r.width
    refine ⟨v, v1, ?_⟩
    rw [hw] at v2
    rw [rounded_unique v2 (halfEven_rounded 2 (100 / n) (by positivity)), hk]
    have h3 : ((rowTotal n : Nat) : Rat) ≤ 10000 := by exact_mod_cast h1
    unfold rowTotal at h3
    push_cast at h3
    linarith

/-- **C124**: with these widths the files for AnySoftKeyboard of all shipped layouts but the empty one can be read. -/
theorem C124_ask_files (nfc : Text → Text) (hn : ∀ t, XmlText t → XmlText (nfc t)) : ∀ d ∈ Data.layouts, d.name ≠ "None" →
    ∃ t kb L rows bottom, loadFirst d = .ok (t, kb, L) ∧ ask nfc L kb = .ok (rows, bottom) ∧
      WellFormed (serializeXml (askRoot (fixedText 2) rows bottom)) :=
  C111_shipped (fixedText 2) (fixedText_xml 2) nfc hn

end Lulua.Props
