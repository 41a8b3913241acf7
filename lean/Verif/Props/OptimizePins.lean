import Verif.Props.OptimizeOptions
import Verif.Props.OptimizeShipped
import Verif.Model.Glob
import Verif.Model.Build
import Verif.Spec.Glob

/-!
# C109: what pins mean for the layout the optimizer prints; C110: the rule of `gen.sh` that runs it
-/

namespace Lulua.Props
open Lulua Spec Optimizer

/-- **C109** (patterns): the model of `fnmatch` follows the description of patterns. -/
theorem C109_patterns (p n : List Char) : globMatch p n = true ↔ Glob p n := by
  induction p generalizing n with
  | nil =>
    cases n with
    | nil => simp [globMatch, Glob.done]
    | cons c n => simp only [globMatch, List.isEmpty_cons, Bool.false_eq_true, false_iff]; intro h; cases h
  | cons p ps ih =>
    rw [globMatch.eq_def]
    simp only
    split_ifs with hp
    · subst hp
      simp only [List.any_eq_true, List.mem_tails, ih]
      constructor
      · rintro ⟨s, ⟨a, rfl⟩, h⟩
        exact .many a h
      · intro h
        cases h with
        | many s h => exact ⟨_, ⟨s, rfl⟩, h⟩
        | same h1 _ _ => exact absurd rfl h1
    · cases n with
      | nil =>
        simp only [Bool.false_eq_true, false_iff]
        generalize hm : ([] : List Char) = m
        intro h
        generalize hq : p :: ps = q at h
        cases h with
        | done => simp at hq
        | many s h => simp only [List.cons.injEq] at hq; exact hp hq.1
        | one c h => simp at hm
        | same h1 h2 h => simp at hm
      | cons c n =>
        simp only [Bool.and_eq_true, Bool.or_eq_true, decide_eq_true_eq, ih]
        constructor
        · rintro ⟨rfl | rfl, h⟩
          · exact .one c h
          · by_cases hq : p = '?'
            · subst hq; exact .one _ h
            · exact .same hp hq h
        · generalize hm : c :: n = m
          intro h
          generalize hq : p :: ps = q at h
          cases h with
          | done => simp at hq
          | many s h => simp only [List.cons.injEq] at hq; exact absurd hq.1 hp
          | one c h =>
            simp only [List.cons.injEq] at hq hm
            rw [hq.2, hm.2]; exact ⟨.inl hq.1, h⟩
          | same h1 h2 h =>
            simp only [List.cons.injEq] at hq hm
            rw [hq.2, hm.2]; exact ⟨.inr (hq.1.trans hm.1.symm), h⟩

/-- The contract is met by the model. -/
theorem globMatch_globs : Globs fun n p => globMatch p.toList n.toList := fun _ _ _ => C109_patterns _ _

/-- What every accepted exchange keeps holds of the result. -/
theorem optimize_kept {x : OptArgs} (he : ∀ l, (x.enum l).Perm l) {ds : List (Pos × Pos)} {r : OptResult}
    (h : optimize x ds = .ok r) (I : ButtonMap → Prop)
    (hI : ∀ O : Optimizer, (∃ pins, x.pin.mapM (expandPin x.table x.keyboard x.fnmatch) = .ok pins ∧ O.pins = pins.flatten) →
      KeptBySwaps O I)
    (h0 : ∀ bm, applyMutations x.table x.keyboard x.mutations (identityMap x.layout x.keyboard) = .ok bm → I bm) :
    I r.buttonMap := by
  obtain ⟨O, s, s1, ds1, y, ds2, h1, h2, h3, h4⟩ := optimize_ok h
  obtain ⟨bm, pins, g1, g2, _, _, _, g3, _, rfl⟩ := setup_ok he h1
  have hK := hI O ⟨pins, g2, g3⟩
  have hs1 : I s1.buttonMap := by
    rcases h2 with ⟨_, h2⟩ | ⟨_, rfl, _⟩
    · exact hK.randomize _ (h0 bm g1) h2
    · exact h0 bm g1
  obtain ⟨s0, e1, e2⟩ := run_ok.1 h3
  have hb : s0.buttonMap = s1.buttonMap := by obtain ⟨_, rfl⟩ := resetEnergy_ok.1 e1; rfl
  have := (hK.loop (by rw [hb]; exact hs1) e2).2
  simp only [optimizeFinish] at h4
  rw [ite_eq_iff] at h4
  rcases h4 with ⟨_, h4⟩ | ⟨_, h4⟩
  · simp at h4
  simp only [bind_ok_iff] at h4
  obtain ⟨_, _, h4⟩ := h4
  rw [ite_eq_iff] at h4
  rcases h4 with ⟨_, h4⟩ | ⟨_, h4⟩
  · simp at h4
  simp only [bind_ok_iff, Except.ok.injEq] at h4
  obtain ⟨d, h5, rfl⟩ := h4
  exact this

/-- Pins and the map of the result. -/
theorem optimize_pins {x : OptArgs} (hn : Named x.table x.keyboard.keys) (he : ∀ l, (x.enum l).Perm l)
    (h0 : x.mutations = []) {ds : List (Pos × Pos)} {r : OptResult} (h : optimize x ds = .ok r)
    (hp : Permutes r.buttonMap) :
    (∀ (l : Nat) pat n b, ((l : Int), some pat) ∈ x.pin → Called x.table x.keyboard n b → x.fnmatch n pat = true →
      target r.buttonMap (l, b) = (l, b)) ∧
    ∀ l : Nat, ((l : Int), none) ∈ x.pin → ∀ p, (target r.buttonMap p).1 = l ↔ p.1 = l := by
  have hid : ∀ bm, applyMutations x.table x.keyboard x.mutations (identityMap x.layout x.keyboard) = .ok bm →
      bm = identityMap x.layout x.keyboard := by
    intro bm hbm
    rw [h0] at hbm
    simpa [applyMutations] using hbm.symm
  have hmem : ∀ pins, x.pin.mapM (expandPin x.table x.keyboard x.fnmatch) = .ok pins → ∀ q ∈ x.pin, ∀ ps,
      expandPin x.table x.keyboard x.fnmatch q = .ok ps → ∀ p ∈ ps, p ∈ pins.flatten := by
    intro pins hpins q hq ps hps p hp
    obtain ⟨ps', h1, h2⟩ := forall2_mem_left ((mapM_ok_iff _ _ _).1 hpins) hq
    rw [hps] at h2
    exact List.mem_flatten.2 ⟨ps', h1, by rw [← Except.ok.inj h2]; exact hp⟩
  constructor
  · intro l pat n b hpin hc hf
    obtain ⟨ps, h1, h2⟩ := C38_pattern x.table x.keyboard hn x.fnmatch l pat
    have hb := (h2 (l, some b)).2 ⟨b, n, hc, hf, rfl⟩
    have := optimize_kept he h (fun bm => bm.get? (l, b) = (identityMap x.layout x.keyboard).get? (l, b))
      (fun O ⟨pins, g1, g2⟩ => kept_pin O (l, b) (by rw [g2]; exact hmem pins g1 _ hpin ps h1 _ hb) _)
      (fun bm hbm => by rw [hid bm hbm])
    have ht := target_identityMap x.layout x.keyboard (l, b)
    unfold target at ht ⊢
    rw [this, ht]
  · intro l hpin
    have hl : ∀ O : Optimizer, (∃ pins, x.pin.mapM (expandPin x.table x.keyboard x.fnmatch) = .ok pins ∧
        O.pins = pins.flatten) → (l, none) ∈ O.pins := by
      rintro O ⟨pins, g1, g2⟩
      rw [g2]
      obtain ⟨ps, h1, _, h2⟩ := C38_layer x.table x.keyboard hn x.fnmatch l none
      exact hmem pins g1 _ hpin ps h1 _ ((h2 rfl (l, none)).2 ⟨rfl, rfl⟩)
    have hk := optimize_kept he h (fun bm => Permutes bm ∧ bm.WF ∧ ∀ e ∈ bm, e.1.1 = l → e.2.1 = l) (fun O hO => by
        refine ⟨fun bm a b bm' ⟨g1, g2, g3⟩ hacc hs => ?_⟩
        have hperm := (kept_permutes O).kept bm a b bm' g1 hacc hs
        refine ⟨hperm, hperm.1, fun e he' h1 => ?_⟩
        obtain ⟨_, va, vb, hva, hvb, _, _, h3, h4⟩ := acceptMutation_true.1 hacc
        have hg : bm'.get? e.1 = some e.2 := Dict.get?_of_mem hperm.1 (by simpa using he')
        rw [swap_get? hs] at hg
        split_ifs at hg with h5 h6
        · rw [hvb] at hg
          rw [← Option.some.inj hg, h3 (by rw [← h5, h1]; exact hl O hO), ← h5, h1]
        · rw [hva] at hg
          rw [← Option.some.inj hg, h4 (by rw [← h6, h1]; exact hl O hO), ← h6, h1]
        · exact g3 (e.1, e.2) (Dict.mem_of_get? hg) h1)
      (fun bm hbm => by
        rw [hid bm hbm]
        exact ⟨identityMap_permutes _ _, (identityMap_permutes _ _).1, fun e he h1 => by
          rw [(identityMap_entry he).1]; exact h1⟩)
    intro p
    unfold target
    cases hg : r.buttonMap.get? p with
    | none => rfl
    | some q =>
      have hm := Dict.mem_of_get? hg
      exact ⟨layer_closed hp l hk.2.2 (p, q) hm, hk.2.2 (p, q) hm⟩

theorem textAt_lt {layers : List Layer} {l : Nat} {b : Button} {v : LVal} (h : textAt layers (l, b) = some v) :
    l < layers.length := by
  by_contra hlt
  simp [textAt, List.getElem?_eq_none (not_lt.1 hlt)] at h

/-- **C109**: without `--mutate`, whatever the random choices, the printed layout has on every button whose name matches
the pattern of a pin what the input has there in the layer of the pin, and on a layer pinned as a whole the same texts
as the input. -/
theorem printed_pins {x : OptArgs} {ns : List String} (ht : Represents x.table ns) (name : String) (layers : List Layer)
    (hx : x.layout = KeyboardLayout.mk' name layers x.keyboard) (hn : Named x.table x.keyboard.keys)
    (hu : UnambiguousModifiers layers) (hrch : Reachable layers)
    (hmod : ∀ l ∈ layers, ∀ m ∈ l.modifier, ∀ b ∈ m, b ∈ x.keyboard.keys.map Btn.i)
    (he : ∀ l, (x.enum l).Perm l) (h0 : x.mutations = []) (ds : List (Pos × Pos)) (r : OptResult)
    (h : optimize x ds = .ok r) :
    (∀ (l : Nat) pat n b, ((l : Int), some pat) ∈ x.pin → Called x.table x.keyboard n b → x.fnmatch n pat = true →
      gTextAt r.layout.layout l n = textAt layers (l, b)) ∧
    ∀ l : Nat, ((l : Int), none) ∈ x.pin → ∀ v, (∃ n, gTextAt r.layout.layout l n = some v) ↔
      ∃ b ∈ x.keyboard.keys.map Btn.i, textAt layers (l, b) = some v := by
  obtain ⟨hp, hk, hem, _⟩ := optimize_result hx hu he h
  obtain ⟨h1, h2⟩ := optimize_pins hn he h0 h hp
  rw [hx] at hem hk
  obtain ⟨gs, e1, _, _, e3, _⟩ := emit_spec (name := name) ht hn hu hrch (fun l hl m hm b hb => by
    obtain ⟨x, hx, rfl⟩ := List.mem_map.1 (hmod l hl m hm b hb)
    exact hn x hx) hp (onBoard_of_keys hk)
  rw [hem] at e1
  have e2 := Except.ok.inj e1
  rw [e2]
  constructor
  · intro l pat n b hpin hc hf
    have key : ∀ v, gTextAt gs l n = some v ↔ textAt layers (l, b) = some v := by
      intro v
      rw [e3]
      constructor
      · rintro ⟨p, _, b', g1, g2, g3⟩
        have : b' = b := ht.inj g2 hc.2
        subst this
        have := target_injective hp (g1.trans (h1 l pat n b' hpin hc hf).symm)
        rw [← this]; exact g3
      · intro g
        obtain ⟨y, hy, rfl⟩ := hc.1
        have hl : l < layers.length := textAt_lt g
        exact ⟨(l, y.i), ⟨hl, List.mem_map_of_mem hy⟩, y.i, h1 l pat n _ hpin hc hf, hc.2, g⟩
    cases hg : gTextAt gs l n with
    | none =>
      cases hb : textAt layers (l, b) with
      | none => rfl
      | some v => rw [(key v).2 hb] at hg; simp at hg
    | some v => exact ((key v).1 hg).symm
  · intro l hpin v
    constructor
    · rintro ⟨n, hg⟩
      obtain ⟨p, g1, b, g2, _, g4⟩ := (e3 l n v).1 hg
      have := (h2 l hpin p).1 (by rw [g2])
      subst this
      exact ⟨p.2, g1.2, g4⟩
    · rintro ⟨b, hb, hv⟩
      have hl : l < layers.length := textAt_lt hv
      have hl' := (h2 l hpin (l, b)).2 rfl
      have hval := (target_valid hp (onBoard_of_keys hk) (p := (l, b))).2 ⟨hl, hb⟩
      obtain ⟨y, hy, hyb⟩ := List.mem_map.1 hval.2
      obtain ⟨n, hn'⟩ := hn y hy
      refine ⟨n, (e3 l n v).2 ⟨(l, b), ⟨hl, hb⟩, y.i, ?_, hn', hv⟩⟩
      rw [hyb]
      exact Prod.ext hl' rfl

/-- `printed_pins` for the tables reading files gives. -/
theorem C109_printed (x : OptArgs) (names : List String) (name : String) (layers : List Layer)
    (ht : x.table = tableAfter names) (hx : x.layout = KeyboardLayout.mk' name layers x.keyboard)
    (hn : Named x.table x.keyboard.keys) (hu : UnambiguousModifiers layers) (hrch : Reachable layers)
    (hmod : ∀ l ∈ layers, ∀ m ∈ l.modifier, ∀ b ∈ m, b ∈ x.keyboard.keys.map Btn.i)
    (he : ∀ l, (x.enum l).Perm l) (h0 : x.mutations = []) (ds : List (Pos × Pos)) (r : OptResult)
    (h : optimize x ds = .ok r) :
    (∀ (l : Nat) pat n b, ((l : Int), some pat) ∈ x.pin → Called x.table x.keyboard n b → x.fnmatch n pat = true →
      gTextAt r.layout.layout l n = textAt layers (l, b)) ∧
    ∀ l : Nat, ((l : Int), none) ∈ x.pin → ∀ v, (∃ n, gTextAt r.layout.layout l n = some v) ↔
      ∃ b ∈ x.keyboard.keys.map Btn.i, textAt layers (l, b) = some v :=
  printed_pins (by rw [ht]; exact represents_tableAfter names) name layers hx hn hu hrch hmod he h0 ds r h

/-- A run with a button and a layer pinned: the other buttons of the first layer change places. -/
def pinnedArgs : OptArgs :=
  { optArgs with pin := [(1, none), (0, some "Br?")], fnmatch := fun n p => globMatch p.toList n.toList, randomize := true, steps := 1 }

example : Globs pinnedArgs.fnmatch ∧ pinnedArgs.mutations = [] ∧ pinnedArgs.table = tableAfter ["Bl1", "Bl2", "Br1", "Br2", "El_shift"] ∧
    pinnedArgs.layout = KeyboardLayout.mk' "demo" optLayers pinnedArgs.keyboard ∧
    (optimize pinnedArgs (List.replicate 17 ((0, 0), (0, 1)))).toOption.map (fun r => r.layout.layout.map GLayer.layout) =
      some [[("Bl2", .str ['a']), ("Bl1", .str ['b']), ("Br1", .str ['c']), ("Br2", .str ['d'])],
        [("Bl1", .str ['A']), ("Br1", .str ['C'])]] := by
  refine ⟨globMatch_globs, rfl, rfl, rfl, ?_⟩
  decide +kernel

/-! ### The pins of `gen.sh` -/

/-- The pins `optpins` is meant for: letters stay on the layers they are on, the keys of the number row stay in the first
layer, all keys in the fourth. -/
theorem C109_optpins (u : UniNum) (hu : PlainNum u) : parsePin u optpins =
    .ok [(0, none), (1, none), (2, none), (0, some ['B', '*']), (3, some ['*'])] := by
  have h : optpins = writePins [(0, none), (1, none), (2, none), (0, some ['B', '*']), (3, some ['*'])] := by decide +kernel
  rw [h]
  exact C44_roundtrip u hu _ (by simp) (by simp)

theorem glob_all (n : List Char) : Glob ['*'] n := by
  have := Glob.many n Glob.done
  simpa using this

theorem glob_prefix (c : Char) (h1 : c ≠ '*') (h2 : c ≠ '?') (n : List Char) : Glob [c, '*'] n ↔ ∃ m, n = c :: m := by
  rw [← C109_patterns]
  cases n with
  | nil => simp [globMatch, h1]
  | cons d n =>
    have : globMatch ['*'] n = true := (C109_patterns _ _).2 (glob_all n)
    rw [globMatch.eq_def]
    simp only [if_neg h1, this, Bool.and_true, h2, decide_false, Bool.false_or, decide_eq_true_eq, List.cons.injEq]
    exact ⟨fun h => ⟨n, h.symm, rfl⟩, fun ⟨_, h, _⟩ => h.symm⟩

/-- What a file says is what the specialized layout has. -/
theorem textAt_of_name {t : InternTable} {kb : PhysicalKeyboard} {board : List String} {d : LayoutData} {ls : List Layer}
    (h : SpecializedAs t kb board d ls) {n : String} {b : Button} (hc : Called t kb n b) (l : Nat) :
    textAt ls (l, b) = gTextAt d.layout l n := by
  have hlen := h.layers.length_eq
  unfold textAt gTextAt
  by_cases hl : l < ls.length
  · have h1 : ls[l]? = some ls[l] := List.getElem?_eq_getElem hl
    have h2 : d.layout[l]? = some d.layout[l] := List.getElem?_eq_getElem (by omega)
    have h3 := h.layers.get (i := l) (by omega) hl
    simp only [h1, h2, Option.bind_some]
    exact h3.texts n b hc
  · rw [List.getElem?_eq_none (by omega), List.getElem?_eq_none (by omega)]
    rfl

/-- **C109** (shipped layouts): with the pins of `gen.sh` and without `--mutate`, whatever the random choices, the layout
printed for a shipped layout keeps the number row of the first layer and the fourth layer, and every text of the first
three layers stays on its layer. -/
theorem C109_shipped (names : List String) (t : InternTable) (kb : PhysicalKeyboard) (d' : KeyboardData)
    (hk : PhysicalKeyboard.deserialize (tableAfter names) Data.ibmpc105 = .ok (t, kb, d'))
    (d : LayoutData) (hd : d ∈ Data.layouts) (L : KeyboardLayout)
    (hL : (GenericLayout.deserialize d).specialize t kb = .ok L) (x : OptArgs) (hx1 : x.table = t) (hx2 : x.keyboard = kb)
    (hx3 : x.layout = L) (he : ∀ l, (x.enum l).Perm l) (h0 : x.mutations = []) (hf : Globs x.fnmatch)
    (u : UniNum) (hu : PlainNum u) (ps : List (Int × Option Text)) (hps : parsePin u optpins = .ok ps)
    (hpin : x.pin = ps.map fun p => (p.1, p.2.map String.ofList))
    (ds : List (Pos × Pos)) (r : OptResult) (h : optimize x ds = .ok r) :
    (∀ n ∈ boardNames Data.ibmpc105, n.toList.head? = some 'B' → gTextAt r.layout.layout 0 n = gTextAt d.layout 0 n) ∧
    (∀ n ∈ boardNames Data.ibmpc105, gTextAt r.layout.layout 3 n = gTextAt d.layout 3 n) ∧
    ∀ l < 3, ∀ v, (∃ n, gTextAt r.layout.layout l n = some v) ↔
      ∃ n ∈ boardNames Data.ibmpc105, gTextAt d.layout l n = some v := by
  have h2 := shipped_loaded hk
  have hg := shipped_good d hd
  obtain ⟨ls, h3, h4⟩ := load_layout h2 hg
  rw [hL] at h3
  simp only [Except.ok.injEq] at h3
  subst h3
  obtain ⟨ns, hr⟩ := h2.table
  subst hx1 hx2
  obtain ⟨k1, k2⟩ := printed_pins hr d.name ls hx3 h2.named (h4.unambiguous hg (fun n hn => h2.called hn)) (h4.reachable hg)
    (by
      intro l hl m hm b hbm
      obtain ⟨g, hg', ht⟩ := forall2_mem_right h4.layers hl
      obtain ⟨mn, hmn, hwf, hb⟩ := forall2_mem_right ht.modifiers hm
      obtain ⟨n, _, ⟨x, hx, rfl⟩, _⟩ := (hb b).1 hbm
      exact List.mem_map_of_mem hx) he h0 ds r h
  rw [C109_optpins u hu] at hps
  rw [← Except.ok.inj hps] at hpin
  refine ⟨fun n hn hB => ?_, fun n hn => ?_, fun l hl v => ?_⟩
  · obtain ⟨b, hc⟩ := h2.called hn
    rw [← textAt_of_name h4 hc]
    refine k1 0 "B*" n b (by rw [hpin]; simp) hc ((hf n "B*" (by decide +kernel)).2 ?_)
    obtain ⟨m, hm⟩ := List.head?_eq_some_iff.1 hB
    exact (glob_prefix 'B' (by decide) (by decide) _).2 ⟨m, hm⟩
  · obtain ⟨b, hc⟩ := h2.called hn
    rw [← textAt_of_name h4 hc]
    exact k1 3 "*" n b (by rw [hpin]; simp) hc ((hf n "*" (by decide +kernel)).2 (glob_all _))
  · rw [k2 l (by
      rw [hpin]
      have : l = 0 ∨ l = 1 ∨ l = 2 := by omega
      rcases this with rfl | rfl | rfl <;> simp) v]
    constructor
    · rintro ⟨b, hb, hv⟩
      obtain ⟨k, hk', rfl⟩ := List.mem_map.1 hb
      obtain ⟨n, hn⟩ := h2.named k hk'
      have hc : Called x.table x.keyboard n k.i := ⟨⟨k, hk', rfl⟩, hn⟩
      exact ⟨n, h2.mem_of_called hc, by rw [← textAt_of_name h4 hc]; exact hv⟩
    · rintro ⟨n, hn, hv⟩
      obtain ⟨b, hc⟩ := h2.called hn
      obtain ⟨y, hy, hyb⟩ := hc.1
      refine ⟨b, by rw [← hyb]; exact List.mem_map_of_mem hy, ?_⟩
      rw [textAt_of_name h4 hc]; exact hv

/-! ### C110 -/

theorem splitOn_before {c : Char} {xs : Text} (h : c ∉ xs) (ys : Text) : (xs ++ c :: ys).splitOn c = xs :: ys.splitOn c := by
  unfold List.splitOn
  exact List.splitOnP_append_cons_of_forall_mem (fun x hx => by
    simp only [beq_eq_false_iff_ne, ne_eq]; rintro rfl; exact h hx) c (by simp) ys

theorem splitOn_last {c : Char} {xs : Text} (h : c ∉ xs) : xs.splitOn c = [xs] := by
  unfold List.splitOn
  exact List.splitOnP_eq_singleton (fun x hx => by
    simp only [beq_eq_false_iff_ne, ne_eq]; rintro rfl; exact h hx)

theorem optCommand_cut (rounds pins model input output a rest : Text) (h : pins = a ++ ';' :: rest) :
    ∃ after, optCommand rounds pins model input output = ("lulua-optimize".toList ++ ' ' :: ("-n".toList ++ ' ' ::
      (rounds ++ ' ' :: ("-r".toList ++ ' ' :: ("-p".toList ++ ' ' :: a))))) ++ ';' :: after := by
  have b1 : "lulua-optimize -n ".toList = "lulua-optimize".toList ++ ' ' :: ("-n".toList ++ [' ']) := by decide +kernel
  have b2 : " -r -p ".toList = ' ' :: ("-r".toList ++ ' ' :: ("-p".toList ++ [' '])) := by decide +kernel
  unfold optCommand
  rw [h, b1, b2]
  simp only [List.append_assoc, List.cons_append, List.nil_append]
  exact ⟨_, rfl⟩

/-- **C110** is false: with two pins or more the shell sees several commands. The first runs the
optimizer with the first pin only, without a layout, a model and an input. -/
theorem C110_unquoted (rounds model input output : Text) (p q : Int × Option Text) (ps : List (Int × Option Text))
    (h1 : ';' ∉ rounds ∧ ' ' ∉ rounds ∧ rounds ≠ []) (h2 : ∀ pat, p.2 = some pat → ';' ∉ pat ∧ ' ' ∉ pat) :
    (shellCommands (optCommand rounds (writePins (p :: q :: ps)) model input output)).head? =
      some ["lulua-optimize".toList, "-n".toList, rounds, "-r".toList, "-p".toList, writePin p] := by
  have hp : ';' ∉ writePin p ∧ ' ' ∉ writePin p ∧ writePin p ≠ [] := by
    obtain ⟨n, pat⟩ := p
    have a1 : ';' ∉ decimal n := decimal_not_mem (by decide) (by decide)
    have a2 : ' ' ∉ decimal n := decimal_not_mem (by decide) (by decide)
    cases pat with
    | none =>
      refine ⟨a1, a2, ?_⟩
      rcases decimal_cases n with ⟨_, h⟩ | ⟨_, h⟩
      · simp only [writePin, h]; exact Nat.toDigits_ne_nil
      · simp [writePin, h]
    | some pat =>
      obtain ⟨b1, b2⟩ := h2 pat rfl
      simp [writePin, a1, a2, b1, b2]
  obtain ⟨rest, hrest⟩ : ∃ rest, writePins (p :: q :: ps) = writePin p ++ ';' :: rest :=
    ⟨[';'].intercalate ((q :: ps).map writePin), by
      simp only [writePins, List.map_cons, List.intercalate_cons_cons, List.append_assoc, List.singleton_append]⟩
  obtain ⟨after, hline⟩ := optCommand_cut rounds (writePins (p :: q :: ps)) model input output _ _ hrest
  have hw : ("lulua-optimize".toList ++ ' ' :: ("-n".toList ++ ' ' :: (rounds ++ ' ' :: ("-r".toList ++ ' ' ::
        ("-p".toList ++ ' ' :: writePin p))))).splitOn ' ' =
      ["lulua-optimize".toList, "-n".toList, rounds, "-r".toList, "-p".toList, writePin p] := by
    have a1 : ' ' ∉ "lulua-optimize".toList := by decide +kernel
    have a2 : ' ' ∉ "-n".toList := by decide +kernel
    have a3 : ' ' ∉ "-r".toList := by decide +kernel
    have a4 : ' ' ∉ "-p".toList := by decide +kernel
    rw [splitOn_before a1, splitOn_before a2, splitOn_before h1.2.1, splitOn_before a3, splitOn_before a4,
      splitOn_last hp.2.1]
  rw [shellCommands, hline, splitOn_before (by simp [h1.1, hp.1]), List.map_cons, List.head?_cons, hw]
  simp [h1.2.2, hp.2.2]

/-- **C110** (the rule as it is): five commands; only the first is one of the project's. -/
theorem C110_rule : shellCommands (optCommand "100000".toList optpins "mod01".toList "in".toList "out".toList) =
    [["lulua-optimize", "-n", "100000", "-r", "-p", "0"], ["1"], ["2"], ["0,B*"],
      ["3,*", "-l", "ar-lulua", "-m", "mod01", "<", "in", ">", "out"]].map (·.map String.toList) := by
  decide +kernel

/-- **C110** (partial: false with more than one pin): with a single pin the rule is one command that gets all options. -/
theorem C110_single_partial (rounds pins model input output : Text)
    (h : ∀ s ∈ [rounds, pins, model, input, output], ';' ∉ s ∧ ' ' ∉ s ∧ s ≠ []) :
    shellCommands (optCommand rounds pins model input output) =
      [["lulua-optimize".toList, "-n".toList, rounds, "-r".toList, "-p".toList, pins, "-l".toList, "ar-lulua".toList,
        "-m".toList, model, "<".toList, input, ">".toList, output]] := by
  simp only [List.mem_cons, List.not_mem_nil, or_false, forall_eq_or_imp, forall_eq] at h
  obtain ⟨h1, h2, h3, h4, h5⟩ := h
  have hs : ∀ s ∈ ["lulua-optimize".toList, "-n".toList, "-r".toList, "-p".toList, "-l".toList, "ar-lulua".toList, "-m".toList,
      "<".toList, ">".toList], ';' ∉ s ∧ ' ' ∉ s ∧ s ≠ [] := by decide +kernel
  have b1 : "lulua-optimize -n ".toList = "lulua-optimize".toList ++ ' ' :: ("-n".toList ++ [' ']) := by decide +kernel
  have b2 : " -r -p ".toList = ' ' :: ("-r".toList ++ ' ' :: ("-p".toList ++ [' '])) := by decide +kernel
  have b3 : " -l ar-lulua -m ".toList = ' ' :: ("-l".toList ++ ' ' :: ("ar-lulua".toList ++ ' ' :: ("-m".toList ++ [' ']))) := by
    decide +kernel
  have b4 : " < ".toList = ' ' :: ("<".toList ++ [' ']) := by decide +kernel
  have b5 : " > ".toList = ' ' :: (">".toList ++ [' ']) := by decide +kernel
  unfold optCommand
  rw [b1, b2, b3, b4, b5]
  generalize "lulua-optimize".toList = s1 at *
  generalize "-n".toList = s2 at *
  generalize "-r".toList = s3 at *
  generalize "-p".toList = s4 at *
  generalize "-l".toList = s5 at *
  generalize "ar-lulua".toList = s6 at *
  generalize "-m".toList = s7 at *
  generalize "<".toList = s8 at *
  generalize ">".toList = s9 at *
  clear b1 b2 b3 b4 b5
  simp only [List.mem_cons, List.not_mem_nil, or_false, forall_eq_or_imp, forall_eq] at hs
  obtain ⟨g1, g2, g3, g4, g5, g6, g7, g8, g9⟩ := hs
  simp only [List.append_assoc, List.cons_append, List.nil_append]
  have hsp : ';' ≠ ' ' := by decide
  rw [shellCommands, splitOn_last (c := ';') (by simp [*])]
  rw [List.map_cons, List.map_nil, splitOn_before g1.2.1, splitOn_before g2.2.1, splitOn_before h1.2.1, splitOn_before g3.2.1,
    splitOn_before g4.2.1, splitOn_before h2.2.1, splitOn_before g5.2.1, splitOn_before g6.2.1, splitOn_before g7.2.1,
    splitOn_before h3.2.1, splitOn_before g8.2.1, splitOn_before h4.2.1, splitOn_before g9.2.1, splitOn_last h5.2.1]
  simp [*]

/-- Options that meet the hypotheses. -/
example : ∀ s ∈ ["100000".toList, "0,B*".toList, "mod01".toList, "in".toList, "out".toList], ';' ∉ s ∧ ' ' ∉ s ∧ s ≠ [] := by
  decide +kernel

end Lulua.Props
