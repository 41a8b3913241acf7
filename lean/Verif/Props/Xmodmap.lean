import Verif.Proofs.Xmodmap
import Verif.Props.Render
import Verif.Props.Shipped

/-!
# Properties of the xmodmap file
-/

namespace Lulua.Props
open Lulua Spec

/-! ### C64 -/

/-- **C64**: there is one line for each button that is a modifier or the last one with its keycode, and no other. The
line of a modifier is that of the layer it leads to; the line of any other button has exactly eight symbols, for the
layers 1, 2, 3, 5, 4, none, 6 and 7. -/
theorem C64_lines (truthy : Nat → Bool) (t : InternTable) (name : String) (layers : List Layer) (kb : PhysicalKeyboard)
    (hnd : (kb.keys.map Btn.i).Nodup) (hlen : layers.length < 100000) (lines : List XLine)
    (hok : xmodmap truthy t (KeyboardLayout.mk' name layers kb) kb = .ok lines) :
    (lines.map XLine.button).Nodup ∧
    (∀ l ∈ lines, ∃ b ∈ kb.keys, b.i = l.button ∧ t.nameOf b.i = .ok l.name ∧ codeOf "xorg" b = some l.keycode ∧
      ((∃ i, LeadsTo layers b.i i ∧ (i, l.symbols) ∈ modifierSymbols) ∨
        (NoModifier layers b.i ∧ LastOfCode "xorg" kb b ∧ ∃ s0 s1 s2 s4 s3 s5 s6, l.symbols = [s0, s1, s2, s4, s3, "NoSymbol".toList, s5, s6] ∧
          SymbolAt layers b.i 0 s0 ∧ SymbolAt layers b.i 1 s1 ∧ SymbolAt layers b.i 2 s2 ∧ SymbolAt layers b.i 4 s4 ∧
          SymbolAt layers b.i 3 s3 ∧ SymbolAt layers b.i 5 s5 ∧ SymbolAt layers b.i 6 s6))) ∧
    (∀ b i, LeadsTo layers b i → ∃ l ∈ lines, l.button = b) ∧
    (∀ b, LastOfCode "xorg" kb b → ∃ l ∈ lines, l.button = b.i) := by
  simp only [xmodmap, bind_ok_iff] at hok
  obtain ⟨d, h1, d', h2, h3⟩ := hok
  obtain ⟨reps, hu⟩ : ∃ reps, unique (scancodeKey "xorg") kb.keys = .ok reps := by
    unfold xmodmapColumns at h1
    rw [foldlM_cons_ok] at h1
    obtain ⟨d1, h4, _⟩ := h1
    simp only [xmodmapColumn, bind_ok_iff] at h4
    obtain ⟨reps, h, _⟩ := h4
    exact ⟨reps, h⟩
  obtain ⟨r1, r2, r3, r4⟩ := unique_reps hnd hu
  obtain ⟨wf, c1, c2⟩ := columns_ok hu r1 Dict.wf_nil h1
  have hobj : ObjOk kb d := by
    intro k o s hg
    by_cases hk : k ∈ reps.map Btn.i
    · obtain ⟨b, hb, rfl⟩ := List.mem_map.1 hk
      obtain ⟨os, _, h5⟩ := c1 b hb
      rw [hg] at h5
      have : o = b := foldl_addSym_obj (p := none) (by simp) h5.symm
      subst this
      exact ⟨rfl, r2 _ hb⟩
    · rw [c2 k hk] at hg
      cases hg
  obtain ⟨m1, m2, m3⟩ := xmodmapModifiers_ok hobj wf h2
  rw [mapM_ok_iff _ _ _] at h3
  have hline : ∀ (p : Button × Btn × List Text) (l : XLine), (do
      let name ← t.nameOf p.1
      let code ← p.2.1.scancodeAt "xorg"
      .ok ⟨p.1, name, code, p.2.2⟩ : Py XLine) = .ok l → l.button = p.1 ∧ l.symbols = p.2.2 ∧ t.nameOf p.1 = .ok l.name ∧
        p.2.1.scancodeAt "xorg" = .ok l.keycode := by
    intro p l h
    simp only [bind_ok_iff, Except.ok.injEq] at h
    obtain ⟨n, h5, c, h6, rfl⟩ := h
    exact ⟨rfl, rfl, h5, h6⟩
  have hkeys : lines.map XLine.button = d'.map Prod.fst := by
    clear m1 m2 m3 h2
    induction h3 with
    | nil => rfl
    | cons hab _ ih => rw [List.map_cons, List.map_cons, ih, (hline _ _ hab).1]
  have hhas : ∀ k, (d'.get? k).isSome → ∃ l ∈ lines, l.button = k := by
    intro k hk
    rw [Dict.get?_isSome_iff, ← hkeys] at hk
    exact List.mem_map.1 hk
  have hsyms : ∀ b ∈ reps, NoModifier layers b.i → ∃ s0 s1 s2 s4 s3 s5 s6, d.get? b.i = some (b, [s0, s1, s2, s4, s3, "NoSymbol".toList, s5, s6]) ∧
          SymbolAt layers b.i 0 s0 ∧ SymbolAt layers b.i 1 s1 ∧ SymbolAt layers b.i 2 s2 ∧ SymbolAt layers b.i 4 s4 ∧
          SymbolAt layers b.i 3 s3 ∧ SymbolAt layers b.i 5 s5 ∧ SymbolAt layers b.i 6 s6 := by
    intro b hb hm
    obtain ⟨os, h5, h6⟩ := c1 b hb
    unfold xmodmapColumns at h5
    rcases h5 with _ | ⟨e0, h5⟩
    rcases h5 with _ | ⟨e1, h5⟩
    rcases h5 with _ | ⟨e2, h5⟩
    rcases h5 with _ | ⟨e4, h5⟩
    rcases h5 with _ | ⟨e3, h5⟩
    rcases h5 with _ | ⟨en, h5⟩
    rcases h5 with _ | ⟨e5, h5⟩
    rcases h5 with _ | ⟨e6, h5⟩
    rcases h5 with _ | _
    obtain ⟨s0, rfl, q0⟩ := colSym_noModifier hm e0
    obtain ⟨s1, rfl, q1⟩ := colSym_noModifier hm e1
    obtain ⟨s2, rfl, q2⟩ := colSym_noModifier hm e2
    obtain ⟨s4, rfl, q4⟩ := colSym_noModifier hm e4
    obtain ⟨s3, rfl, q3⟩ := colSym_noModifier hm e3
    obtain ⟨sn, rfl, qn⟩ := colSym_noModifier hm en
    obtain ⟨s5, rfl, q5⟩ := colSym_noModifier hm e5
    obtain ⟨s6, rfl, q6⟩ := colSym_noModifier hm e6
    have hsn : sn = "NoSymbol".toList := by
      have hno : layers[99999]? = none := List.getElem?_eq_none (by omega)
      rcases qn with ⟨c, ⟨l, hl, _⟩, _⟩ | ⟨_, h⟩
      · rw [hno] at hl; cases hl
      · exact h
    subst hsn
    refine ⟨s0, s1, s2, s4, s3, s5, s6, ?_, q0, q1, q2, q4, q3, q5, q6⟩
    rw [h6]
    exact foldl_addSym_none (ss := [s0, s1, s2, s4, s3, _, s5, s6]) rfl (by simp)
  refine ⟨?_, ?_, ?_, ?_⟩
  · rw [hkeys]; exact m2
  · intro l hl
    obtain ⟨p, hp, hpl⟩ := forall₂_right_mem h3 hl
    obtain ⟨f1, f2, f3, f4⟩ := hline p l hpl
    have hg := Dict.get?_of_mem m2 hp
    obtain ⟨o1, o2⟩ := m1 p.1 p.2.1 p.2.2 hg
    refine ⟨p.2.1, o2, by rw [f1, o1], by rw [o1]; exact f3, ?_, ?_⟩
    · unfold Btn.scancodeAt at f4
      unfold codeOf
      cases hs : p.2.1.scancode with
      | none => rw [hs] at f4; cases f4
      | some sc => rw [hs] at f4; exact Dict.getItem_eq_ok.1 f4
    · rcases noModifier_or_leadsTo layers p.2.1.i with hno | ⟨i, hi⟩
      · right
        have hgd : d.get? p.1 = some p.2 := by
          rw [← (m3 p.1).2 (o1 ▸ hno)]; exact hg
        have hrep : p.2.1 ∈ reps := by
          by_cases hk : p.1 ∈ reps.map Btn.i
          · obtain ⟨b, hb, hbi⟩ := List.mem_map.1 hk
            have : p.2.1 = b := List.inj_on_of_nodup_map hnd o2 (r2 b hb) (o1.trans hbi.symm)
            rw [this]; exact hb
          · rw [c2 _ hk] at hgd; cases hgd
        refine ⟨hno, (r3 _).1 hrep, ?_⟩
        obtain ⟨s0, s1, s2, s4, s3, s5, s6, q, hrest⟩ := hsyms _ hrep hno
        rw [o1, hgd] at q
        refine ⟨s0, s1, s2, s4, s3, s5, s6, ?_, hrest⟩
        rw [f2]
        have := congrArg (fun x : Option (Btn × List Text) => x.map Prod.snd) q
        simpa using this
      · left
        obtain ⟨o, s, g1, g2⟩ := (m3 p.1).1 i (o1 ▸ hi)
        refine ⟨i, hi, ?_⟩
        rw [hg] at g1
        have g3 : p.2 = (o, s) := by simpa using g1
        rw [f2, g3]
        simpa using g2
  · intro b i hi
    obtain ⟨o, s, g1, _⟩ := (m3 b).1 i hi
    exact hhas b (by rw [g1]; rfl)
  · intro b hb
    apply hhas
    rcases noModifier_or_leadsTo layers b.i with hno | ⟨i, hi⟩
    · rw [(m3 b.i).2 hno]
      obtain ⟨_, _, _, _, _, _, _, q, _⟩ := hsyms b ((r3 b).2 hb) hno
      rw [q]; rfl
    · obtain ⟨o, s, g1, _⟩ := (m3 b.i).1 i hi
      rw [g1]; rfl

/-- **C64**: it works exactly if every button has a keycode, the buttons used have at most one character in each of the first
seven layers, and modifiers are single buttons of the keyboard for the first four layers. In particular it fails for texts
of several characters. -/
theorem C64_works (truthy : Nat → Bool) (t : InternTable) (name : String) (layers : List Layer) (kb : PhysicalKeyboard)
    (hnd : (kb.keys.map Btn.i).Nodup) (hlen : layers.length < 100000) (hn : ∀ b ∈ kb.keys, ∃ n, t.nameOf b.i = .ok n) :
    (∃ lines, xmodmap truthy t (KeyboardLayout.mk' name layers kb) kb = .ok lines) ↔
      (∀ b ∈ kb.keys, ∃ k, codeOf "xorg" b = some k ∧ ∀ l, k ≠ .list l) ∧
      (∀ b, LastOfCode "xorg" kb b → NoModifier layers b.i → ∀ (k : Nat) (l : Layer) (v : LVal), k < 7 → layers[k]? = some l →
        l.layout.get? b.i = some v → (∃ x, v = .str x ∧ x.length ≤ 1) ∨ ∃ n, v = .other n ∧ (n = 0 ∨ truthy n = false)) ∧
      (∀ (k : Nat) (l : Layer), layers[k]? = some l → ∀ m ∈ l.modifier, m = [] ∨ ∃ b, m = [b] ∧ k < 4 ∧ b ∈ kb.keys.map Btn.i) := by
  have hL : (KeyboardLayout.mk' name layers kb).layers = layers := rfl
  have hsym : ∀ (v : Option LVal), (∃ o, (symbolOf truthy v).map some = .ok o) ↔ ∀ w, v = some w →
      (∃ x, w = .str x ∧ x.length ≤ 1) ∨ ∃ n, w = .other n ∧ (n = 0 ∨ truthy n = false) := by
    intro v
    match v with
    | none => simp [symbolOf, Except.map]
    | some (.other n) =>
      simp only [symbolOf]
      by_cases h : n = 0 ∨ truthy n = false
      · rw [if_pos h]
        simp [Except.map, h]
      · rw [if_neg h]
        simp only [Except.map, reduceCtorEq, exists_false, false_iff]
        intro hh
        rcases hh _ rfl with ⟨x, hx, _⟩ | ⟨m, hm, h'⟩
        · cases hx
        · cases hm; exact h h'
    | some (.str []) => simp [symbolOf, Except.map]
    | some (.str [c]) => simp [symbolOf, Except.map]
    | some (.str (_ :: _ :: _)) => simp [symbolOf, Except.map]
  have hcol : ∀ (reps : List Btn), (∀ b, b ∈ reps ↔ LastOfCode "xorg" kb b) →
      ((∀ i ∈ xmodmapColumns, ∀ b ∈ reps, ∃ o, colSym truthy (KeyboardLayout.mk' name layers kb) layers[i]? b = .ok o) ↔
      (∀ b, LastOfCode "xorg" kb b → NoModifier layers b.i → ∀ (k : Nat) (l : Layer) (v : LVal), k < 7 → layers[k]? = some l →
        l.layout.get? b.i = some v → (∃ x, v = .str x ∧ x.length ≤ 1) ∨ ∃ n, v = .other n ∧ (n = 0 ∨ truthy n = false))) := by
    intro reps hr
    constructor
    · intro h b hb hm k l v hk hl hv
      have hkm : k ∈ xmodmapColumns := by
        have : ∀ k < 7, k ∈ xmodmapColumns := by decide
        exact this k hk
      obtain ⟨o, ho⟩ := h k hkm b ((hr b).2 hb)
      unfold colSym at ho
      rw [hl] at ho
      simp only [isModifier_noModifier.2 hm, Bool.false_eq_true, if_false] at ho
      exact (hsym _).1 ⟨o, ho⟩ v hv
    · intro h i hi b hb
      unfold colSym
      cases hl : layers[i]? with
      | none => exact ⟨_, rfl⟩
      | some l =>
        simp only
        by_cases hm : NoModifier layers b.i
        · rw [isModifier_noModifier.2 hm]
          simp only [Bool.false_eq_true, if_false]
          refine (hsym _).2 ?_
          intro w hw
          refine h b ((hr b).1 hb) hm i l w ?_ hl hw
          have hil : i < layers.length := (List.getElem?_eq_some_iff.1 hl).1
          simp only [xmodmapColumns, List.mem_cons, List.not_mem_nil, or_false] at hi
          omega
        · rw [← isModifier_noModifier (name := name) (kb := kb), Bool.not_eq_false] at hm
          rw [if_pos hm]
          exact ⟨_, rfl⟩
  have hunique : (∀ b ∈ kb.keys, ∃ k, codeOf "xorg" b = some k ∧ ∀ l, k ≠ .list l) →
      ∃ reps, unique (scancodeKey "xorg") kb.keys = .ok reps := by
    intro h
    unfold unique
    obtain ⟨ps, hps⟩ := (mapM_exists_iff (fun v => do
        let k ← scancodeKey "xorg" v
        .ok (k, v) : Btn → Py (ScVal × Btn)) kb.keys).2 (by
      intro b hb
      obtain ⟨k, hk⟩ := h b hb
      exact ⟨(k, b), by rw [scancodeKey_ok.2 hk]; rfl⟩)
    rw [hps]
    exact ⟨_, rfl⟩
  have hobj : ∀ (reps : List Btn) (d : KeycodeMap), unique (scancodeKey "xorg") kb.keys = .ok reps →
      xmodmapColumns.foldlM (xmodmapColumn truthy (KeyboardLayout.mk' name layers kb) kb) [] = .ok d → ObjOk kb d ∧ Dict.WF d := by
    intro reps d hu h1
    obtain ⟨r1, r2, r3, r4⟩ := unique_reps hnd hu
    obtain ⟨wf, c1, c2⟩ := columns_ok hu r1 Dict.wf_nil h1
    refine ⟨?_, wf⟩
    intro k o s hg
    by_cases hk : k ∈ reps.map Btn.i
    · obtain ⟨b, hb, rfl⟩ := List.mem_map.1 hk
      obtain ⟨os, _, h5⟩ := c1 b hb
      rw [hg] at h5
      have : o = b := foldl_addSym_obj (p := none) (by simp) h5.symm
      subst this
      exact ⟨rfl, r2 _ hb⟩
    · rw [c2 k hk] at hg
      cases hg
  constructor
  · rintro ⟨lines, hok⟩
    simp only [xmodmap, bind_ok_iff] at hok
    obtain ⟨d, h1, d', h2, h3⟩ := hok
    obtain ⟨reps, hu⟩ : ∃ reps, unique (scancodeKey "xorg") kb.keys = .ok reps := by
      unfold xmodmapColumns at h1
      rw [foldlM_cons_ok] at h1
      obtain ⟨d1, h4, _⟩ := h1
      simp only [xmodmapColumn, bind_ok_iff] at h4
      obtain ⟨reps, h, _⟩ := h4
      exact ⟨reps, h⟩
    obtain ⟨r1, r2, r3, r4⟩ := unique_reps hnd hu
    obtain ⟨ho, wf⟩ := hobj reps d hu h1
    refine ⟨r4, (hcol reps r3).1 ((columns_exists hu _ _).1 ⟨d, h1⟩), ?_⟩
    intro k l hl m hm
    have := (xmodmapModifiers_exists layers ho wf).1 ⟨d', h2⟩ k l hl m hm
    simpa using this
  · rintro ⟨a1, a2, a3⟩
    obtain ⟨reps, hu⟩ := hunique a1
    obtain ⟨r1, r2, r3, r4⟩ := unique_reps hnd hu
    obtain ⟨d, h1⟩ := (columns_exists hu xmodmapColumns []).2 ((hcol reps r3).2 a2)
    obtain ⟨ho, wf⟩ := hobj reps d hu h1
    obtain ⟨d', h2⟩ := (xmodmapModifiers_exists (i := 0) layers ho wf).2 (by
      intro j l hl m hm
      simpa using a3 j l hl m hm)
    obtain ⟨m1, m2, m3⟩ := xmodmapModifiers_ok ho wf h2
    simp only [xmodmap, h1, h2, hL, bind, Except.bind]
    refine (mapM_exists_iff (fun p => do
        let name ← t.nameOf p.1
        let code ← p.2.1.scancodeAt "xorg"
        .ok ⟨p.1, name, code, p.2.2⟩ : Button × Btn × List Text → Py XLine) d').2 ?_
    intro p hp
    obtain ⟨o1, o2⟩ := m1 p.1 p.2.1 p.2.2 (Dict.get?_of_mem m2 hp)
    obtain ⟨n, hn'⟩ := hn _ o2
    obtain ⟨k, hk, _⟩ := a1 _ o2
    have hc : p.2.1.scancodeAt "xorg" = .ok k := by
      unfold Btn.scancodeAt
      unfold codeOf at hk
      cases hs : p.2.1.scancode with
      | none => rw [hs] at hk; cases hk
      | some sc => rw [hs] at hk; exact Dict.getItem_eq_ok.2 hk
    rw [o1] at hn'
    refine ⟨⟨p.1, n, k, p.2.2⟩, ?_⟩
    rw [hn', hc]
    rfl

/-- A button with a keycode. -/
def codeBtn (i : Nat) (code : String) : Btn := ⟨i, .letter, 1, false, some [("xorg", .str code)], none⟩

/-- Two letters, two spaces that share a keycode, two modifiers. -/
def codeKb : PhysicalKeyboard :=
  PhysicalKeyboard.mk' "" "" [([codeBtn 0 "24", codeBtn 1 "25"], [codeBtn 2 "65"]), ([codeBtn 3 "50"], [codeBtn 4 "65", codeBtn 5 "66"])]

def codeLayers : List Layer :=
  [⟨[[]], [(0, .str ['a']), (1, .str ['\t']), (2, .str ['x', 'y']), (4, .str [' '])]⟩, ⟨[[3]], [(0, .str ['\u0634'])]⟩,
    ⟨[[5]], [(0, .str ['𝄞']), (4, .other 0)]⟩]

def codeNames : InternTable := ⟨[(0, "a"), (1, "b"), (2, "c"), (3, "d"), (4, "e"), (5, "f")], [], 6⟩

/-- The text of the first of the two spaces is lost. -/
example : xmodmap (fun _ => true) codeNames (KeyboardLayout.mk' "" codeLayers codeKb) codeKb = .ok [
      ⟨0, "a", .str "24", ["U0061".toList, "U0634".toList, "U1D11E".toList, noSymbol, noSymbol, noSymbol, noSymbol, noSymbol]⟩,
      ⟨1, "b", .str "25", ["Tab".toList, noSymbol, noSymbol, noSymbol, noSymbol, noSymbol, noSymbol, noSymbol]⟩,
      ⟨4, "e", .str "65", ["space".toList, noSymbol, noSymbol, noSymbol, noSymbol, noSymbol, noSymbol, noSymbol]⟩,
      ⟨3, "d", .str "50", ["Shift_L".toList, "Shift_Lock".toList]⟩,
      ⟨5, "f", .str "66", ["ISO_Group_Shift".toList, "ISO_Group_Shift".toList, "ISO_First_Group".toList, noSymbol]⟩] ∧
    (codeKb.keys.map Btn.i).Nodup ∧ (∀ b ∈ codeKb.keys, ∃ n, codeNames.nameOf b.i = .ok n) := by
  refine ⟨by decide +kernel, by decide +kernel, ?_⟩
  intro b hb
  rw [show codeKb.keys = [codeBtn 0 "24", codeBtn 1 "25", codeBtn 2 "65", codeBtn 3 "50", codeBtn 4 "65", codeBtn 5 "66"] from rfl] at hb
  simp only [List.mem_cons, List.not_mem_nil, or_false] at hb
  rcases hb with rfl | rfl | rfl | rfl | rfl | rfl <;> exact ⟨_, rfl⟩

example : xmodmap (fun _ => true) codeNames
    (KeyboardLayout.mk' "" [⟨[[]], [(0, .str ['a', 'b'])]⟩] codeKb) codeKb = .error .typeError := by decide +kernel

example : xmodmap (fun _ => true) codeNames
    (KeyboardLayout.mk' "" [⟨[[]], []⟩, ⟨[[3, 5]], []⟩] codeKb) codeKb = .error .assertionError := by decide +kernel

/-- What happens for a shipped layout. -/
def xmodmapShipped (d : LayoutData) : Py (List XLine) :=
  (loadFirst d).bind fun x => xmodmap (fun _ => true) x.1 x.2.2 x.2.1

def xmodmapError (d : LayoutData) : Option PyErr :=
  match xmodmapShipped d with
  | .ok _ => none
  | .error e => some e

/-- **C64**: of the shipped layouts only `ar-lulua` and `null`, which calls itself None, can be rendered. -/
theorem C64_shipped : ∀ d ∈ Data.layouts, (∃ lines, xmodmapShipped d = .ok lines) ↔ d.name = "ar-lulua" ∨ d.name = "None" := by
  have h : ∀ d ∈ Data.layouts, xmodmapError d = none ↔ d.name = "ar-lulua" ∨ d.name = "None" := by decide +kernel
  intro d hd
  rw [← h d hd]
  unfold xmodmapError
  cases xmodmapShipped d with
  | ok l => simp
  | error e => simp

end Lulua.Props
