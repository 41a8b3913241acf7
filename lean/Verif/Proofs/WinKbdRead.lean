import Verif.Proofs.WinKbdText
import Verif.Proofs.WinKbd

/-!
# The definitions in the C tables
-/

namespace Lulua
open Spec

def exprOf (t : CTok) : CInit := .expr [t]

def word0 : CInit := .expr [.word ['0']]

def rowInit (vkName : VkVal → Text) (e : CharEntry) : CInit :=
  .list [.expr [.word (vkName e.1)], .expr [.word (natText e.2.1)], .list (e.2.2.map fun v => .expr [charTok v])]

def endInit (n : Nat) : CInit := .list [word0, word0, .list (List.replicate n word0)]

theorem charTok_word (v : LVal) : ∃ w, charTok v = .word w := by
  unfold charTok
  split <;> exact ⟨_, rfl⟩

theorem step_open (st) : cInitStep (.inside st .nothing) (.punct '{') = some (.inside ([] :: st) .nothing) := rfl
theorem step_close (l l' st) : cInitStep (.inside (l :: l' :: st) .nothing) (.punct '}') = some (.inside ((.list l.reverse :: l') :: st) .closed) := rfl
theorem step_close_expr (l l' st ts) : cInitStep (.inside (l :: l' :: st) (.expr ts)) (.punct '}') =
    some (.inside ((.list (.expr ts.reverse :: l).reverse :: l') :: st) .closed) := rfl
theorem step_close_closed (l l' st) : cInitStep (.inside (l :: l' :: st) .closed) (.punct '}') = some (.inside ((.list l.reverse :: l') :: st) .closed) := rfl
theorem step_done (l) : cInitStep (.inside [l] .nothing) (.punct '}') = some (.done (.list l.reverse)) := rfl
theorem step_comma (l st ts) : cInitStep (.inside (l :: st) (.expr ts)) (.punct ',') = some (.inside ((.expr ts.reverse :: l) :: st) .nothing) := rfl
theorem step_comma_closed (l st) : cInitStep (.inside (l :: st) .closed) (.punct ',') = some (.inside (l :: st) .nothing) := rfl
theorem step_word (l st w) : cInitStep (.inside (l :: st) .nothing) (.word w) = some (.inside (l :: st) (.expr [.word w])) := rfl
theorem step_word_expr (l st ts w) : cInitStep (.inside (l :: st) (.expr ts)) (.word w) = some (.inside (l :: st) (.expr (.word w :: ts))) := rfl
theorem step_punct (l st) (c : Char) (h : c = '(' ∨ c = ')' ∨ c = '[' ∨ c = ']') :
    cInitStep (.inside (l :: st) .nothing) (.punct c) = some (.inside (l :: st) (.expr [.punct c])) := by
  rcases h with rfl | rfl | rfl | rfl <;> rfl
theorem step_punct_expr (l st ts) (c : Char) (h : c = '(' ∨ c = ')' ∨ c = '[' ∨ c = ']') :
    cInitStep (.inside (l :: st) (.expr ts)) (.punct c) = some (.inside (l :: st) (.expr (.punct c :: ts))) := by
  rcases h with rfl | rfl | rfl | rfl <;> rfl

macro "run_steps" : tactic => `(tactic| simp -implicitDefEqProofs only [List.foldlM_cons, List.foldlM_nil, Option.bind_eq_bind, Option.bind_some, Option.pure_def,
  step_open, step_close, step_close_expr, step_close_closed, step_done, step_comma, step_comma_closed, step_word, step_word_expr,
  step_punct _ _ '(' (by decide), step_punct_expr _ _ _ '(' (by decide), step_punct_expr _ _ _ ')' (by decide),
  step_punct_expr _ _ _ '[' (by decide), step_punct_expr _ _ _ ']' (by decide)])

theorem run_commas (st : List (List CInit)) (l' : List CInit) : ∀ (ws : List Text) (l : List CInit),
    (commas (ws.map .word) ++ [CTok.punct '}']).foldlM cInitStep (.inside (l :: l' :: st) .nothing) =
      some (.inside ((.list (l.reverse ++ ws.map fun w => CInit.expr [.word w]) :: l') :: st) .closed)
  | [], l => by
    rw [show commas (([] : List Text).map CTok.word) ++ [CTok.punct '}'] = [CTok.punct '}'] from rfl]
    run_steps
    simp
  | [w], l => by
    rw [show commas ([w].map CTok.word) ++ [CTok.punct '}'] = [.word w, .punct '}'] from rfl]
    run_steps
    simp
  | w :: x :: ws, l => by
    have ih := run_commas st l' (x :: ws) (.expr [.word w] :: l)
    have e : commas ((w :: x :: ws).map CTok.word) ++ [.punct '}'] =
      .word w :: .punct ',' :: (commas ((x :: ws).map CTok.word) ++ [.punct '}']) := rfl
    rw [e]
    run_steps
    have : (.expr [.word w] :: l).reverse ++ ((x :: ws).map fun w => CInit.expr [.word w]) =
      l.reverse ++ (w :: x :: ws).map fun w => CInit.expr [.word w] := by simp
    rw [this] at ih
    exact ih

theorem run_chars (st : List (List CInit)) (l' : List CInit) (vs : List LVal) :
    (commas (vs.map charTok) ++ [CTok.punct '}']).foldlM cInitStep (.inside ([] :: l' :: st) .nothing) =
      some (.inside ((.list (vs.map fun v => .expr [charTok v]) :: l') :: st) .closed) := by
  have hw : ∃ ws : List Text, vs.map charTok = ws.map CTok.word := by
    induction vs with
    | nil => exact ⟨[], rfl⟩
    | cons v vs ih =>
      obtain ⟨ws, h⟩ := ih
      obtain ⟨w, hw⟩ := charTok_word v
      exact ⟨w :: ws, by rw [List.map_cons, h, hw, List.map_cons]⟩
  obtain ⟨ws, hw⟩ := hw
  have := run_commas st l' ws []
  rw [hw, this]
  have e : (vs.map fun v => CInit.expr [charTok v]) = ws.map fun w => CInit.expr [.word w] := by
    have : (vs.map charTok).map exprOf = (ws.map CTok.word).map exprOf := by rw [hw]
    simpa [List.map_map, Function.comp_def, exprOf] using this
  rw [e]
  rfl

theorem run_row (vkName : VkVal → Text) (e : CharEntry) (l : List CInit) (st : List (List CInit)) :
    (rowToks vkName e).foldlM cInitStep (.inside (l :: st) .nothing) = some (.inside ((rowInit vkName e :: l) :: st) .nothing) := by
  have h : rowToks vkName e = [.punct '{', .word (vkName e.1), .punct ',', .word (natText e.2.1), .punct ',', .punct '{'] ++
      ((commas (e.2.2.map charTok) ++ [.punct '}']) ++ [.punct '}', .punct ',']) := by simp [rowToks]
  rw [h, List.foldlM_append]
  run_steps
  rw [List.foldlM_append, run_chars]
  run_steps
  rfl

theorem run_rows (vkName : VkVal → Text) (st : List (List CInit)) : ∀ (g : List CharEntry) (l : List CInit),
    ((g.map (rowToks vkName)).flatten).foldlM cInitStep (.inside (l :: st) .nothing) =
      some (.inside (((g.map (rowInit vkName)).reverse ++ l) :: st) .nothing)
  | [], l => rfl
  | e :: g, l => by
    rw [List.map_cons, List.flatten_cons, List.foldlM_append, run_row]
    simp only [Option.bind_eq_bind, Option.bind_some]
    rw [run_rows vkName st g]
    simp

theorem run_zeros (st : List (List CInit)) : ∀ (n : Nat) (l : List CInit),
    (List.replicate n [CTok.word ['0'], .punct ',']).flatten.foldlM cInitStep (.inside (l :: st) .nothing) =
      some (.inside ((List.replicate n word0 ++ l) :: st) .nothing)
  | 0, l => rfl
  | n + 1, l => by
    rw [List.replicate_succ, List.flatten_cons, List.foldlM_append]
    run_steps
    rw [run_zeros st n, List.replicate_succ', List.append_assoc]
    rfl

theorem run_end (n : Nat) (l : List CInit) (st : List (List CInit)) :
    (endToks n).foldlM cInitStep (.inside (l :: st) .nothing) = some (.inside ((endInit n :: l) :: st) .nothing) := by
  unfold endToks
  rw [List.foldlM_append]
  run_steps
  rw [List.foldlM_append, run_zeros, List.append_nil]
  run_steps
  rw [List.reverse_replicate]
  rfl

/-- The definition of a table. -/
def tableDef (vkName : VkVal → Text) (p : Text) (x : Nat × List CharEntry) : CDef :=
  ⟨"VK_TO_WCHARS".toList ++ natText x.1, wtableName x.1 p, x.2.map (rowInit vkName) ++ [endInit x.1]⟩

/-- The tokens of a table without the last one. -/
def tablePart (vkName : VkVal → Text) (p : Text) (x : Nat × List CharEntry) : List CTok :=
  headToks x.1 p ++ ((x.2.map (rowToks vkName)).flatten ++ (endToks x.1 ++ [.punct '}']))

theorem cDef_table (vkName : VkVal → Text) (p : Text) (x : Nat × List CharEntry) :
    cDef (tablePart vkName p x) = some (tableDef vkName p x) := by
  have h : List.foldlM cInitStep (.inside [] .nothing) (.punct '{' :: ((x.2.map (rowToks vkName)).flatten ++ (endToks x.1 ++ [.punct '}']))) =
      some (.done (.list (x.2.map (rowInit vkName) ++ [endInit x.1]))) := by
    run_steps
    rw [List.foldlM_append, run_rows]
    simp only [Option.bind_eq_bind, Option.bind_some]
    rw [List.foldlM_append, run_end]
    run_steps
    simp
  have e : tablePart vkName p x = .word "static".toList :: .word ("VK_TO_WCHARS".toList ++ natText x.1) :: .word (wtableName x.1 p) ::
    .punct '[' :: .punct ']' :: .punct '=' :: (.punct '{' :: ((x.2.map (rowToks vkName)).flatten ++ (endToks x.1 ++ [.punct '}']))) := rfl
  rw [e, cDef, cInit, if_pos rfl, h]
  rfl

/-! ### The table of tables -/

def refToks (n : Nat) (p : Text) : List CTok :=
  [.punct '{', .punct '(', .word "PVK_TO_WCHARS1".toList, .punct ')', .word (wtableName n p), .punct ',', .word (natText n), .punct ',',
    .word "sizeof".toList, .punct '(', .word (wtableName n p), .punct '[', .word ['0'], .punct ']', .punct ')', .punct '}', .punct ',']

def refInit (n : Nat) (p : Text) : CInit :=
  .list [.expr [.punct '(', .word "PVK_TO_WCHARS1".toList, .punct ')', .word (wtableName n p)], .expr [.word (natText n)],
    .expr [.word "sizeof".toList, .punct '(', .word (wtableName n p), .punct '[', .word ['0'], .punct ']', .punct ')']]

theorem wtableRef_closed (n : Nat) {p : Text} (hp : ∀ c ∈ p, wordChar c = true) : Closed (wtableRef n p) (refToks n p) := by
  have a0 : Closed "[0])},".toList [.punct '[', .word ['0'], .punct ']', .punct ')', .punct '}', .punct ','] := by decide
  have a1 := (wtableName_word n hp).toks.close a0 (c := '[') (r := "0])},".toList) rfl (by decide)
  have a2 : Closed ", sizeof(".toList [.punct ',', .word "sizeof".toList, .punct '('] := by decide
  have a3 := (natText_word n).toks.close (a2.append a1) (c := ',') (r := " sizeof(".toList ++ _) rfl (by decide)
  have a4 : Closed ", ".toList [.punct ','] := by decide
  have a5 := (wtableName_word n hp).toks.close (a4.append a3) (c := ',') (r := " ".toList ++ _) rfl (by decide)
  have a6 : Closed "\t{(PVK_TO_WCHARS1) ".toList [.punct '{', .punct '(', .word "PVK_TO_WCHARS1".toList, .punct ')'] := by decide
  have := a6.append a5
  unfold wtableRef
  simp only [List.append_assoc] at this ⊢
  exact this

theorem run_ref (n : Nat) (p : Text) (l : List CInit) (st : List (List CInit)) :
    (refToks n p).foldlM cInitStep (.inside (l :: st) .nothing) = some (.inside ((refInit n p :: l) :: st) .nothing) := by
  unfold refToks
  run_steps
  simp only [refInit, List.reverse_cons, List.reverse_nil, List.nil_append, List.cons_append]

theorem run_refs (st : List (List CInit)) (p : Text) : ∀ (ns : List Nat) (l : List CInit),
    ((ns.map fun n => refToks n p).flatten).foldlM cInitStep (.inside (l :: st) .nothing) =
      some (.inside (((ns.map fun n => refInit n p).reverse ++ l) :: st) .nothing)
  | [], l => rfl
  | n :: ns, l => by
    rw [List.map_cons, List.flatten_cons, List.foldlM_append, run_ref]
    simp only [Option.bind_eq_bind, Option.bind_some]
    rw [run_refs st p ns]
    simp

def nullInit : CInit := .list [.expr [.word "NULL".toList], word0, word0]

def refsPart (ns : List Nat) : List CTok :=
  [.word "static".toList, .word "VK_TO_WCHAR_TABLE".toList, .word "aVkToWcharTable".toList, .punct '[', .punct ']', .punct '=', .punct '{'] ++
    ((ns.map fun n => refToks n []).flatten ++ (refToks 1 "Num".toList ++
      [.punct '{', .word "NULL".toList, .punct ',', .word ['0'], .punct ',', .word ['0'], .punct '}', .punct ',', .punct '}']))

def refsDef (ns : List Nat) : CDef :=
  ⟨"VK_TO_WCHAR_TABLE".toList, "aVkToWcharTable".toList, (ns.map fun n => refInit n []) ++ [refInit 1 "Num".toList, nullInit]⟩

theorem cDef_static (type name : Text) (ts : List CTok) (l : List CInit)
    (h : ts.foldlM cInitStep (.inside [] .nothing) = some (.done (.list l))) :
    cDef (.word "static".toList :: .word type :: .word name :: .punct '[' :: .punct ']' :: .punct '=' :: ts) = some ⟨type, name, l⟩ := by
  rw [cDef, cInit, if_pos rfl, h]

theorem run_null (l : List CInit) :
    [CTok.punct '{', .word "NULL".toList, .punct ',', .word ['0'], .punct ',', .word ['0'], .punct '}', .punct ',', .punct '}'].foldlM cInitStep
      (.inside [l] .nothing) = some (.done (.list (l.reverse ++ [nullInit]))) := by
  unfold nullInit
  generalize "NULL".toList = w
  run_steps
  simp only [word0, List.reverse_cons, List.reverse_nil, List.nil_append, List.cons_append]

theorem cDef_cons (type name : Text) (ts : List CTok) (l : List CInit)
    (h : ts.foldlM cInitStep (.inside [[]] .nothing) = some (.done (.list l))) :
    cDef ([.word "static".toList, .word type, .word name, .punct '[', .punct ']', .punct '=', .punct '{'] ++ ts) = some ⟨type, name, l⟩ :=
  cDef_static type name (.punct '{' :: ts) l (by rw [List.foldlM_cons, step_open]; exact h)

theorem cDef_refs (ns : List Nat) : cDef (refsPart ns) = some (refsDef ns) := by
  unfold refsPart refsDef
  refine cDef_cons _ _ _ _ ?_
  rw [List.foldlM_append, run_refs, Option.bind_eq_bind, Option.bind_some, List.foldlM_append, run_ref, Option.bind_eq_bind, Option.bind_some,
    run_null, List.reverse_cons, List.append_nil, List.reverse_reverse, List.append_assoc]
  rfl

/-! ### The file -/

theorem parts_splitOn (ps : List (List CTok)) (h : ∀ p ∈ ps, CTok.punct ';' ∉ p) :
    ((ps.map fun p => p ++ [CTok.punct ';']).flatten).splitOn (.punct ';') = ps ++ [[]] := by
  have e : (ps.map fun p => p ++ [CTok.punct ';']).flatten = [CTok.punct ';'].intercalate (ps ++ [[]]) := by
    clear h
    induction ps with
    | nil => rfl
    | cons p ps ih =>
      rw [List.map_cons, List.flatten_cons, ih]
      cases ps with
      | nil => simp [List.intercalate]
      | cons q qs => simp [List.intercalate]
  rw [e]
  refine List.splitOn_intercalate _ ?_ (by simp)
  intro l hl
  rcases List.mem_append.1 hl with hl | hl
  · exact h l hl
  · rw [List.mem_singleton] at hl
    subst hl
    exact List.not_mem_nil

theorem commas_mem {ts : List CTok} {x : CTok} (h : x ∈ commas ts) : x = .punct ',' ∨ x ∈ ts := by
  unfold commas at h
  induction ts with
  | nil => cases h
  | cons t ts ih =>
    cases ts with
    | nil => exact .inr h
    | cons u us =>
      simp only [List.intersperse_cons_cons, List.mem_cons] at h
      rcases h with rfl | rfl | h
      · exact .inr List.mem_cons_self
      · exact .inl rfl
      · rcases ih (by simpa using h) with h | h
        · exact .inl h
        · exact .inr (List.mem_cons_of_mem _ h)

theorem rowToks_semi (vkName : VkVal → Text) (e : CharEntry) : CTok.punct ';' ∉ rowToks vkName e := by
  unfold rowToks
  simp only [List.mem_append, not_or]
  refine ⟨by decide, by simp, by decide, by simp, by decide, ?_, by decide⟩
  intro h
  rcases commas_mem h with h | h
  · revert h; decide
  · obtain ⟨v, _, h⟩ := List.mem_map.1 h
    obtain ⟨w, hw⟩ := charTok_word v
    rw [hw] at h
    cases h

theorem tablePart_semi (vkName : VkVal → Text) (p : Text) (x : Nat × List CharEntry) : CTok.punct ';' ∉ tablePart vkName p x := by
  unfold tablePart headToks endToks
  simp only [List.mem_append, not_or]
  refine ⟨by simp, ?_, ⟨⟨by simp, ?_, by decide⟩, by decide⟩⟩
  · intro h
    obtain ⟨l, hl, h⟩ := List.mem_flatten.1 h
    obtain ⟨e, _, rfl⟩ := List.mem_map.1 hl
    exact rowToks_semi _ _ h
  · intro h
    obtain ⟨l, hl, h⟩ := List.mem_flatten.1 h
    rw [List.eq_of_mem_replicate hl] at h
    revert h
    decide

theorem refsPart_semi (ns : List Nat) : CTok.punct ';' ∉ refsPart ns := by
  unfold refsPart
  simp only [List.mem_append, not_or]
  refine ⟨by simp, ?_, by simp [refToks], by simp⟩
  intro h
  obtain ⟨l, hl, h⟩ := List.mem_flatten.1 h
  obtain ⟨e, _, rfl⟩ := List.mem_map.1 hl
  simp [refToks] at h

theorem natText_head (n : Nat) : ∃ c t, natText n = c :: t ∧ c.isDigit := by
  cases h : natText n with
  | nil => exact absurd h (natText_word n).1
  | cons c t =>
    refine ⟨c, t, rfl, Nat.isDigit_of_mem_toDigits (b := 10) (n := n) (by omega) (by omega) ?_⟩
    unfold natText at h
    rw [h]
    exact List.mem_cons_self

theorem natText_inj {a b : Nat} (h : natText a = natText b) : a = b := by
  have := congrArg (fun t => Nat.ofDigitChars 10 t 0) h
  simpa only [natText, Nat.ofDigitChars_ten_toDigits] using this

theorem tableNames_nodup {ns : List Nat} (h : ns.Pairwise (· < ·)) :
    ((ns.map fun n => wtableName n []) ++ [wtableName 1 "Num".toList, "aVkToWcharTable".toList]).Nodup := by
  have hx : ∀ (n : Nat) (x : Char) (r : Text), x.isDigit = false → wtableName n [] ≠ "aVkToWch".toList ++ x :: r := by
    intro n x r hx he
    obtain ⟨c, t, h1, h2⟩ := natText_head n
    unfold wtableName at he
    rw [List.append_nil, h1, List.append_cancel_left_eq] at he
    rw [(List.cons.inj he).1, hx] at h2
    cases h2
  rw [List.nodup_append]
  refine ⟨?_, by decide +kernel, ?_⟩
  · refine List.Nodup.map ?_ (h.imp fun h => Nat.ne_of_lt h)
    intro a b hab
    unfold wtableName at hab
    simp only [List.append_cancel_left_eq] at hab
    exact natText_inj hab
  · intro a ha b hb
    obtain ⟨n, _, rfl⟩ := List.mem_map.1 ha
    simp only [List.mem_cons, List.not_mem_nil, or_false] at hb
    rcases hb with rfl | rfl
    · exact hx n 'N' ("um".toList ++ natText 1) (by decide)
    · exact hx n 'a' "rTable".toList (by decide)

/-- The tables by length. -/
def charGroups (m : List CharEntry) : List (Nat × List CharEntry) :=
  groupby (fun x => x.2.2.length) (m.insertionSort fun a b => a.2.2.length ≤ b.2.2.length)

/-- The tokens of the tables, each without the last one. -/
def charParts (vkName : VkVal → Text) (groups : List (Nat × List CharEntry)) : List (List CTok) :=
  groups.map (tablePart vkName []) ++ [tablePart vkName "Num".toList (1, numpad), refsPart (groups.map Prod.fst)]

/-- The definitions. -/
def charDefs (vkName : VkVal → Text) (groups : List (Nat × List CharEntry)) : List CDef :=
  groups.map (tableDef vkName []) ++ [tableDef vkName "Num".toList (1, numpad), refsDef (groups.map Prod.fst)]

theorem charParts_semi (vkName : VkVal → Text) (groups : List (Nat × List CharEntry)) : ∀ p ∈ charParts vkName groups, CTok.punct ';' ∉ p := by
  intro p hp
  rcases List.mem_append.1 hp with hp | hp
  · obtain ⟨x, _, rfl⟩ := List.mem_map.1 hp
    exact tablePart_semi _ _ _
  · simp only [List.mem_cons, List.not_mem_nil, or_false] at hp
    rcases hp with rfl | rfl
    · exact tablePart_semi _ _ _
    · exact refsPart_semi _

theorem charParts_defs (vkName : VkVal → Text) (groups : List (Nat × List CharEntry)) :
    (charParts vkName groups).mapM cDef = some (charDefs vkName groups) := by
  unfold charParts charDefs
  rw [List.mapM_append]
  have g1 : (groups.map (tablePart vkName [])).mapM cDef = some (groups.map (tableDef vkName [])) := by
    induction groups with
    | nil => rfl
    | cons x xs ih => simp [List.mapM_cons, cDef_table, ih]
  rw [g1]
  simp [List.mapM_cons, cDef_table, cDef_refs]

theorem charDefs_names (vkName : VkVal → Text) (groups : List (Nat × List CharEntry)) :
    (charDefs vkName groups).map CDef.name =
      ((groups.map Prod.fst).map fun n => wtableName n []) ++ [wtableName 1 "Num".toList, "aVkToWcharTable".toList] := by
  unfold charDefs
  rw [List.map_append, List.map_map, List.map_map]
  rfl

/-- The text is the tokens of the tables. -/
theorem vkToWchar_closed {printable : Char → Bool} {vkName : VkVal → Text} (hn : CNames vkName) {m : List CharEntry} {text : Text}
    (h : vkToWcharText printable vkName m = .ok text) :
    Closed text ((charParts vkName (charGroups m)).map fun p => p ++ [CTok.punct ';']).flatten := by
  simp only [vkToWcharText, bind_ok_iff, Except.ok.injEq] at h
  unfold charGroups charParts
  generalize groupby (fun x : CharEntry => x.2.2.length) (m.insertionSort fun a b => a.2.2.length ≤ b.2.2.length) = groups at h ⊢
  obtain ⟨tables, h1, num, h2, rfl⟩ := h
  obtain ⟨tss1, c1, e1⟩ : ∃ tss, List.Forall₂ Closed tables.flatten tss ∧
      tss.flatten = (groups.map fun x => tableToks vkName x.1 x.2 []).flatten := by
    rw [mapM_ok_iff] at h1
    induction h1 with
    | nil => exact ⟨[], .nil, rfl⟩
    | cons h _ ih =>
      obtain ⟨a, ha, hea⟩ := wtableLines_closed hn (by simp) h
      obtain ⟨b, hb, heb⟩ := ih
      exact ⟨a ++ b, by rw [List.flatten_cons]; exact List.rel_append ha hb, by
        rw [List.flatten_append, hea, heb, List.map_cons, List.flatten_cons]⟩
  obtain ⟨tss2, c2, e2⟩ := wtableLines_closed hn (by decide) h2
  have c3 : List.Forall₂ Closed (["/* table of virtual key to wchar mapping tables */".toList,
      "static VK_TO_WCHAR_TABLE aVkToWcharTable[] = {".toList] ++
      groups.map (fun x => wtableRef x.1 []) ++ [wtableRef 1 "Num".toList, "\t{NULL, 0, 0},".toList, "\t};".toList])
      ([[], [.word "static".toList, .word "VK_TO_WCHAR_TABLE".toList, .word "aVkToWcharTable".toList, .punct '[', .punct ']', .punct '=', .punct '{']] ++
        groups.map (fun x => refToks x.1 []) ++ [refToks 1 "Num".toList, [.punct '{', .word "NULL".toList, .punct ',', .word ['0'], .punct ',',
          .word ['0'], .punct '}', .punct ','], [.punct '}', .punct ';']]) := by
    refine List.rel_append (List.rel_append ?_ ?_) ?_
    · exact .cons (by decide) (.cons (by decide) .nil)
    · rw [List.forall₂_map_left_iff, List.forall₂_map_right_iff]
      exact List.forall₂_same.2 fun x _ => wtableRef_closed x.1 (by simp)
    · exact .cons (wtableRef_closed 1 (by decide)) (.cons (by decide) (.cons (by decide) .nil))
  have hc := join_closed (List.rel_append (List.rel_append c1 c2) c3)
  have ht : (tss1 ++ tss2 ++ ([[], [CTok.word "static".toList, .word "VK_TO_WCHAR_TABLE".toList, .word "aVkToWcharTable".toList, .punct '[', .punct ']', .punct '=', .punct '{']] ++
        groups.map (fun x => refToks x.1 []) ++ [refToks 1 "Num".toList, [.punct '{', .word "NULL".toList, .punct ',', .word ['0'], .punct ',',
          .word ['0'], .punct '}', .punct ','], [.punct '}', .punct ';']])).flatten =
      ((groups.map (tablePart vkName []) ++ [tablePart vkName "Num".toList (1, numpad), refsPart (groups.map Prod.fst)]).map
        fun p => p ++ [CTok.punct ';']).flatten := by
    have f1 : (groups.map (tablePart vkName [])).map (fun p => p ++ [CTok.punct ';']) = groups.map fun x => tableToks vkName x.1 x.2 [] := by
      rw [List.map_map]
      refine List.map_congr_left fun x _ => ?_
      simp [tablePart, tableToks]
    rw [List.map_append, f1]
    simp only [List.flatten_append, e1, e2]
    simp [tableToks, tablePart, refsPart, List.map_map, Function.comp_def]
  rw [ht] at hc
  exact hc

theorem cTokens_closed {t : Text} {ts : List CTok} (h : Closed t ts) : cTokens t = some ts := by
  unfold cTokens
  rw [h]

theorem cDefs_parts {ps : List (List CTok)} {ds : List CDef} (hs : ∀ p ∈ ps, CTok.punct ';' ∉ p) (hm : ps.mapM cDef = some ds)
    (hnd : (ds.map CDef.name).Nodup) : cDefs (ps.map fun p => p ++ [CTok.punct ';']).flatten = some ds := by
  unfold cDefs
  rw [parts_splitOn _ hs]
  have hl : (ps ++ [[]]).getLast? = some ([] : List CTok) := by simp
  simp only [List.dropLast_concat, hl, ne_eq, not_true_eq_false, if_false, Option.pure_def, Option.bind_eq_bind, Option.bind_some, hm,
    if_pos hnd]

theorem cFile_read {printable : Char → Bool} {vkName : VkVal → Text} (hn : CNames vkName) {m : List CharEntry} {text : Text}
    (h : vkToWcharText printable vkName m = .ok text) : cFile text = some (charDefs vkName (charGroups m)) := by
  have hsorted := (groupby_sorted (fun x : CharEntry => x.2.2.length) _ (insertionSort_sorted _ m)).1
  unfold cFile
  rw [cTokens_closed (vkToWchar_closed hn h)]
  simp only [Option.bind_eq_bind, Option.bind_some]
  refine cDefs_parts (charParts_semi _ _) (charParts_defs _ _) ?_
  rw [charDefs_names]
  exact tableNames_nodup hsorted

/-! ### The numbers stored -/

theorem foldl_digits (ds : List Nat) (h : ∀ d ∈ ds, d < 16) :
    (ds.reverse.map Lulua.hexDigit).foldl (fun a c => do let a ← a; let d ← Spec.hexDigit c; some (a * 16 + d)) (some 0) = some (Nat.ofDigits 16 ds) := by
  induction ds with
  | nil => rfl
  | cons d ds ih =>
    have : ∀ d < 16, Spec.hexDigit (Lulua.hexDigit d) = some d := by decide +kernel
    simp only [List.reverse_cons, List.map_append, List.foldl_append, List.map_cons, List.map_nil, List.foldl_cons, List.foldl_nil]
    rw [ih (fun x hx => h x (by simp [hx])), this d (h d (by simp)), Nat.ofDigits_cons]
    simp only [Option.bind_eq_bind, Option.bind_some, Option.some.injEq]
    omega

theorem hex4_value (n : Nat) : digitsValue 16 Spec.hexDigit (hex4 n) = some n := by
  have hlt : ∀ d ∈ Nat.digits 16 n, d < 16 := fun d hd => Nat.digits_lt_base (by norm_num) hd
  have hz : ∀ k, (List.replicate k '0').foldl (fun a c => do let a ← a; let d ← Spec.hexDigit c; some (a * 16 + d)) (some 0) = some 0 := by
    intro k
    induction k with
    | zero => rfl
    | succ k ih => rw [List.replicate_succ, List.foldl_cons]; exact ih
  unfold digitsValue
  rw [if_neg]
  · unfold hex4
    simp only
    rw [List.foldl_append, hz, foldl_digits _ hlt, Nat.ofDigits_digits]
  · intro h
    have := (hex4_spec n).long
    rw [List.isEmpty_iff.1 h] at this
    simp at this

theorem cNumber_hex (h : Text) : cNumber ('0' :: 'x' :: (h ++ ['u'])) = digitsValue 16 Spec.hexDigit h := by
  have hl : ('0' :: 'x' :: (h ++ ['u'])).getLast? = some 'u' := by
    rw [← List.cons_append, ← List.cons_append, List.getLast?_concat]
  have hd : ('0' :: 'x' :: (h ++ ['u'])).dropLast = '0' :: 'x' :: h := by
    rw [← List.cons_append, ← List.cons_append, List.dropLast_concat]
  unfold cNumber
  simp only [hl, if_true, hd]
  rfl

theorem cConst_hex (h : Text) : cConst (.expr [.word ('0' :: 'x' :: (h ++ ['u']))]) = digitsValue 16 Spec.hexDigit h := by
  have hne : '0' :: 'x' :: (h ++ ['u']) ≠ "WCHAR_NONE".toList := by
    rw [show "WCHAR_NONE".toList = 'W' :: "CHAR_NONE".toList from by decide]
    intro h
    exact absurd (List.cons.inj h).1 (by decide)
  rw [cConst, if_neg hne, cNumber_hex]

theorem cConst_char {v : LVal} {n : Nat} (h : wcharRepr v = .ok n) : cConst (.expr [charTok v]) = some n := by
  rcases wcharRepr_ok.1 h with ⟨rfl, rfl⟩ | ⟨c, rfl, rfl⟩
  · decide +kernel
  · have e : charTok (.str [c]) = .word ('0' :: 'x' :: (hex4 c.toNat ++ ['u'])) := by
      rw [charTok]
      congr 1
    rw [e, cConst_hex, hex4_value]

theorem defNamed_mem {ds : List CDef} (hnd : (ds.map CDef.name).Nodup) {d : CDef} (hd : d ∈ ds) : defNamed ds d.name = some d := by
  unfold defNamed
  induction ds with
  | nil => cases hd
  | cons x xs ih =>
    rw [List.map_cons, List.nodup_cons] at hnd
    rcases List.mem_cons.1 hd with rfl | hd
    · simp
    · rw [List.find?_cons]
      have : x.name ≠ d.name := fun h => hnd.1 (h ▸ List.mem_map_of_mem hd)
      simp only [this, decide_false]
      exact ih hnd.2 hd

theorem takeWhile_rows {f : CInit → Bool} (rows : List CInit) (h : ∀ r ∈ rows, f r = true) (x : CInit) (hx : f x = false) (rest : List CInit) :
    (rows ++ x :: rest).takeWhile f = rows := by
  rw [List.takeWhile_append_of_pos h, List.takeWhile_cons, hx]
  simp

theorem charRows_ref {vkName : VkVal → Text} (hn : CNames vkName) {ds : List CDef} (hnd : (ds.map CDef.name).Nodup) {p : Text}
    {x : Nat × List CharEntry} (hd : tableDef vkName p x ∈ ds) (h1 : 1 ≤ x.1) (h8 : x.1 ≤ 8) :
    charRows ds (refInit x.1 p) = some (x.2.map (rowInit vkName)) := by
  have hm : natText x.1 ∈ ["1", "2", "3", "4", "5", "6", "7", "8"].map String.toList := by
    have : ∀ n < 9, 1 ≤ n → natText n ∈ ["1", "2", "3", "4", "5", "6", "7", "8"].map String.toList := by decide +kernel
    exact this _ (by omega) h1
  have hf := defNamed_mem hnd hd
  unfold charRows refInit
  simp only
  rw [show wtableName x.1 p = (tableDef vkName p x).name from rfl, hf]
  simp only [Option.bind_eq_bind, Option.bind_some]
  rw [if_pos ⟨trivial, hm, rfl, trivial⟩]
  congr 1
  refine takeWhile_rows _ ?_ _ rfl []
  intro r hr
  obtain ⟨e, _, rfl⟩ := List.mem_map.1 hr
  simp only [rowInit, firstIs, Bool.not_eq_true', decide_eq_false_iff_not]
  exact hn.zero e.1

theorem find_rows {vkName : VkVal → Text} (hn : CNames vkName) (v : VkVal) (es : List CharEntry) :
    (es.map (rowInit vkName)).find? (fun r => firstIs (String.ofList (vkName v)) r) = (es.find? fun e => e.1 = v).map (rowInit vkName) := by
  rw [List.find?_map]
  congr 1
  congr 1
  funext e
  simp only [Function.comp_apply, rowInit, firstIs, String.toList_ofList]
  exact decide_eq_decide.2 ⟨hn.inj _ _, fun h => by rw [h]⟩

theorem find_chars {es : List CharEntry} {rows : List (Option WRow)} (h : List.Forall₂ RowSays es rows) (v : VkVal) (k : Nat) :
    ((rows.filterMap id).find? fun r => r.vk = v).bind (fun r => r.chars[k]?) =
      (es.find? fun e => e.1 = v).bind fun e => e.2.2[k]?.bind fun x => (wcharRepr x).toOption := by
  induction h with
  | nil => rfl
  | @cons e r es rows hr _ ih =>
    obtain ⟨cs, rfl, hcs⟩ := hr
    rw [List.filterMap_cons]
    simp only [id_eq, List.find?_cons]
    by_cases hv : e.1 = v
    · simp only [hv, decide_true, Option.bind_some]
      have := List.forall₂_iff_get.1 hcs
      by_cases hk : k < e.2.2.length
      · rw [List.getElem?_eq_getElem hk, List.getElem?_eq_getElem (this.1 ▸ hk)]
        have h2 := this.2 k hk (this.1 ▸ hk)
        simp only [List.get_eq_getElem] at h2
        rw [Option.bind_some, wcharRepr_ok.2 h2]
        rfl
      · rw [List.getElem?_eq_none (by omega), List.getElem?_eq_none (by have := this.1; omega)]
        rfl
    · simp only [hv, decide_false]
      exact ih

theorem tables_rows {p : String} {groups : List (Nat × List CharEntry)} {ts : List WTable}
    (h : List.Forall₂ (fun x t => generate x.1 x.2 p = .ok t) groups ts) :
    ∃ R, List.Forall₂ RowSays (groups.map Prod.snd).flatten R ∧ (ts.map fun t => t.rows.filterMap id).flatten = R.filterMap id := by
  induction h with
  | nil => exact ⟨[], .nil, rfl⟩
  | cons hx _ ih =>
    obtain ⟨R, h1, h2⟩ := ih
    obtain ⟨rows, rfl, hr⟩ := generate_ok.1 hx
    refine ⟨rows ++ R, by rw [List.map_cons, List.flatten_cons]; exact List.rel_append hr h1, ?_⟩
    rw [List.map_cons, List.flatten_cons, h2]
    simp

theorem chars_ok {es : List CharEntry} {R : List (Option WRow)} (h : List.Forall₂ RowSays es R) {e : CharEntry} (he : e ∈ es) :
    ∀ v ∈ e.2.2, ∃ n, wcharRepr v = .ok n := by
  obtain ⟨r, _, cs, _, hc⟩ := forall₂_left_mem h he
  intro v hv
  obtain ⟨n, _, hn⟩ := forall₂_left_mem hc hv
  exact ⟨n, wcharRepr_ok.2 hn⟩

theorem storedChar_row {vkName : VkVal → Text} (hn : CNames vkName) {es : List CharEntry} {R : List (Option WRow)}
    (h : List.Forall₂ RowSays es R) (v : VkVal) (k : Nat) :
    (((es.map (rowInit vkName)).find? fun r => firstIs (String.ofList (vkName v)) r).bind fun row =>
      match row with
      | .list [_, _, .list cs] => cs[k]?.bind fun c => (cConst c).bind fun n => some (n % 65536)
      | _ => none) =
      (((R.filterMap id).find? fun r => r.vk = v).bind fun r => r.chars[k]?).map (· % 65536) := by
  rw [find_rows hn, find_chars h]
  cases hf : es.find? fun e => e.1 = v with
  | none => rfl
  | some e =>
    simp only [Option.map_some, Option.bind_some, rowInit, List.getElem?_map]
    cases hk : e.2.2[k]? with
    | none => rfl
    | some x =>
      obtain ⟨n, hx⟩ := chars_ok h (List.mem_of_find?_eq_some hf) x (List.mem_of_getElem? hk)
      simp only [Option.map_some, Option.bind_some, cConst_char hx, hx]
      rfl

/-- What is stored, in any file with these definitions. -/
theorem storedChar_defs {vkName : VkVal → Text} (hn : CNames vkName) {m : List CharEntry}
    {tables : List (Option WTable)} (ht : vkToWchar m = .ok tables)
    (hlen : ∀ e ∈ m, 1 ≤ e.2.2.length ∧ e.2.2.length ≤ 8) {ds : List CDef} (hnd : (ds.map CDef.name).Nodup)
    (hsubs : ∀ d ∈ charDefs vkName (charGroups m), d ∈ ds) (d : Driver) (hd : d.wchars = tables) (v : VkVal) (k : Nat) :
    storedChar ds (vkName v) k = (charOf d v k).map (· % 65536) := by
  have hg := groupby_sorted (fun x : CharEntry => x.2.2.length) _ (insertionSort_sorted _ m)
  have h18 : ∀ x ∈ groupby (fun x : CharEntry => x.2.2.length) (m.insertionSort fun a b => a.2.2.length ≤ b.2.2.length), 1 ≤ x.1 ∧ x.1 ≤ 8 := by
    intro x hx
    obtain ⟨e, he, hxe⟩ := (hg.2.1 x.1).1 (List.mem_map_of_mem hx)
    have := hlen e ((List.mem_insertionSort _).1 he)
    rw [hxe] at this
    exact this
  simp only [vkToWchar, bind_ok_iff, Except.ok.injEq] at ht
  unfold charGroups charDefs at hsubs
  clear hg
  generalize groupby (fun x : CharEntry => x.2.2.length) (m.insertionSort fun a b => a.2.2.length ≤ b.2.2.length) = groups at h18 ht hsubs
  obtain ⟨ts, h1, num, h2, rfl⟩ := ht
  rw [mapM_ok_iff] at h1
  obtain ⟨R1, f1, e1⟩ := tables_rows h1
  obtain ⟨R2, f2, e2⟩ := tables_rows (groups := [(1, numpad)]) (ts := [num]) (.cons h2 .nil)
  have f := List.rel_append f1 f2
  have hrows : ((d.wchars.filterMap id).flatMap fun t => t.rows.filterMap id) = (R1 ++ R2).filterMap id := by
    rw [hd, List.filterMap_append (l := R1), ← e1, ← e2]
    simp [List.flatMap_def]
  unfold charOf
  rw [hrows]
  rw [← storedChar_row hn f]
  unfold storedChar
  have hrd : refsDef (groups.map Prod.fst) ∈ ds := hsubs _ (by simp)
  have h0 := defNamed_mem hnd hrd
  rw [show "aVkToWcharTable".toList = (refsDef (groups.map Prod.fst)).name from rfl, h0]
  simp only [Option.bind_eq_bind, Option.bind_some]
  have htw : (refsDef (groups.map Prod.fst)).init.takeWhile (fun r => !firstIs "NULL" r) =
      (groups.map fun x => refInit x.1 []) ++ [refInit 1 "Num".toList] := by
    have e : (refsDef (groups.map Prod.fst)).init = ((groups.map fun x => refInit x.1 []) ++ [refInit 1 "Num".toList]) ++ [nullInit] := by
      rw [List.append_assoc, show (groups.map fun x => refInit x.1 []) = (groups.map Prod.fst).map fun n => refInit n [] by rw [List.map_map]; rfl]
      rfl
    rw [e]
    refine takeWhile_rows _ ?_ _ (by decide) []
    intro r hr
    rcases List.mem_append.1 hr with hr | hr
    · obtain ⟨x, _, rfl⟩ := List.mem_map.1 hr
      rfl
    · rw [List.mem_singleton] at hr
      subst hr
      rfl
  rw [htw]
  have hm : ((groups.map fun x => refInit x.1 []) ++ [refInit 1 "Num".toList]).mapM (charRows ds) =
      some ((groups.map fun x => x.2.map (rowInit vkName)) ++ [numpad.map (rowInit vkName)]) := by
    have hsub : ∀ x ∈ groups, tableDef vkName [] x ∈ ds := fun x hx =>
      hsubs _ (List.mem_append_left _ (List.mem_map_of_mem hx))
    have g1 : (groups.map fun x => refInit x.1 []).mapM (charRows ds) = some (groups.map fun x => x.2.map (rowInit vkName)) := by
      clear hsubs h1 f1 e1 f hrows hrd h0 htw
      induction groups with
      | nil => rfl
      | cons x xs ih =>
        rw [List.map_cons, List.mapM_cons, charRows_ref hn hnd (hsub x List.mem_cons_self) (h18 x List.mem_cons_self).1 (h18 x List.mem_cons_self).2,
          ih (fun y hy => h18 y (List.mem_cons_of_mem _ hy)) (fun y hy => hsub y (List.mem_cons_of_mem _ hy))]
        rfl
    have g2 := charRows_ref hn hnd (p := "Num".toList) (x := (1, numpad)) (hsubs _ (by simp)) (by decide) (by decide)
    rw [List.mapM_append, g1, List.mapM_cons, g2]
    rfl
  rw [hm]
  simp only [Option.bind_some]
  congr 1
  congr 1
  simp [List.map_flatten, List.map_map, Function.comp_def]

theorem storedChar_read {printable : Char → Bool} {vkName : VkVal → Text} (hn : CNames vkName) {m : List CharEntry} {text : Text}
    (h : vkToWcharText printable vkName m = .ok text) {tables : List (Option WTable)} (ht : vkToWchar m = .ok tables)
    (hlen : ∀ e ∈ m, 1 ≤ e.2.2.length ∧ e.2.2.length ≤ 8) :
    ∃ ds, cFile text = some ds ∧ ∀ d : Driver, d.wchars = tables → ∀ v k,
      storedChar ds (vkName v) k = (charOf d v k).map (· % 65536) := by
  refine ⟨_, cFile_read hn h, storedChar_defs hn ht hlen ?_ fun _ h => h⟩
  rw [charDefs_names]
  exact tableNames_nodup (groupby_sorted (fun x : CharEntry => x.2.2.length) _ (insertionSort_sorted _ m)).1

end Lulua
