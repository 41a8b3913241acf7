import Verif.Model.WinKbdTables
import Verif.Spec.CProgram
import Verif.Proofs.WinKbdRead

/-!
# Reading the other C tables
-/

namespace Lulua
open Spec

/-! ### Numbers -/

theorem hexUpper_chars (w n : Nat) : ∀ c ∈ hexUpper w n, wordChar c = true ∧ c ≠ '*' := by
  intro c hc
  unfold hexUpper at hc
  rcases List.mem_append.1 hc with h | h
  · rw [List.eq_of_mem_replicate h]
    decide
  · obtain ⟨d, hd, rfl⟩ := List.mem_map.1 h
    have : ∀ d < 16, wordChar (Lulua.hexDigit d) = true ∧ Lulua.hexDigit d ≠ '*' := by decide
    exact this d (Nat.digits_lt_base (by omega) (List.mem_reverse.1 hd))

theorem hexLower_chars (w n : Nat) : ∀ c ∈ hexLower w n, wordChar c = true := by
  intro c hc
  unfold hexLower at hc
  rcases List.mem_append.1 hc with h | h
  · rw [List.eq_of_mem_replicate h]
    decide
  · obtain ⟨d, hd, rfl⟩ := List.mem_map.1 h
    have : ∀ d < 16, wordChar ("0123456789abcdef".toList.getD d '0') = true := by decide
    exact this d (Nat.digits_lt_base (by omega) (List.mem_reverse.1 hd))

theorem digits_value {f : Nat → Char} (hf : ∀ d < 16, Spec.hexDigit (f d) = some d) {w : Nat} (hw : 1 ≤ w) (n : Nat) :
    digitsValue 16 Spec.hexDigit (List.replicate (w - ((Nat.digits 16 n).reverse.map f).length) '0' ++ (Nat.digits 16 n).reverse.map f) = some n := by
  have hlt : ∀ d ∈ Nat.digits 16 n, d < 16 := fun d hd => Nat.digits_lt_base (by norm_num) hd
  have hz : ∀ k, (List.replicate k '0').foldl (fun a c => do let a ← a; let d ← Spec.hexDigit c; some (a * 16 + d)) (some 0) = some 0 := by
    intro k
    induction k with
    | zero => rfl
    | succ k ih => rw [List.replicate_succ, List.foldl_cons]; exact ih
  have hd : ∀ ds : List Nat, (∀ d ∈ ds, d < 16) →
      (ds.reverse.map f).foldl (fun a c => do let a ← a; let d ← Spec.hexDigit c; some (a * 16 + d)) (some 0) = some (Nat.ofDigits 16 ds) := by
    intro ds
    induction ds with
    | nil => intro _; rfl
    | cons d ds ih =>
      intro h
      simp only [List.reverse_cons, List.map_append, List.foldl_append, List.map_cons, List.map_nil, List.foldl_cons, List.foldl_nil]
      rw [ih (fun x hx => h x (by simp [hx])), hf d (h d (by simp)), Nat.ofDigits_cons]
      simp only [Option.bind_eq_bind, Option.bind_some, Option.some.injEq]
      omega
  unfold digitsValue
  rw [if_neg]
  · rw [List.foldl_append, hz, hd _ hlt, Nat.ofDigits_digits]
  · intro h
    have := congrArg List.length (List.isEmpty_iff.1 h)
    simp only [List.length_append, List.length_replicate, List.length_map, List.length_reverse, List.length_nil] at this
    omega

theorem hexUpper_value {w : Nat} (hw : 1 ≤ w) (n : Nat) : digitsValue 16 Spec.hexDigit (hexUpper w n) = some n :=
  digits_value (f := Lulua.hexDigit) (by decide +kernel) hw n

theorem hexLower_value {w : Nat} (hw : 1 ≤ w) (n : Nat) : digitsValue 16 Spec.hexDigit (hexLower w n) = some n :=
  digits_value (f := fun d => "0123456789abcdef".toList.getD d '0') (by decide +kernel) hw n

theorem hexLower_ne (w n : Nat) : hexLower w n ≠ [] → (hexLower w n).getLast? ≠ some 'u' := by
  intro _ h
  have hm := List.mem_of_getLast? h
  unfold hexLower at hm
  rcases List.mem_append.1 hm with h | h
  · have := List.eq_of_mem_replicate h
    revert this; decide
  · obtain ⟨d, hd, he⟩ := List.mem_map.1 h
    have : ∀ d < 16, "0123456789abcdef".toList.getD d '0' ≠ 'u' := by decide
    exact this d (Nat.digits_lt_base (by omega) (List.mem_reverse.1 hd)) he

theorem hexLower_nonempty {w : Nat} (hw : 1 ≤ w) (n : Nat) : hexLower w n ≠ [] := by
  intro h
  have := hexLower_value hw n
  rw [h] at this
  cases this

/-- The word of a number. -/
def hexWord (w n : Nat) : Text := '0' :: 'x' :: hexLower w n

theorem cNumber_hexWord {w : Nat} (hw : 1 ≤ w) (n : Nat) : cNumber (hexWord w n) = some n := by
  have h1 : (hexWord w n).getLast? ≠ some 'u' := by
    have hne := hexLower_nonempty hw n
    unfold hexWord
    rw [List.getLast?_cons, List.getLast?_cons]
    cases h : (hexLower w n).getLast? with
    | none => exact absurd (List.getLast?_eq_none_iff.1 h) hne
    | some c =>
      have := hexLower_ne w n hne
      rw [h] at this
      simpa using this
  unfold cNumber
  simp only [if_neg h1]
  unfold hexWord
  exact hexLower_value hw n

theorem hexWord_word (w n : Nat) : IsWord (hexWord w n) := by
  refine ⟨List.cons_ne_nil _ _, fun c hc => ?_⟩
  simp only [hexWord, List.mem_cons] at hc
  rcases hc with rfl | rfl | hc
  · decide
  · decide
  · exact hexLower_chars w n c hc

/-! ### Expressions -/

/-- A token that is part of an expression. -/
def Plain : CTok → Prop
  | .punct c => c ≠ ',' ∧ c ≠ '{' ∧ c ≠ '}' ∧ c ≠ ';'
  | .directive _ => False
  | _ => True

instance : DecidablePred Plain := fun t => by unfold Plain; split <;> infer_instance

theorem cInit_plain {t : CTok} (h : Plain t) (l st) : cInitStep (.inside (l :: st) .nothing) t = some (.inside (l :: st) (.expr [t])) := by
  cases t with
  | punct c =>
    obtain ⟨h1, h2, h3, _⟩ := h
    unfold cInitStep
    split <;> simp_all
  | directive l => exact h.elim
  | _ => rfl

theorem cInit_plain_expr {t : CTok} (h : Plain t) (l st ts) :
    cInitStep (.inside (l :: st) (.expr ts)) t = some (.inside (l :: st) (.expr (t :: ts))) := by
  cases t with
  | punct c =>
    obtain ⟨h1, h2, h3, _⟩ := h
    unfold cInitStep
    split <;> simp_all
  | directive l => exact h.elim
  | _ => rfl

theorem run_expr_more (l st) : ∀ (ts acc : List CTok), (∀ t ∈ ts, Plain t) →
    ts.foldlM cInitStep (.inside (l :: st) (.expr acc)) = some (.inside (l :: st) (.expr (ts.reverse ++ acc)))
  | [], _, _ => rfl
  | t :: ts, acc, h => by
    rw [List.foldlM_cons, cInit_plain_expr (h t List.mem_cons_self)]
    simp only [Option.bind_eq_bind, Option.bind_some]
    rw [run_expr_more l st ts (t :: acc) fun x hx => h x (List.mem_cons_of_mem _ hx)]
    simp

theorem run_expr (l st) {ts : List CTok} (hne : ts ≠ []) (h : ∀ t ∈ ts, Plain t) :
    ts.foldlM cInitStep (.inside (l :: st) .nothing) = some (.inside (l :: st) (.expr ts.reverse)) := by
  cases ts with
  | nil => exact absurd rfl hne
  | cons t ts =>
    rw [List.foldlM_cons, cInit_plain (h t List.mem_cons_self)]
    simp only [Option.bind_eq_bind, Option.bind_some]
    rw [run_expr_more l st ts [t] fun x hx => h x (List.mem_cons_of_mem _ hx)]
    simp

/-- Tokens that make an item. -/
structure IsExpr (ts : List CTok) : Prop where
  ne : ts ≠ []
  plain : ∀ t ∈ ts, Plain t

theorem run_item {ts : List CTok} (h : IsExpr ts) (l st) :
    (ts ++ [CTok.punct ',']).foldlM cInitStep (.inside (l :: st) .nothing) = some (.inside ((.expr ts :: l) :: st) .nothing) := by
  rw [List.foldlM_append, run_expr l st h.ne h.plain]
  run_steps
  rw [List.reverse_reverse]

/-- A row of two items. -/
def pairToks (a b : List CTok) : List CTok := [.punct '{'] ++ ((a ++ [.punct ',']) ++ (b ++ [.punct '}']))

theorem run_pair {a b : List CTok} (ha : IsExpr a) (hb : IsExpr b) (l st) :
    (pairToks a b).foldlM cInitStep (.inside (l :: st) .nothing) = some (.inside ((.list [.expr a, .expr b] :: l) :: st) .closed) := by
  unfold pairToks
  rw [List.foldlM_append]
  run_steps
  rw [List.foldlM_append, run_item ha]
  simp only [Option.bind_eq_bind, Option.bind_some]
  rw [List.foldlM_append, run_expr _ _ hb.ne hb.plain]
  run_steps
  simp

theorem run_pair_comma {a b : List CTok} (ha : IsExpr a) (hb : IsExpr b) (l st) :
    (pairToks a b ++ [CTok.punct ',']).foldlM cInitStep (.inside (l :: st) .nothing) =
      some (.inside ((.list [.expr a, .expr b] :: l) :: st) .nothing) := by
  rw [List.foldlM_append, run_pair ha hb]
  rfl

theorem run_many {α : Type} {f : α → List CTok} {g : α → CInit} (st : List (List CInit)) : ∀ (xs : List α)
    (_ : ∀ x ∈ xs, ∀ l, (f x).foldlM cInitStep (.inside (l :: st) .nothing) = some (.inside ((g x :: l) :: st) .nothing)) (l : List CInit),
    ((xs.map f).flatten).foldlM cInitStep (.inside (l :: st) .nothing) = some (.inside (((xs.map g).reverse ++ l) :: st) .nothing)
  | [], _, l => rfl
  | x :: xs, h, l => by
    rw [List.map_cons, List.flatten_cons, List.foldlM_append, h x List.mem_cons_self]
    simp only [Option.bind_eq_bind, Option.bind_some]
    rw [run_many st xs fun y hy => h y (List.mem_cons_of_mem _ hy)]
    simp

theorem IsExpr.word (w : Text) : IsExpr [.word w] := ⟨List.cons_ne_nil _ _, by simp [Plain]⟩

/-! ### Names joined by `|` -/

def orToks (vkName : VkVal → Text) (v : List VkVal) : List CTok := (v.map fun x => CTok.word (vkName x)).intersperse (.punct '|')

theorem intersperse_mem {s x : CTok} : ∀ {ts : List CTok}, x ∈ ts.intersperse s → x = s ∨ x ∈ ts
  | [], h => by simp at h
  | [t], h => .inr (by simpa using h)
  | t :: u :: ts, h => by
    rw [List.intersperse_cons_cons, List.mem_cons, List.mem_cons] at h
    rcases h with rfl | rfl | h
    · exact .inr List.mem_cons_self
    · exact .inl rfl
    · rcases intersperse_mem h with h | h
      · exact .inl h
      · exact .inr (List.mem_cons_of_mem _ h)

theorem orToks_expr (vkName : VkVal → Text) {v : List VkVal} (hv : v ≠ []) : IsExpr (orToks vkName v) := by
  refine ⟨?_, fun t ht => ?_⟩
  · match v, hv with
    | [x], _ => simp [orToks]
    | x :: y :: v, _ => simp [orToks]
  · rcases intersperse_mem ht with rfl | h
    · decide
    · obtain ⟨x, _, rfl⟩ := List.mem_map.1 h
      trivial

theorem enumOr_toks {vkName : VkVal → Text} (hn : ∀ v, IsWord (vkName v)) : ∀ v : List VkVal, Toks (enumOr vkName v) (orToks vkName v)
  | [] => fun c _ r => rfl
  | [x] => by
    have e : enumOr vkName [x] = vkName x := by simp [enumOr, List.intercalate]
    rw [e]
    exact (hn x).toks
  | x :: y :: v => by
    have ih := enumOr_toks hn (y :: v)
    have e : enumOr vkName (x :: y :: v) = vkName x ++ (" | ".toList ++ enumOr vkName (y :: v)) := by
      simp [enumOr, List.intercalate]
    rw [e, show orToks vkName (x :: y :: v) = [.word (vkName x)] ++ ([.punct '|'] ++ orToks vkName (y :: v)) from rfl]
    have hc : Closed " | ".toList [.punct '|'] := by decide
    exact (hn x).toks.append (hc.append_toks ih) (c := ' ') (r := "| ".toList ++ enumOr vkName (y :: v)) rfl (by decide)

theorem wordChar_star {c : Char} (h : wordChar c = true) : c ≠ '*' := by
  rintro rfl
  revert h
  decide

theorem enumOr_star {vkName : VkVal → Text} (hn : ∀ v, IsWord (vkName v)) (v : List VkVal) : '*' ∉ enumOr vkName v := by
  induction v with
  | nil => simp [enumOr, List.intercalate]
  | cons x v ih =>
    cases v with
    | nil =>
      have e : enumOr vkName [x] = vkName x := by simp [enumOr, List.intercalate]
      rw [e]
      exact fun h => wordChar_star ((hn x).2 _ h) rfl
    | cons y v =>
      have e : enumOr vkName (x :: y :: v) = vkName x ++ (" | ".toList ++ enumOr vkName (y :: v)) := by
        simp [enumOr, List.intercalate]
      rw [e]
      simp only [List.mem_append, not_or]
      exact ⟨fun h => wordChar_star ((hn x).2 _ h) rfl, by decide, ih⟩

theorem remark_closed {a t b : Text} {x : List CTok} (ha : cRun .start a = (.comment, x)) (ht : '*' ∉ t) (hb : cRun .comment b = (.start, [])) :
    Closed (a ++ t ++ b) x := by
  unfold Closed
  rw [List.append_assoc, cRun_append, ha, cRun_append, cRun_comment ht]
  simp only [hb, List.append_nil]

/-! ### The tables of scancodes -/

theorem ausVKLine_closed {vkName : VkVal → Text} (hn : ∀ v, IsWord (vkName v)) (i : Nat) (v : List VkVal) :
    Closed (ausVKLine vkName i v) (orToks vkName v ++ [.punct ',']) := by
  have h1 : Closed ("\t /* ".toList ++ hexUpper 2 i ++ " */ ".toList) [] :=
    remark_closed (by decide) (fun h => (hexUpper_chars 2 i _ h).2 rfl) (by decide)
  have h2 : Closed ",".toList [.punct ','] := by decide
  have h3 := (enumOr_toks hn v).close h2 (c := ',') (r := []) rfl (by decide)
  have := h1.append h3
  unfold ausVKLine
  simp only [List.append_assoc, List.nil_append] at this ⊢
  exact this

theorem vscLine_closed {vkName : VkVal → Text} (hn : ∀ v, IsWord (vkName v)) (x : Nat × List VkVal) :
    Closed (vscLine vkName x) (pairToks [.word (hexWord 1 x.1)] (orToks vkName x.2) ++ [.punct ',']) := by
  have h1 : Closed "\t{ ".toList [.punct '{'] := by decide
  have h2 : Closed ", ".toList [.punct ','] := by decide
  have h3 : Closed " },".toList [.punct '}', .punct ','] := by decide
  have h4 := (enumOr_toks hn x.2).close h3 (c := ' ') (r := "},".toList) rfl (by decide)
  have h5 := (hexWord_word 1 x.1).toks.close (h2.append h4) (c := ',') (r := ' ' :: (enumOr vkName x.2 ++ " },".toList)) rfl (by decide)
  have := h1.append h5
  have e : vscLine vkName x = "\t{ ".toList ++ (hexWord 1 x.1 ++ (", ".toList ++ (enumOr vkName x.2 ++ " },".toList))) := by
    have h0 : "\t{ 0x".toList = "\t{ ".toList ++ ['0', 'x'] := by decide
    unfold vscLine hexWord
    rw [h0]
    simp only [List.append_assoc, List.cons_append, List.nil_append]
  rw [e]
  have e2 : [CTok.punct '{'] ++ ([.word (hexWord 1 x.1)] ++ ([.punct ','] ++ (orToks vkName x.2 ++ [.punct '}', .punct ',']))) =
      pairToks [.word (hexWord 1 x.1)] (orToks vkName x.2) ++ [.punct ','] := by simp [pairToks]
  rw [← e2]
  exact this

theorem nameLine_closed {x : Nat × String} (h : ∀ c ∈ x.2.toList, c ≠ '"' ∧ c ≠ '\\' ∧ c ≠ '\n') :
    Closed (nameLine x) (pairToks [.word (hexWord 2 x.1)] [.word ['L'], .str x.2.toList] ++ [.punct ',']) := by
  have hs : ∀ (t acc : Text), (∀ c ∈ t, c ≠ '"' ∧ c ≠ '\\' ∧ c ≠ '\n') → cRun (.str acc) t = (.str (t.reverse ++ acc), []) := by
    intro t
    induction t with
    | nil => intro acc _; rfl
    | cons c t ih =>
      intro acc h
      obtain ⟨h1, h2, h3⟩ := h c List.mem_cons_self
      have h23 : ¬ (c = '\\' ∨ c = '\n') := by simp [h2, h3]
      simp only [cRun, cStep, if_neg h1, if_neg h23, ih _ fun d hd => h d (List.mem_cons_of_mem _ hd), List.append_nil,
        List.reverse_cons, List.append_assoc, List.singleton_append]
  have h1 : Closed "\t{".toList [.punct '{'] := by decide
  have h2 : Closed (", L\"".toList ++ (x.2.toList ++ "\"},".toList)) [.punct ',', .word ['L'], .str x.2.toList, .punct '}', .punct ','] := by
    unfold Closed
    rw [cRun_append, show cRun .start ", L\"".toList = (.str [], [.punct ',', .word ['L']]) by decide, cRun_append, hs _ _ h, List.append_nil]
    show ((cRun (.str x.2.toList.reverse) ['"', '}', ',']).1, _) = _
    rw [show "\"},".toList = ['"', '}', ','] by decide]
    have : cRun (.str x.2.toList.reverse) ['"', '}', ','] = (.start, [.str x.2.toList, .punct '}', .punct ',']) := by
      have := List.reverse_reverse x.2.toList
      simp only [cRun, cStep, if_true, this]
      rfl
    rw [this]
    rfl
  have h3 := (hexWord_word 2 x.1).toks.close h2 (c := ',') (r := " L\"".toList ++ (x.2.toList ++ "\"},".toList)) rfl (by decide)
  have := h1.append h3
  have e : nameLine x = "\t{".toList ++ (hexWord 2 x.1 ++ (", L\"".toList ++ (x.2.toList ++ "\"},".toList))) := by
    have h0 : "\t{0x".toList = "\t{".toList ++ ['0', 'x'] := by decide
    unfold nameLine hexWord
    rw [h0]
    simp only [List.append_assoc, List.cons_append, List.nil_append]
  rw [e]
  have e2 : [CTok.punct '{'] ++ ([.word (hexWord 2 x.1)] ++ [.punct ',', .word ['L'], .str x.2.toList, .punct '}', .punct ',']) =
      pairToks [.word (hexWord 2 x.1)] [.word ['L'], .str x.2.toList] ++ [.punct ','] := by simp [pairToks]
  rw [← e2]
  exact this

/-! ### Definitions -/

theorem cDef_words (w1 w2 name : Text) (ts : List CTok) (l : List CInit)
    (h : ts.foldlM cInitStep (.inside [[]] .nothing) = some (.done (.list l))) :
    cDef ([.word "static".toList, .word w1, .word w2, .word name, .punct '[', .punct ']', .punct '=', .punct '{'] ++ ts) =
      some ⟨w1 ++ ' ' :: w2, name, l⟩ := by
  show cInit "static".toList (w1 ++ ' ' :: w2) name (.punct '{' :: ts) = _
  rw [cInit, if_pos rfl, List.foldlM_cons, step_open]
  simp only [Option.bind_eq_bind, Option.bind_some, h]

theorem cDef_single (type name : Text) (ts : List CTok) (l : List CInit)
    (h : ts.foldlM cInitStep (.inside [[]] .nothing) = some (.done (.list l))) :
    cDef ([.word "static".toList, .word type, .word name, .punct '=', .punct '{'] ++ ts) = some ⟨type, name, l⟩ := by
  show cInit "static".toList type name (.punct '{' :: ts) = _
  rw [cInit, if_pos rfl, List.foldlM_cons, step_open]
  simp only [Option.bind_eq_bind, Option.bind_some, h]

/-- The head of the definition of an array. -/
def arrayHead (type name : Text) : List CTok :=
  [.word "static".toList, .word type, .word name, .punct '[', .punct ']', .punct '=', .punct '{']

/-- Unprefixed scancodes. -/
def ausPart (vkName : VkVal → Text) (m : Dict (List Nat) (List VkVal)) : List CTok :=
  [.word "static".toList, .word "unsigned".toList, .word "short".toList, .word "ausVK".toList, .punct '[', .punct ']', .punct '=', .punct '{'] ++
    (((ausVK m).map fun v => orToks vkName v ++ [.punct ',']).flatten ++ [.punct '}'])

def ausDef (vkName : VkVal → Text) (m : Dict (List Nat) (List VkVal)) : CDef :=
  ⟨"unsigned".toList ++ ' ' :: "short".toList, "ausVK".toList, (ausVK m).map fun v => .expr (orToks vkName v)⟩

theorem run_close (l : List CInit) : [CTok.punct '}'].foldlM cInitStep (.inside [l] .nothing) = some (.done (.list l.reverse)) := rfl

theorem run_array {α : Type} {f : α → List CTok} {g : α → CInit} (xs : List α)
    (h : ∀ x ∈ xs, ∀ l, (f x).foldlM cInitStep (.inside [l] .nothing) = some (.inside [g x :: l] .nothing)) :
    ((xs.map f).flatten ++ [CTok.punct '}']).foldlM cInitStep (.inside [[]] .nothing) = some (.done (.list (xs.map g))) := by
  rw [List.foldlM_append, run_many [] xs h, Option.bind_eq_bind, Option.bind_some, run_close]
  simp

theorem cDef_aus (vkName : VkVal → Text) {m : Dict (List Nat) (List VkVal)} (h : ∀ v ∈ ausVK m, v ≠ []) :
    cDef (ausPart vkName m) = some (ausDef vkName m) := by
  refine cDef_words _ _ _ _ _ (run_array (g := fun v => CInit.expr (orToks vkName v)) _ fun v hv l => ?_)
  exact run_item (orToks_expr vkName (h v hv)) l []

/-- Prefixed scancodes. -/
def vscPart (vkName : VkVal → Text) (name : Text) (rows : List (Nat × List VkVal)) : List CTok :=
  arrayHead "VSC_VK".toList name ++
    ((rows.map fun x => pairToks [.word (hexWord 1 x.1)] (orToks vkName x.2) ++ [.punct ',']).flatten ++ [.punct '}'])

def vscDef (vkName : VkVal → Text) (name : Text) (rows : List (Nat × List VkVal)) : CDef :=
  ⟨"VSC_VK".toList, name, rows.map fun x => .list [.expr [.word (hexWord 1 x.1)], .expr (orToks vkName x.2)]⟩

theorem cDef_vsc (vkName : VkVal → Text) (name : Text) {rows : List (Nat × List VkVal)} (h : ∀ x ∈ rows, x.2 ≠ []) :
    cDef (vscPart vkName name rows) = some (vscDef vkName name rows) := by
  refine cDef_cons _ _ _ _ (run_array (g := fun x : Nat × List VkVal => CInit.list [.expr [.word (hexWord 1 x.1)], .expr (orToks vkName x.2)]) _ fun x hx l => ?_)
  exact run_pair_comma (.word _) (orToks_expr vkName (h x hx)) l []

/-- Names. -/
def namesPart (name : Text) (rows : List (Nat × String)) : List CTok :=
  arrayHead "VSC_LPWSTR".toList name ++
    ((rows.map fun x => pairToks [.word (hexWord 2 x.1)] [.word ['L'], .str x.2.toList] ++ [.punct ',']).flatten ++
      (pairToks [.word "0x00".toList] [.word "NULL".toList] ++ [.punct ','] ++ [.punct '}']))

def namesDef (name : Text) (rows : List (Nat × String)) : CDef :=
  ⟨"VSC_LPWSTR".toList, name, (rows.map fun x => .list [.expr [.word (hexWord 2 x.1)], .expr [.word ['L'], .str x.2.toList]]) ++
    [.list [.expr [.word "0x00".toList], .expr [.word "NULL".toList]]]⟩

theorem cDef_names (name : Text) (rows : List (Nat × String)) : cDef (namesPart name rows) = some (namesDef name rows) := by
  refine cDef_cons _ _ _ _ ?_
  rw [List.foldlM_append, run_many (g := fun x : Nat × String => CInit.list [.expr [.word (hexWord 2 x.1)], .expr [.word ['L'], .str x.2.toList]]) []]
  · rw [Option.bind_eq_bind, Option.bind_some, List.foldlM_append, run_pair_comma (.word _) (.word _), Option.bind_eq_bind, Option.bind_some, run_close]
    simp
  · intro x _ l
    exact run_pair_comma (.word _) ⟨List.cons_ne_nil _ _, by simp [Plain]⟩ l []

/-- Bits of modifiers. -/
def bitsPart (vkName : VkVal → Text) : List CTok :=
  arrayHead "VK_TO_BIT".toList "aVkToBits".toList ++
    ((vkToBitsTable.map fun x => pairToks [.word (vkName (.key x.1))] [.word (hexWord 1 x.2)] ++ [.punct ',']).flatten ++
      (pairToks [.word ['0']] [.word "0x0".toList] ++ [.punct '}']))

def bitsDef (vkName : VkVal → Text) : CDef :=
  ⟨"VK_TO_BIT".toList, "aVkToBits".toList, (vkToBitsTable.map fun x => .list [.expr [.word (vkName (.key x.1))], .expr [.word (hexWord 1 x.2)]]) ++
    [.list [.expr [.word ['0']], .expr [.word "0x0".toList]]]⟩

theorem cDef_bits (vkName : VkVal → Text) : cDef (bitsPart vkName) = some (bitsDef vkName) := by
  refine cDef_cons _ _ _ _ ?_
  rw [List.foldlM_append, run_many (g := fun x : Nat × Nat => CInit.list [.expr [.word (vkName (.key x.1))], .expr [.word (hexWord 1 x.2)]]) []]
  · rw [Option.bind_eq_bind, Option.bind_some, List.foldlM_append, run_pair (.word _) (.word _), Option.bind_eq_bind, Option.bind_some]
    rw [show ∀ l, [CTok.punct '}'].foldlM cInitStep (.inside [l] .closed) = some (.done (.list l.reverse)) from fun _ => rfl]
    simp
  · intro x _ l
    exact run_pair_comma (.word _) (.word _) l []

/-- Layers. -/
def modsPart (nums : List Nat) : List CTok :=
  [.word "static".toList, .word "MODIFIERS".toList, .word "CharModifiers".toList, .punct '=', .punct '{'] ++
    (([.punct '&', .word "aVkToBits".toList, .punct '[', .word ['0'], .punct ']'] ++ [.punct ',']) ++ (([.word "24".toList] ++ [.punct ',']) ++
      ([.punct '{'] ++ ((nums.map fun n => [CTok.word (hexWord 1 n)] ++ [.punct ',']).flatten ++ [.punct '}', .punct '}']))))

def modsDef (nums : List Nat) : CDef :=
  ⟨"MODIFIERS".toList, "CharModifiers".toList, [.expr [.punct '&', .word "aVkToBits".toList, .punct '[', .word ['0'], .punct ']'],
    .expr [.word "24".toList], .list (nums.map fun n => .expr [.word (hexWord 1 n)])]⟩

theorem cDef_mods (nums : List Nat) : cDef (modsPart nums) = some (modsDef nums) := by
  refine cDef_single _ _ _ _ ?_
  rw [List.foldlM_append, run_item ⟨List.cons_ne_nil _ _, by simp [Plain]⟩, Option.bind_eq_bind, Option.bind_some,
    List.foldlM_append, run_item (.word _), Option.bind_eq_bind, Option.bind_some, List.foldlM_append]
  rw [show ∀ l, [CTok.punct '{'].foldlM cInitStep (.inside [l] .nothing) = some (.inside [[], l] .nothing) from fun _ => rfl]
  rw [Option.bind_eq_bind, Option.bind_some, List.foldlM_append,
    run_many (g := fun n : Nat => CInit.expr [.word (hexWord 1 n)]) _ _ (fun n _ l => run_item (.word _) l _), Option.bind_eq_bind, Option.bind_some]
  rw [show ∀ l l', [CTok.punct '}', .punct '}'].foldlM cInitStep (.inside [l, l'] .nothing) = some (.done (.list (.list l.reverse :: l').reverse)) from
    fun _ _ => rfl]
  simp

/-! ### No semicolon within a definition -/

theorem plain_semi {ts : List CTok} (h : ∀ t ∈ ts, Plain t) : CTok.punct ';' ∉ ts := fun hm => (h _ hm).2.2.2 rfl

theorem pairToks_semi {a b : List CTok} (ha : CTok.punct ';' ∉ a) (hb : CTok.punct ';' ∉ b) : CTok.punct ';' ∉ pairToks a b := by
  simp [pairToks, ha, hb]

theorem flatten_semi {α : Type} {f : α → List CTok} {xs : List α} (h : ∀ x ∈ xs, CTok.punct ';' ∉ f x) : CTok.punct ';' ∉ (xs.map f).flatten := by
  intro hm
  obtain ⟨l, hl, hm⟩ := List.mem_flatten.1 hm
  obtain ⟨x, hx, rfl⟩ := List.mem_map.1 hl
  exact h x hx hm

theorem append_semi {a b : List CTok} (ha : CTok.punct ';' ∉ a) (hb : CTok.punct ';' ∉ b) : CTok.punct ';' ∉ a ++ b := by
  simp [ha, hb]

theorem orToks_semi (vkName : VkVal → Text) (v : List VkVal) : CTok.punct ';' ∉ orToks vkName v := by
  cases v with
  | nil => simp [orToks]
  | cons x v => exact plain_semi (orToks_expr vkName (List.cons_ne_nil x v)).plain

theorem ausPart_semi (vkName : VkVal → Text) (m : Dict (List Nat) (List VkVal)) : CTok.punct ';' ∉ ausPart vkName m :=
  append_semi (by simp) (append_semi (flatten_semi fun v _ => append_semi (orToks_semi _ _) (by decide)) (by decide))

theorem vscPart_semi (vkName : VkVal → Text) (name : Text) (rows : List (Nat × List VkVal)) : CTok.punct ';' ∉ vscPart vkName name rows :=
  append_semi (by simp [arrayHead]) (append_semi (flatten_semi fun x _ =>
    append_semi (pairToks_semi (by simp) (orToks_semi _ _)) (by decide)) (by decide))

theorem namesPart_semi (name : Text) (rows : List (Nat × String)) : CTok.punct ';' ∉ namesPart name rows :=
  append_semi (by simp [arrayHead]) (append_semi (flatten_semi fun x _ =>
    append_semi (pairToks_semi (by simp) (by simp)) (by decide)) (append_semi (append_semi (pairToks_semi (by simp) (by simp)) (by decide)) (by decide)))

theorem bitsPart_semi (vkName : VkVal → Text) : CTok.punct ';' ∉ bitsPart vkName :=
  append_semi (by simp [arrayHead]) (append_semi (flatten_semi fun x _ =>
    append_semi (pairToks_semi (by simp) (by simp)) (by decide)) (append_semi (pairToks_semi (by simp) (by simp)) (by decide)))

theorem modsPart_semi (nums : List Nat) : CTok.punct ';' ∉ modsPart nums :=
  append_semi (by simp) (append_semi (by simp) (append_semi (by simp) (append_semi (by decide) (append_semi (flatten_semi fun x _ => by simp) (by decide)))))

end Lulua
