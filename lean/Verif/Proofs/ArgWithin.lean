import Verif.Proofs.ArgSpell

/-!
# Proofs about the words of commands
-/

namespace Lulua
open Spec

section
variable {w : ArgWorld} {acts : List ArgAction} {helps : List Text}
  {sub : Text → List Text → Except ArgStop (Dict String ArgVal × List Text)}

/-- Options are followed by words of the command; what matters is what its parser makes of them. -/
theorem parseKnown_rest {p : ArgParser} {os : List GivenOpt} (h : ∀ o ∈ os, o.Ok w p.actions) {b : Text} {bs bs' : List Text}
    {tb tb' : List (Text × ArgTok)} (hb : tokens w.uni p.actions (b :: bs) = .ok ((b, .arg) :: tb))
    (hb' : tokens w.uni p.actions (b :: bs') = .ok ((b, .arg) :: tb')) {r : Except ArgStop ArgState}
    (hc : consumePositionals w (p.actions.map (·.help) ++ p.helps) sub (p.after os) ((b, .arg) :: tb) =
      r.map fun s => ({ s with todo := [] }, []))
    (hc' : consumePositionals w (p.actions.map (·.help) ++ p.helps) sub (p.after os) ((b, .arg) :: tb') =
      r.map fun s => ({ s with todo := [] }, [])) :
    p.parseKnown w sub (os.flatMap (·.words) ++ b :: bs) = p.parseKnown w sub (os.flatMap (·.words) ++ b :: bs') := by
  cases r with
  | error e =>
    have h1 : ∀ (ts : List (Text × ArgTok)), consumePositionals w (p.actions.map (·.help) ++ p.helps) sub (p.after os) ((b, .arg) :: ts) =
        .error e → ∀ f, ((b, ArgTok.arg) :: ts).length < f →
          parseLoop w p.actions (p.actions.map (·.help) ++ p.helps) sub f (p.after os) ((b, .arg) :: ts) = .error e := by
      intro ts hc f hf
      obtain ⟨f, rfl⟩ : ∃ g, f = g + 1 := ⟨f - 1, by omega⟩
      exact parseLoop_positionals_error rfl hc f
    rw [parseKnown_opts h hb (h1 tb hc), parseKnown_opts h hb' (h1 tb' hc')]
  | ok s =>
    rw [parseKnown_opts h hb (r := .ok { s with todo := [] }) (fun f hf => parseLoop_positionals rfl hc rfl f hf),
      parseKnown_opts h hb' (r := .ok { s with todo := [] }) (fun f hf => parseLoop_positionals rfl hc' rfl f hf)]

theorem start_congr {p : ArgProgram} {x y : List Text} (h : p.parser.parseKnown w (p.sub w) x = p.parser.parseKnown w (p.sub w) y) :
    p.start w x = p.start w y := by
  unfold ArgProgram.start
  rw [h]

/-- A command, and then another argument. -/
def commandThen (w : ArgWorld) (helps : List Text) (sub : Text → List Text → Except ArgStop (Dict String ArgVal × List Text))
    (st : ArgState) (a b : ArgAction) (ws : List Text) (o : Text) : Except ArgStop ArgState := do
  let s ← takeAction w helps sub st a ws
  takeAction w helps sub s b [o]

theorem consume_commandThen {st : ArgState} {a b : ArgAction} (ht : st.todo = [a, b]) (hk : a.kind = .command)
    (hb : b.kind = .store) (hm : b.many = false) (c o : Text) (r : List (Text × ArgTok)) :
    consumePositionals w helps sub st ((c, .arg) :: (r ++ [(o, .arg)])) =
      (commandThen w helps sub st a b (c :: r.map (·.1)) o).map fun s => ({ s with todo := [] }, []) := by
  rw [consume_command_last ht hk hb hm, commandThen]
  cases takeAction w helps sub st a (c :: r.map (·.1)) with
  | error e => rfl
  | ok s =>
    simp only [bind, Except.bind]
    cases takeAction w helps sub s b [o] <;> rfl

theorem consume_commandOnly {st : ArgState} {a : ArgAction} (ht : st.todo = [a]) (hk : a.kind = .command) (c : Text)
    (r : List (Text × ArgTok)) : consumePositionals w helps sub st ((c, .arg) :: r) =
      (takeAction w helps sub st a (c :: r.map (·.1))).map fun s => ({ s with todo := [] }, []) := by
  rw [consume_command ht hk]
  cases takeAction w helps sub st a (c :: r.map (·.1)) <;> rfl

theorem commandThen_congr {st : ArgState} {a b : ArgAction} (hk : a.kind = .command) {c o : Text} {ws ws' : List Text}
    (h : sub c ws = sub c ws') : commandThen w helps sub st a b (c :: ws) o = commandThen w helps sub st a b (c :: ws') o := by
  simp only [commandThen, takeAction, hk, h]

theorem takeAction_command {st : ArgState} {a : ArgAction} (hk : a.kind = .command) {c : Text} {ws ws' : List Text}
    (h : sub c ws = sub c ws') : takeAction w helps sub st a (c :: ws) = takeAction w helps sub st a (c :: ws') := by
  simp only [takeAction, hk, h]

end

/-- The parsers of `lulua-render` and `lulua-analyze` are not confused by proper words. -/
theorem common_seen {u : UniNum} {rest : List ArgAction} (hr : optionFlags rest = []) {t : Text} (h : Proper t) :
    ∃ k, classify u (commonActions rest) t = .ok k := by
  have hflags : optionFlags (commonActions rest) = [("-h".toList, helpAction), ("--help".toList, helpAction), ("-l".toList, layoutAction),
      ("--layout".toList, layoutAction), ("-k".toList, keyboardAction), ("--keyboard".toList, keyboardAction)] := by
    have h1 : optionFlags (commonActions rest) = optionFlags [helpAction, layoutAction, keyboardAction] ++ optionFlags rest := by
      simp [optionFlags, commonActions]
    rw [h1, hr]
    rfl
  have htup : ∀ t, t.head? = some '-' → t.length ≠ 1 → Proper t → (optionTuples (commonActions rest) t).length ≤ 1 := by
    intro t hd hl ht
    obtain ⟨c, r, rfl⟩ : ∃ c r, t = '-' :: c :: r := by
      match t, hd, hl with
      | [x], _, hl => exact absurd rfl hl
      | x :: c :: r, hd, _ =>
        simp only [List.head?_cons, Option.some.injEq] at hd
        exact ⟨c, r, by rw [hd]⟩
    · by_cases hc : c = '-'
      · subst hc
        cases r with
        | nil => exact absurd rfl ht.1
        | cons c r =>
          have hce : c ≠ '=' := by
            rintro rfl
            exact ht.2 ⟨r, rfl⟩
          have hs : (splitFirst '=' ('-' :: '-' :: c :: r)).1 = '-' :: '-' :: c :: (splitFirst '=' r).1 := by
            rw [splitFirst_fst_cons (by decide), splitFirst_fst_cons (by decide), splitFirst_fst_cons hce]
          simp only [optionTuples, hflags, hs]
          have hp : ∀ (x : Char) (xs : Text), x ≠ c → ('-' :: '-' :: c :: (splitFirst '=' r).1).isPrefixOf ('-' :: '-' :: x :: xs) = false := by
            intro x xs hx
            simp [List.isPrefixOf, Ne.symm hx]
          have hq : ∀ x : Char, ('-' :: '-' :: c :: (splitFirst '=' r).1).isPrefixOf ['-', x] = false := by
            intro x
            simp [List.isPrefixOf]
          rw [show "-h".toList = ['-', 'h'] from rfl, show "-l".toList = ['-', 'l'] from rfl, show "-k".toList = ['-', 'k'] from rfl,
            show "--help".toList = '-' :: '-' :: 'h' :: "elp".toList from rfl,
            show "--layout".toList = '-' :: '-' :: 'l' :: "ayout".toList from rfl,
            show "--keyboard".toList = '-' :: '-' :: 'k' :: "eyboard".toList from rfl]
          generalize "elp".toList = x1
          generalize "ayout".toList = x2
          generalize "eyboard".toList = x3
          simp only [List.filterMap_cons, List.filterMap_nil, hq, Bool.false_eq_true, if_false]
          by_cases h1 : 'h' = c
          · subst h1
            rw [hp 'l' x2 (by decide), hp 'k' x3 (by decide)]
            simp only [Bool.false_eq_true, if_false]
            split <;> simp
          · rw [hp 'h' x1 h1]
            by_cases h2 : 'l' = c
            · subst h2
              rw [hp 'k' x3 (by decide)]
              simp only [Bool.false_eq_true, if_false]
              split <;> simp
            · rw [hp 'l' x2 h2]
              simp only [Bool.false_eq_true, if_false]
              split <;> simp
      · have hopt : optionTuples (commonActions rest) ('-' :: c :: r) = (optionFlags (commonActions rest)).filterMap fun f =>
            if f.1 = ['-', c] then some (f.2, f.1, some (false, r))
            else if ('-' :: c :: r).isPrefixOf f.1 then some (f.2, f.1, none) else none := by
          rw [optionTuples.eq_def]
          split
          · rename_i heq
            simp only [List.cons.injEq] at heq
            exact absurd heq.2.1 hc
          · rfl
        rw [hopt, hflags]
        have hp : ∀ (xs : Text), ('-' :: c :: r).isPrefixOf ('-' :: '-' :: xs) = false := by
          intro xs
          simp [List.isPrefixOf, hc]
        have hq : ∀ x : Char, x ≠ c → ('-' :: c :: r).isPrefixOf ['-', x] = false := by
          intro x hx
          simp [List.isPrefixOf, Ne.symm hx]
        have hn : ∀ (xs : Text), '-' :: '-' :: xs ≠ ['-', c] := by
          intro xs hx
          simp only [List.cons.injEq] at hx
          exact hc hx.2.1.symm
        rw [show "-h".toList = ['-', 'h'] from rfl, show "-l".toList = ['-', 'l'] from rfl, show "-k".toList = ['-', 'k'] from rfl,
          show "--help".toList = '-' :: '-' :: "help".toList from rfl,
          show "--layout".toList = '-' :: '-' :: "layout".toList from rfl,
          show "--keyboard".toList = '-' :: '-' :: "keyboard".toList from rfl]
        generalize "help".toList = x1
        generalize "layout".toList = x2
        generalize "keyboard".toList = x3
        simp only [List.filterMap_cons, List.filterMap_nil, hp, hn, Bool.false_eq_true, if_false, List.cons.injEq, and_true, true_and]
        by_cases h1 : 'h' = c
        · subst h1
          simp [List.isPrefixOf]
        · rw [hq 'h' h1]
          by_cases h2 : 'l' = c
          · subst h2
            simp [List.isPrefixOf]
          · rw [hq 'l' h2]
            by_cases h3 : 'k' = c
            · subst h3
              simp
            · rw [hq 'k' h3]
              simp [h1, h2, h3]
  unfold classify
  split
  · exact ⟨_, rfl⟩
  · rename_i hd
    split
    · exact ⟨_, rfl⟩
    · split
      · exact ⟨_, rfl⟩
      · rename_i hl
        simp only
        split
        · exact ⟨_, rfl⟩
        · have := htup t (by simpa using hd) hl h
          split
          · exact ⟨_, rfl⟩
          · rename_i heq
            rw [heq] at this
            simp at this
          · split <;> exact ⟨_, rfl⟩

/-- What comes between the command of `lulua-render` and the output matters as far as the parser of the command cares. -/
theorem render_within {w : ArgWorld} {os : List CommonOpt} (hos : ∀ o ∈ os, o.Good) {c out : Text} {ws ws' : List Text} (hc : PlainWord c)
    (ho : PlainWord out) (hw : ∀ t ∈ ws, Proper t) (hw' : ∀ t ∈ ws', Proper t) (hs : renderProgram.sub w c ws = renderProgram.sub w c ws') :
    renderProgram.start w (os.flatMap (·.words) ++ c :: (ws ++ [out])) =
      renderProgram.start w (os.flatMap (·.words) ++ c :: (ws' ++ [out])) := by
  apply start_congr
  rw [← commonGiven_words]
  have hok : ∀ o ∈ os.map commonGiven, o.Ok w renderProgram.parser.actions := by
    intro o ho
    obtain ⟨o, h1, rfl⟩ := List.mem_map.1 ho
    exact common_ok render_noEq (hos o h1)
  have key : ∀ ws : List Text, (∀ t ∈ ws, Proper t) → ∃ tb, tb.map (·.1) = ws ∧ tokens w.uni renderProgram.parser.actions (c :: (ws ++ [out])) =
      .ok ((c, .arg) :: (tb ++ [(out, .arg)])) := by
    intro ws hw
    have hd : ['-', '-'] ∉ ws := fun h => (hw _ h).1 rfl
    obtain ⟨tb, h1, h2⟩ := tokens_any (u := w.uni) (acts := renderProgram.parser.actions) (fun t ht => common_seen rfl (hw t ht)) hd
    have h3 := tokens_append hd h1 (tokens_plain (u := w.uni) (acts := renderProgram.parser.actions) (ts := [out])
      (fun t ht => by rw [List.mem_singleton.1 ht]; exact ho))
    exact ⟨tb, h2, tokens_cons (plain_ne_dashes hc) (classify_plain (u := w.uni) (acts := renderProgram.parser.actions) hc) h3⟩
  obtain ⟨tb, h1, h2⟩ := key ws hw
  obtain ⟨tb', h1', h2'⟩ := key ws' hw'
  refine parseKnown_rest hok h2 h2' (consume_commandThen rfl rfl rfl rfl c out tb) ((consume_commandThen rfl rfl rfl rfl c out tb').trans ?_)
  rw [h1, h1', commandThen_congr rfl hs]

/-- So do the words behind the command of `lulua-analyze`. -/
theorem analyze_within {w : ArgWorld} {os : List CommonOpt} (hos : ∀ o ∈ os, o.Good) {c : Text} {ws ws' : List Text} (hc : PlainWord c)
    (hw : ∀ t ∈ ws, Proper t) (hw' : ∀ t ∈ ws', Proper t) (hs : analyzeProgram.sub w c ws = analyzeProgram.sub w c ws') :
    analyzeProgram.start w (os.flatMap (·.words) ++ c :: ws) = analyzeProgram.start w (os.flatMap (·.words) ++ c :: ws') := by
  apply start_congr
  rw [← commonGiven_words]
  have hok : ∀ o ∈ os.map commonGiven, o.Ok w analyzeProgram.parser.actions := by
    intro o ho
    obtain ⟨o, h1, rfl⟩ := List.mem_map.1 ho
    exact common_ok analyze_noEq (hos o h1)
  have key : ∀ ws : List Text, (∀ t ∈ ws, Proper t) → ∃ tb, tb.map (·.1) = ws ∧ tokens w.uni analyzeProgram.parser.actions (c :: ws) =
      .ok ((c, .arg) :: tb) := by
    intro ws hw
    obtain ⟨tb, h1, h2⟩ := tokens_any (u := w.uni) (acts := analyzeProgram.parser.actions) (fun t ht => common_seen rfl (hw t ht))
      (fun h => (hw _ h).1 rfl)
    exact ⟨tb, h2, tokens_cons (plain_ne_dashes hc) (classify_plain (u := w.uni) (acts := analyzeProgram.parser.actions) hc) h1⟩
  obtain ⟨tb, h1, h2⟩ := key ws hw
  obtain ⟨tb', h1', h2'⟩ := key ws' hw'
  refine parseKnown_rest hok h2 h2' (consume_commandOnly rfl rfl c tb) ((consume_commandOnly rfl rfl c tb').trans ?_)
  rw [h1, h1', takeAction_command rfl hs]

end Lulua
